import Verif.Lemmas.WhiteSphere
import Verif.Lemmas.Measurable
import Mathlib.Probability.Independence.Basic
import Mathlib.MeasureTheory.Measure.Prod

/-! In a white hollow sphere every place but the first of each ray is spread evenly over the sphere, whatever the others are. -/

namespace Tracer

open Real MeasureTheory ProbabilityTheory

theorem angleDraws_measurable : MeasurableSet angleDraws := measurableSet_Ico.prod measurableSet_Ico

section measurable
variable {X : Type _} [MeasurableSpace X] {v w : X → V3 ℝ} {d : X → ℝ × ℝ}

theorem V3M.rotated (hv : V3M v) (hw : V3M w) : V3M fun x => (rotationToZ (v x)).mulVec (w x) := by
  classical
  have hp : V3M fun x => perpXY (v x) := by
    unfold perpXY
    refine V3M.ite ?_ (V3M.const _) ⟨hv.y, hv.x.neg, measurable_const⟩
    exact (hv.y (measurableSet_singleton 0)).inter (hv.x.neg (measurableSet_singleton 0))
  have hpx := hp.x
  have hpy := hp.y
  have hpz := hp.z
  have hvx := hv.x
  have hvy := hv.y
  have hvz := hv.z
  have hwx := hw.x
  have hwy := hw.y
  have hwz := hw.z
  unfold rotationToZ M3.mulVec V3.cross
  exact ⟨by simp only; fun_prop, by simp only; fun_prop, by simp only; fun_prop⟩

theorem V3M.nextSpot (R : ℝ) (c : V3 ℝ) (hv : V3M v) (hd : Measurable d) : V3M fun x => Tracer.nextSpot R c (v x) (d x) := by
  unfold Tracer.nextSpot inward
  refine (V3M.const c).add (V3M.smul measurable_const (V3M.rotated (V3M.smul measurable_const ((V3M.const c).sub hv)) ?_))
  unfold archPoint
  exact ⟨by simp only; fun_prop, by simp only; fun_prop, by simp only; fun_prop⟩

theorem V3M.whiteSpots (R : ℝ) (c : V3 ℝ) (n : Nat) (p : Nat → V3 ℝ) {ζ : X → Nat → ℝ × ℝ} (hζ : ∀ i, Measurable fun x => ζ x i) (k j : Nat) :
    V3M fun x => Tracer.whiteSpots R c (ζ x) n p k j := by
  induction k with
  | zero => exact V3M.const _
  | succ k ih => exact V3M.nextSpot R c ih (hζ _)

theorem Measured.mem {A : Set (V3 ℝ)} (hA : Measured A) (hv : V3M v) : MeasurableSet {x | v x ∈ A} := hA.preimage ⟨hv.x, hv.y, hv.z⟩

end measurable

section
variable {R : ℝ} {c : V3 ℝ} {n : Nat} {p : Nat → V3 ℝ}

theorem whiteSpots_on (hR : 0 < R) {ζ : Nat → ℝ × ℝ} (hζ : ∀ i, ζ i ∈ angleDraws) (hp : ∀ j < n, V3.dist2 (p j) c = R ^ 2) (k : Nat) {j : Nat} (hj : j < n) :
    V3.dist2 (whiteSpots R c ζ n p k j) c = R ^ 2 := by
  induction k with
  | zero => exact hp j hj
  | succ k ih => exact nextSpot_on hR ih (hζ _)

theorem whiteSpots_local {ζ ζ' : Nat → ℝ × ℝ} {k j : Nat} (h : ∀ k' < k, ζ (k' * n + j) = ζ' (k' * n + j)) :
    whiteSpots R c ζ n p k j = whiteSpots R c ζ' n p k j := by
  induction k with
  | zero => rfl
  | succ k ih => rw [whiteSpots, whiteSpots, ih fun k' hk => h k' (by omega), h k (by omega)]

/-- The sequence that begins like `x`. -/
noncomputable def extended (N : Nat) (x : Finset.range N → ℝ × ℝ) (i : Nat) : ℝ × ℝ :=
  open Classical in if h : i ∈ Finset.range N then (if x ⟨i, h⟩ ∈ angleDraws then x ⟨i, h⟩ else (0, 0)) else (0, 0)

theorem extended_mem (N : Nat) (x : Finset.range N → ℝ × ℝ) (i : Nat) : extended N x i ∈ angleDraws := by
  have h0 : ((0 : ℝ), (0 : ℝ)) ∈ angleDraws := ⟨⟨le_refl _, by positivity⟩, le_refl _, by norm_num⟩
  unfold extended
  split
  · split
    · assumption
    · exact h0
  · exact h0

theorem extended_measurable (N : Nat) (i : Nat) : Measurable fun x => extended N x i := by
  classical
  unfold extended
  by_cases h : i ∈ Finset.range N
  · simp only [h, dite_true]
    exact Measurable.ite ((measurable_pi_apply _) angleDraws_measurable) (measurable_pi_apply _) measurable_const
  · simp only [h, dite_false]
    exact measurable_const

theorem extended_eq {N : Nat} {ζ : Nat → ℝ × ℝ} (hζ : ∀ i, ζ i ∈ angleDraws) {i : Nat} (hi : i < N) : extended N (fun m => ζ m) i = ζ i := by
  unfold extended
  rw [dif_pos (Finset.mem_range.2 hi), if_pos (hζ i)]

variable {Ω : Type _} [MeasurableSpace Ω] {μ : Measure Ω} [IsProbabilityMeasure μ]

theorem white_law (hR : 0 < R) (hn : 0 < n) {ζ : Nat → Ω → ℝ × ℝ} (hm : ∀ i, Measurable (ζ i)) (hind : iIndepFun ζ μ)
    (hmem : ∀ i ω, ζ i ω ∈ angleDraws) (heven : ∀ i S, MeasurableSet S → μ {ω | ζ i ω ∈ S} = fraction angleDraws S)
    (hp : ∀ j < n, V3.dist2 (p j) c = R ^ 2) {A : Nat → Set (V3 ℝ)} (hA : ∀ i, Measured (A i)) (N : Nat) :
    μ {ω | ∀ i < N, whiteSpots R c (fun m => ζ m ω) n p (i / n + 1) (i % n) ∈ A i} = ∏ i ∈ Finset.range N, sphereShare c R (A i) := by
  induction N with
  | zero => simp
  | succ N ih =>
    have hX : Measurable fun ω (i : Finset.range N) => ζ i ω := measurable_pi_lambda _ fun i => hm i
    have hXY : IndepFun (fun ω (i : Finset.range N) => ζ i ω) (ζ N) μ := by
      have h := hind.indepFun_finset (Finset.range N) {N} (by simp) hm
      exact h.comp (φ := id) (ψ := fun y : (({N} : Finset Nat) → ℝ × ℝ) => y ⟨N, by simp⟩) measurable_id (measurable_pi_apply _)
    have hprod := (indepFun_iff_map_prod_eq_prod_map_map hX.aemeasurable (hm N).aemeasurable).1 hXY
    -- the earlier places, and the place before the new one, as functions of what was drawn
    set B : Set (Finset.range N → ℝ × ℝ) := {x | ∀ i < N, whiteSpots R c (extended N x) n p (i / n + 1) (i % n) ∈ A i} with hB
    have hBm : MeasurableSet B := by
      have : B = ⋂ i ∈ Finset.range N, {x | whiteSpots R c (extended N x) n p (i / n + 1) (i % n) ∈ A i} := by
        ext x; simp [hB]
      rw [this]
      exact Finset.measurableSet_biInter _ fun i _ => (hA i).mem (V3M.whiteSpots R c n p (extended_measurable N) _ _)
    let f : (Finset.range N → ℝ × ℝ) → V3 ℝ := fun x => whiteSpots R c (extended N x) n p (N / n) (N % n)
    have hf : V3M f := V3M.whiteSpots R c n p (extended_measurable N) _ _
    have hlow : ∀ {i : Nat}, i / n * n + i % n = i := fun {i} => Nat.div_add_mod' i n
    have heq : ∀ ω, (∀ i < N, whiteSpots R c (fun m => ζ m ω) n p (i / n + 1) (i % n) ∈ A i) ↔ (fun i : Finset.range N => ζ i ω) ∈ B := by
      intro ω
      refine forall_congr' fun i => forall_congr' fun hi => ?_
      rw [whiteSpots_local (ζ := fun m => ζ m ω) (ζ' := extended N fun i => ζ i ω)]
      intro k' hk
      refine (extended_eq (ζ := fun m => ζ m ω) (fun m => hmem m ω) ?_).symm
      have : k' * n ≤ i / n * n := Nat.mul_le_mul_right n (by omega)
      have := hlow (i := i)
      omega
    have hlast : ∀ ω, whiteSpots R c (fun m => ζ m ω) n p (N / n + 1) (N % n) = nextSpot R c (f fun i => ζ i ω) (ζ N ω) := by
      intro ω
      rw [whiteSpots, hlow]
      rw [whiteSpots_local (ζ := fun m => ζ m ω) (ζ' := extended N fun i => ζ i ω)]
      intro k' hk
      refine (extended_eq (ζ := fun m => ζ m ω) (fun m => hmem m ω) ?_).symm
      have : (k' + 1) * n ≤ N / n * n := Nat.mul_le_mul_right n (by omega)
      have := hlow (i := N)
      nlinarith
    have hset : {ω | ∀ i < N + 1, whiteSpots R c (fun m => ζ m ω) n p (i / n + 1) (i % n) ∈ A i} =
        (fun ω => ((fun i : Finset.range N => ζ i ω), ζ N ω)) ⁻¹' {z | z.1 ∈ B ∧ nextSpot R c (f z.1) z.2 ∈ A N} := by
      ext ω
      have e1 : (∀ i < N + 1, whiteSpots R c (fun m => ζ m ω) n p (i / n + 1) (i % n) ∈ A i) ↔
          (∀ i < N, whiteSpots R c (fun m => ζ m ω) n p (i / n + 1) (i % n) ∈ A i) ∧
            whiteSpots R c (fun m => ζ m ω) n p (N / n + 1) (N % n) ∈ A N := by
        constructor
        · exact fun h => ⟨fun i hi => h i (by omega), h N (by omega)⟩
        · rintro ⟨h1, h2⟩ i hi
          rcases Nat.lt_succ_iff_lt_or_eq.1 hi with h | rfl
          · exact h1 i h
          · exact h2
      show (∀ i < N + 1, _) ↔ _
      rw [e1, heq, hlast]
      rfl
    have hCm : MeasurableSet {z : (Finset.range N → ℝ × ℝ) × (ℝ × ℝ) | z.1 ∈ B ∧ nextSpot R c (f z.1) z.2 ∈ A N} := by
      refine (measurable_fst hBm).inter ((hA N).mem (V3M.nextSpot R c ⟨?_, ?_, ?_⟩ measurable_snd))
      · exact hf.x.comp measurable_fst
      · exact hf.y.comp measurable_fst
      · exact hf.z.comp measurable_fst
    have hmap : μ.map (fun ω (i : Finset.range N) => ζ i ω) B = ∏ i ∈ Finset.range N, sphereShare c R (A i) := by
      rw [Measure.map_apply hX hBm, ← ih]
      congr 1
      ext ω
      exact (heq ω).symm
    rw [hset, ← Measure.map_apply (hX.prodMk (hm N)) hCm, hprod, Measure.prod_apply hCm, Finset.prod_range_succ, ← hmap,
      mul_comm, ← lintegral_indicator_const hBm]
    apply lintegral_congr
    intro x
    by_cases hx : x ∈ B
    · rw [Set.indicator_of_mem hx]
      have hfx : V3.dist2 (f x) c = R ^ 2 := whiteSpots_on hR (extended_mem N x) hp _ (Nat.mod_lt _ hn)
      have e : Prod.mk x ⁻¹' {z : (Finset.range N → ℝ × ℝ) × (ℝ × ℝ) | z.1 ∈ B ∧ nextSpot R c (f z.1) z.2 ∈ A N} =
          {y | nextSpot R c (f x) y ∈ A N} := by
        ext y
        exact ⟨fun h => h.2, fun h => ⟨hx, h⟩⟩
      have hym : MeasurableSet {y | nextSpot R c (f x) y ∈ A N} := (hA N).mem (V3M.nextSpot R c (V3M.const _) measurable_id)
      rw [e, Measure.map_apply (hm N) hym]
      exact (heven N _ hym).trans (arch_share (C27_rotation_to_z (inward_unit hR hfx)).1 c R (hA N))
    · rw [Set.indicator_of_notMem hx]
      have e : Prod.mk x ⁻¹' {z : (Finset.range N → ℝ × ℝ) × (ℝ × ℝ) | z.1 ∈ B ∧ nextSpot R c (f z.1) z.2 ∈ A N} = ∅ := by
        ext y
        exact ⟨fun h => hx h.1, fun h => h.elim⟩
      rw [e, measure_empty]

/-- How often a ray leaves the wall so flat that it would be taken to be still on it. -/
theorem graze_share {δ : ℝ} (hR : 0 < R) (hδ : 0 ≤ δ) :
    fraction angleDraws {d | 2 * R * √(1 - d.2) ≤ δ} ≤ ENNReal.ofReal ((δ / (2 * R)) ^ 2) := by
  have hsub : {d : ℝ × ℝ | 2 * R * √(1 - d.2) ≤ δ} ∩ angleDraws ⊆ Set.Ico 0 (2 * π) ×ˢ Set.Ico (1 - (δ / (2 * R)) ^ 2) 1 := by
    rintro d ⟨h, h1, h2⟩
    refine ⟨h1, ?_, h2.2⟩
    have hs : √(1 - d.2) ≤ δ / (2 * R) := by
      rw [le_div_iff₀ (by positivity)]
      have : 2 * R * √(1 - d.2) ≤ δ := h
      linarith
    have := (sqrt_le_left (div_nonneg hδ (by positivity))).1 hs
    linarith
  have hvol : volume angleDraws = ENNReal.ofReal (2 * π) := by
    have : angleDraws = Set.Ico (0 : ℝ) (2 * π) ×ˢ Set.Ico (0 : ℝ) 1 := rfl
    rw [this, Measure.volume_eq_prod, Measure.prod_prod, Real.volume_Ico, Real.volume_Ico]
    simp
  unfold fraction
  rw [hvol]
  refine ENNReal.div_le_of_le_mul ((measure_mono hsub).trans ?_)
  rw [Measure.volume_eq_prod, Measure.prod_prod, Real.volume_Ico, Real.volume_Ico]
  rw [mul_comm]
  simp

end

end Tracer
