import Verif.Lemmas.WhiteLaw
import Verif.Lemmas.Chebyshev
import Verif.Props.Progress
import Verif.Props.SunnyPlate
import Verif.Props.Cavity

/-!
C115: a hollow sphere that is white inside.  Its wall is a `LambertianReceiver`; rays begin inside.  All places that they meet after the first of each
ray are spread evenly over the sphere, independently of each other and of where the rays began: the principle of the integrating sphere.
-/

namespace Tracer

open Real MeasureTheory ProbabilityTheory

variable {E σ : Type _}

/-- The shares of the sphere: a zone between two parallel planes has the share of the diameter that is between them, whatever their direction. -/
theorem C115_zone {R lo hi : ℝ} (hR : 0 < R) (c : V3 ℝ) {u : V3 ℝ} (hu : u.IsUnit) (h1 : -R ≤ lo) (h2 : lo ≤ hi) (h3 : hi ≤ R) :
    Measured {p | lo ≤ V3.dot (p - c) u ∧ V3.dot (p - c) u < hi} ∧
    sphereShare c R {p | lo ≤ V3.dot (p - c) u ∧ V3.dot (p - c) u < hi} = ENNReal.ofReal ((hi - lo) / (2 * R)) := by
  have hA : Measured {p | lo ≤ V3.dot (p - c) u ∧ V3.dot (p - c) u < hi} := by
    have hm : Measurable fun p : Fin 3 → ℝ => V3.dot (V3.ofFin p - c) u := by
      unfold V3.dot V3.ofFin
      simp only [V3.sub_x, V3.sub_y, V3.sub_z]
      fun_prop
    exact hm measurableSet_Ico
  refine ⟨hA, ?_⟩
  obtain ⟨r1, r2, _⟩ := C27_rotation_to_z hu
  rw [← arch_share r1 c R hA]
  have hdot : ∀ d, V3.dot (c + R • (rotationToZ u).mulVec (archPoint d) - c) u = R * (1 - 2 * d.2) := by
    intro d
    have e3 : u = (rotationToZ u).mulVec ⟨0, 0, 1⟩ := by
      have e : (rotationToZ u).mulVec ⟨0, 0, 1⟩ = (rotationToZ u).c3 := by apply V3.ext <;> simp [M3.mulVec]
      rw [e]
      exact r2.symm
    have e : c + R • (rotationToZ u).mulVec (archPoint d) - c = R • (rotationToZ u).mulVec (archPoint d) := by apply V3.ext <;> simp
    have es : ∀ v : V3 ℝ, V3.dot (R • v) u = R * V3.dot v u := by intro v; simp [V3.dot]; ring
    have hz : V3.dot ((rotationToZ u).mulVec (archPoint d)) u = 1 - 2 * d.2 := by
      have h := r1.dot (archPoint d) ⟨0, 0, 1⟩
      rw [← e3] at h
      rw [h]
      simp [archPoint, V3.dot]
    rw [e, es, hz]
  have hset : {d : ℝ × ℝ | c + R • (rotationToZ u).mulVec (archPoint d) ∈ {p | lo ≤ V3.dot (p - c) u ∧ V3.dot (p - c) u < hi}} ∩ angleDraws =
      Set.Ico 0 (2 * π) ×ˢ (Set.Ioc ((1 - hi / R) / 2) ((1 - lo / R) / 2) ∩ Set.Ico 0 1) := by
    ext d
    show (lo ≤ V3.dot _ u ∧ V3.dot _ u < hi) ∧ _ ↔ _
    rw [hdot]
    have g1 : lo ≤ R * (1 - 2 * d.2) ↔ d.2 ≤ (1 - lo / R) / 2 := by
      rw [le_div_iff₀ two_pos, le_sub_iff_add_le, ← le_sub_iff_add_le', div_le_iff₀ hR]
      constructor <;> intro h <;> nlinarith
    have g2 : R * (1 - 2 * d.2) < hi ↔ (1 - hi / R) / 2 < d.2 := by
      rw [div_lt_iff₀ two_pos, sub_lt_iff_lt_add, ← sub_lt_iff_lt_add', lt_div_iff₀ hR]
      constructor <;> intro h <;> nlinarith
    rw [g1, g2]
    constructor
    · rintro ⟨⟨h4, h5⟩, h6, h7⟩
      exact ⟨h6, ⟨h5, h4⟩, h7⟩
    · rintro ⟨h6, ⟨h5, h4⟩, h7⟩
      exact ⟨⟨h4, h5⟩, h6, h7⟩
  have hlo : 0 ≤ (1 - hi / R) / 2 := by
    have : hi / R ≤ 1 := (div_le_one hR).2 h3
    linarith
  have hhi : (1 - lo / R) / 2 ≤ 1 := by
    have : -1 ≤ lo / R := by rw [le_div_iff₀ hR]; linarith
    linarith
  have hvol1 : volume (Set.Ioc ((1 - hi / R) / 2) ((1 - lo / R) / 2) ∩ Set.Ico 0 1) = ENNReal.ofReal ((hi - lo) / (2 * R)) := by
    have e : (1 - lo / R) / 2 - (1 - hi / R) / 2 = (hi - lo) / (2 * R) := by field_simp; ring
    apply le_antisymm
    · refine (measure_mono Set.inter_subset_left).trans ?_
      rw [Real.volume_Ioc, e]
    · refine le_trans ?_ (measure_mono (s := Set.Ioo ((1 - hi / R) / 2) ((1 - lo / R) / 2)) ?_)
      · rw [Real.volume_Ioo, e]
      · rintro y ⟨h4, h5⟩
        exact ⟨⟨h4, h5.le⟩, by linarith, by linarith⟩
  have hvol : volume angleDraws = ENNReal.ofReal (2 * π) := by
    have : angleDraws = Set.Ico (0 : ℝ) (2 * π) ×ˢ Set.Ico (0 : ℝ) 1 := rfl
    rw [this, Measure.volume_eq_prod, Measure.prod_prod, Real.volume_Ico, Real.volume_Ico]
    simp
  unfold fraction
  rw [hset, hvol, Measure.volume_eq_prod, Measure.prod_prod, hvol1, Real.volume_Ico, sub_zero, mul_comm]
  refine ENNReal.mul_div_cancel_right ?_ ENNReal.ofReal_ne_top
  rw [Ne, ENNReal.ofReal_eq_zero, not_le]
  positivity

section
variable {R a : ℝ} {g : Geometry ℝ E} {frame : Tf ℝ} {taken : σ → Nat} {get : σ → Account ℝ} {set : Account ℝ → σ → σ}
variable {Ω : Type _} [MeasurableSpace Ω] {μ : Measure Ω} [IsProbabilityMeasure μ]

theorem getAllHits_full {n reps : Nat} (hn : 0 < n) (e : Nat → Nat → ℝ) (p : Nat → Nat → V3 ℝ) :
    (Account.mk ((List.range (reps + 1)).map fun k => (List.range n).map (e k)) ((List.range (reps + 1)).map fun k => (List.range n).map (p k))).getAllHits =
      .ok (((List.range (reps + 1)).map fun k => (List.range n).map (e k)).flatten, ((List.range (reps + 1)).map fun k => (List.range n).map (p k)).flatten) := by
  have hf : ∀ {β : Type} (f : Nat → Nat → β), ((List.range (reps + 1)).map fun k => (List.range n).map (f k)).filter (fun l => ! l.isEmpty) =
      (List.range (reps + 1)).map fun k => (List.range n).map (f k) := by
    intro β f
    rw [List.filter_eq_self]
    intro l hl
    simp only [List.mem_map] at hl
    obtain ⟨k, _, rfl⟩ := hl
    simp
    omega
  have hne : ∀ {β : Type} (f : Nat → Nat → β), ((List.range (reps + 1)).map fun k => (List.range n).map (f k)).isEmpty = false := by
    intro β f
    simp
  unfold Account.getAllHits
  simp only [hf, hne]
  simp

theorem flat_range {β : Type _} (n reps : Nat) (f : Nat → Nat → β) (hn : 0 < n) :
    ((List.range reps).map fun k => (List.range n).map (f k)).flatten = (List.range (n * reps)).map fun i => f (i / n) (i % n) := by
  induction reps with
  | zero => simp
  | succ reps ih =>
    rw [List.range_succ, List.map_append, List.flatten_append, ih, Nat.mul_succ, List.range_add, List.map_append, List.map_map]
    congr 1
    simp only [List.map_cons, List.map_nil, List.flatten_cons, List.flatten_nil, List.append_nil]
    apply List.map_congr_left
    intro j hj
    have hj := List.mem_range.1 hj
    simp only [Function.comp]
    rw [Nat.mul_add_div hn, Nat.div_eq_of_lt hj, Nat.add_zero, Nat.mul_add_mod, Nat.mod_eq_of_lt hj]

/-- C115.  A hollow sphere whose wall is a `LambertianReceiver`, and rays that begin inside.  The random numbers are independent and evenly spread.
There is a sequence of places that are independent of each other and all spread evenly over the sphere, such that, unless one of the rays is sent
on along the wall within the tolerance of the engine (which has a probability of less than a millionth of a millionth for each ray and each
reflection in a sphere of radius 1), the trace succeeds and the receiver reports: the place that each of the rays meets first, then the places of
that sequence, with the energies that the reflections have left. -/
theorem C115_white_sphere (hg : sphereGM R = .ok g) (hf : frame.Rigid)
    {ξ : Nat → Ω → ℝ × ℝ} (hm : ∀ i, Measurable (ξ i)) (hind : iIndepFun ξ μ) (hmem : ∀ i ω, ξ i ω ∈ angleDraws)
    (heven : ∀ i S, MeasurableSet S → μ {ω | ξ i ω ∈ S} = fraction angleDraws S)
    {draw : Ω → Nat → σ → List (ℝ × ℝ) × σ} (hdr : ∀ ω, DrawsFrom (fun i => ξ i ω) taken (draw ω) get set)
    {b : Bundle ℝ E} (hb : b ≠ []) (hin : ∀ r ∈ b, InCavity (1 / 10 ^ 6) R frame.loc r) {w : σ} (hw : get w = Account.reset)
    (reps : Nat) {minE : ℝ} (hE : ∀ r ∈ b, ∀ k < reps, minE < r.energy * (1 - a) ^ (k + 1)) (keepTree : Bool) :
    ∃ spot : Nat → Ω → V3 ℝ, (∀ i, V3M (spot i)) ∧
      (∀ (N : Nat) (A : Nat → Set (V3 ℝ)), (∀ i, Measured (A i)) →
        μ {ω | ∀ i < N, spot i ω ∈ A i} = ∏ i ∈ Finset.range N, sphereShare frame.loc R (A i)) ∧
      ∃ flat : Set Ω, μ flat ≤ (b.length * reps : Nat) * ENNReal.ofReal ((1 / 10 ^ 6 / (2 * R)) ^ 2) ∧
      ∀ ω ∉ flat, ∃ res,
        rayTracer [⟨[mkSurf g (lambertianReceiver a (draw ω) get set) frame], Obj.defaultOwn, Obj.defaultNext 1⟩] w b (reps + 1) minE keepTree = .ok res ∧
        (get res.world).getAllHits = .ok ((List.range (reps + 1)).flatMap (fun k => b.map fun r => r.energy * (1 - a) ^ k * a),
          (b.map fun r => r.at (wayToWall R frame.loc r)) ++ (List.range (b.length * reps)).map fun i => spot i ω) := by
  have hn : 0 < b.length := List.length_pos_iff.2 hb
  have hR : 0 < R := (sphere_normal hg).2
  have hl : g.LengthOk := (PlainGeometry.sphere R g hg).lengthOk
  let r : Nat → Ray ℝ E := fun j => b.getD j (b.head hb)
  have hbr : (List.range b.length).map r = b := by
    apply List.ext_getElem
    · simp
    · intro i h1 h2
      simp [r, h2]
  have hr : ∀ j < b.length, r j ∈ b := by
    intro j hj
    have e : r j = b[j] := by simp [r, hj]
    rw [e]
    exact List.getElem_mem hj
  have hin' : ∀ j < b.length, InCavity (1 / 10 ^ 6) R frame.loc (r j) := fun j hj => hin _ (hr j hj)
  let p : Nat → V3 ℝ := fun j => (r j).at (wayToWall R frame.loc (r j))
  have hp : ∀ j < b.length, V3.dist2 (p j) frame.loc = R ^ 2 := fun j hj => (sphere_inward hg (hin' j hj)).1
  refine ⟨fun i ω => whiteSpots R frame.loc (fun m => ξ (taken w + m) ω) b.length p (i / b.length + 1) (i % b.length),
    fun i => V3M.whiteSpots R frame.loc b.length p (ζ := fun ω m => ξ (taken w + m) ω) (fun m => hm _) _ _, ?_, ?_⟩
  · intro N A hA
    exact white_law hR hn (ζ := fun m => ξ (taken w + m)) (fun i => hm _) (hind.precomp (g := fun m => taken w + m) (add_right_injective _))
      (fun i ω => hmem _ ω) (fun i => heven _) hp hA N
  · refine ⟨⋃ i ∈ Finset.range (b.length * reps), {ω | 2 * R * √(1 - (ξ (taken w + i) ω).2) ≤ 1 / 10 ^ 6}, ?_, ?_⟩
    · refine (measure_biUnion_finset_le _ _).trans ?_
      refine (Finset.sum_le_card_nsmul _ _ (ENNReal.ofReal ((1 / 10 ^ 6 / (2 * R)) ^ 2)) fun i _ => ?_).trans ?_
      · have hS : MeasurableSet {d : ℝ × ℝ | 2 * R * √(1 - d.2) ≤ 1 / 10 ^ 6} := by
          have : Measurable fun d : ℝ × ℝ => 2 * R * √(1 - d.2) := by fun_prop
          exact this measurableSet_Iic
        exact (heven _ _ hS).le.trans (graze_share hR (by norm_num))
      · rw [Finset.card_range, nsmul_eq_mul]
    · intro ω hω
      have hfar : ∀ i < b.length * reps, 1 / 10 ^ 6 < 2 * R * √(1 - (ξ (taken w + i) ω).2) := by
        intro i hi
        by_contra h
        exact hω (Set.mem_biUnion (Finset.mem_range.2 hi) (not_lt.1 h))
      obtain ⟨st, tree', rec, hloop, hget⟩ := white_loop (a := a) hl hg hf (hdr ω) (fun i => hmem i ω) hn minE keepTree reps r w
        (if keepTree then [b] else []) none hin' hfar fun j hj k hk => hE _ (hr j hj) k hk
      rw [hbr] at hloop
      have hhits : (get st.world).getAllHits = .ok ((List.range (reps + 1)).flatMap (fun k => b.map fun r => r.energy * (1 - a) ^ k * a),
          (b.map fun r => r.at (wayToWall R frame.loc r)) ++ (List.range (b.length * reps)).map fun i =>
            whiteSpots R frame.loc (fun m => ξ (taken w + m) ω) b.length p (i / b.length + 1) (i % b.length)) := by
        rw [hget, hw]
        simp only [Account.reset, List.nil_append]
        rw [getAllHits_full hn]
        congr 2
        · rw [List.flatMap_def]
          congr 1
          apply List.map_congr_left
          intro k _
          conv_rhs => rw [← hbr, List.map_map]
          rfl
        · rw [List.range_succ_eq_map, List.map_cons, List.flatten_cons, List.map_map]
          congr 1
          · conv_rhs => rw [← hbr, List.map_map]
            rfl
          · exact flat_range b.length reps (fun k j => whiteSpots R frame.loc (fun m => ξ (taken w + m) ω) b.length p (k + 1) j) hn
      have hgs : getSurfaces (lone (mkSurf g (lambertianReceiver a (draw ω) get set) frame)) = .ok [mkSurf g (lambertianReceiver a (draw ω) get set) frame] := rfl
      have hrt : rayTracer (lone (mkSurf g (lambertianReceiver a (draw ω) get set) frame)) w b (reps + 1) minE keepTree =
          .ok ⟨st.bund.map Ray.vertex, st.bund.map Ray.dir, if keepTree then tree' else tree' ++ [rec], st.world⟩ := by
        unfold rayTracer
        rw [hgs]
        simp only [hloop]
        cases keepTree <;> rfl
      exact ⟨_, hrt, hhits⟩

theorem sum_flatten (l : List (List ℝ)) : l.flatten.sum = (l.map List.sum).sum := by
  induction l with
  | nil => rfl
  | cons x l ih => rw [List.flatten_cons, List.sum_append, ih, List.map_cons, List.sum_cons]

theorem sphereShare_univ (c : V3 ℝ) (R : ℝ) : sphereShare c R Set.univ = 1 := by
  obtain ⟨r1, _⟩ := C27_rotation_to_z (v := ⟨0, 0, 1⟩) (by simp [V3.IsUnit, V3.dot])
  rw [← arch_share r1 c R (A := Set.univ) (by unfold Measured; simp)]
  have hvol : volume angleDraws = ENNReal.ofReal (2 * π) := by
    have : angleDraws = Set.Ico (0 : ℝ) (2 * π) ×ˢ Set.Ico (0 : ℝ) 1 := rfl
    rw [this, Measure.volume_eq_prod, Measure.prod_prod, Real.volume_Ico, Real.volume_Ico]
    simp
  unfold fraction
  simp only [Set.mem_univ, Set.setOf_true, Set.univ_inter]
  refine ENNReal.div_self ?_ ?_
  · rw [hvol, Ne, ENNReal.ofReal_eq_zero, not_le]; positivity
  · rw [hvol]; exact ENNReal.ofReal_ne_top

/-- C115.  What a part `A` of that sphere absorbs, and how sure it is: what the rays bring it that meet it first, and of the light that is reflected
the share of `A` in the area.  The bound on the deviation is of the kind of Chebyshev's: if `n` rays share an energy, the sum of the squares is of the
order of 1/`n`. -/
theorem C115_accuracy (hg : sphereGM R = .ok g) (hf : frame.Rigid)
    {ξ : Nat → Ω → ℝ × ℝ} (hm : ∀ i, Measurable (ξ i)) (hind : iIndepFun ξ μ) (hmem : ∀ i ω, ξ i ω ∈ angleDraws)
    (heven : ∀ i S, MeasurableSet S → μ {ω | ξ i ω ∈ S} = fraction angleDraws S)
    {draw : Ω → Nat → σ → List (ℝ × ℝ) × σ} (hdr : ∀ ω, DrawsFrom (fun i => ξ i ω) taken (draw ω) get set)
    {b : Bundle ℝ E} (hb : b ≠ []) (hin : ∀ r ∈ b, InCavity (1 / 10 ^ 6) R frame.loc r) {w : σ} (hw : get w = Account.reset)
    (reps : Nat) {minE : ℝ} (hE : ∀ r ∈ b, ∀ k < reps, minE < r.energy * (1 - a) ^ (k + 1)) {A : Set (V3 ℝ)} (hA : Measured A) {ε : ℝ} (hε : 0 < ε) :
    ∃ far : Set Ω, μ far ≤ (b.length * reps : Nat) * ENNReal.ofReal ((1 / 10 ^ 6 / (2 * R)) ^ 2) +
        ENNReal.ofReal ((sphereShare frame.loc R A).toReal * (1 - (sphereShare frame.loc R A).toReal) *
          ((List.range reps).map fun k => (b.map fun r => (r.energy * (1 - a) ^ (k + 1) * a) ^ 2).sum).sum / ε ^ 2) ∧
      ∀ ω ∉ far, ∃ got,
        Collects [⟨[mkSurf g (lambertianReceiver a (draw ω) get set) frame], Obj.defaultOwn, Obj.defaultNext 1⟩] w get (A.indicator fun _ => 1) b
          (reps + 1) minE got ∧
        |got - ((b.map fun r => r.energy * a * A.indicator (fun _ => 1) (r.at (wayToWall R frame.loc r))).sum + (sphereShare frame.loc R A).toReal *
          ((List.range reps).map fun k => (b.map fun r => r.energy * (1 - a) ^ (k + 1) * a).sum).sum)| < ε := by
  classical
  obtain ⟨spot, hmeas, hlaw, flat, hflat, hgood⟩ := C115_white_sphere (a := a) hg hf hm hind hmem heven hdr hb hin hw reps hE true
  have hn : 0 < b.length := List.length_pos_iff.2 hb
  let e : Nat → ℝ := fun i => (b.getD (i % b.length) (b.head hb)).energy * (1 - a) ^ (i / b.length + 1) * a
  have hbr : ∀ (f : Ray ℝ E → ℝ), (List.range b.length).map (fun j => f (b.getD j (b.head hb))) = b.map f := by
    intro f
    apply List.ext_getElem
    · simp
    · intro i h1 h2
      have : i < b.length := by simpa using h2
      simp [this]
  have hflatE : (List.range (b.length * reps)).map e = ((List.range reps).map fun k => b.map fun r => r.energy * (1 - a) ^ (k + 1) * a).flatten := by
    rw [← flat_range b.length reps (fun k j => (b.getD j (b.head hb)).energy * (1 - a) ^ (k + 1) * a) hn]
    congr 1
    apply List.map_congr_left
    intro k _
    exact hbr fun r => r.energy * (1 - a) ^ (k + 1) * a
  have hflatE2 : (List.range (b.length * reps)).map (fun i => e i ^ 2) =
      ((List.range reps).map fun k => b.map fun r => (r.energy * (1 - a) ^ (k + 1) * a) ^ 2).flatten := by
    rw [← flat_range b.length reps (fun k j => ((b.getD j (b.head hb)).energy * (1 - a) ^ (k + 1) * a) ^ 2) hn]
    congr 1
    apply List.map_congr_left
    intro k _
    exact hbr fun r => (r.energy * (1 - a) ^ (k + 1) * a) ^ 2
  have hs1 : ∑ i ∈ Finset.range (b.length * reps), e i = ((List.range reps).map fun k => (b.map fun r => r.energy * (1 - a) ^ (k + 1) * a).sum).sum := by
    rw [sum_range_list, hflatE, sum_flatten, List.map_map]
    rfl
  have hs2 : ∑ i ∈ Finset.range (b.length * reps), e i ^ 2 =
      ((List.range reps).map fun k => (b.map fun r => (r.energy * (1 - a) ^ (k + 1) * a) ^ 2).sum).sum := by
    rw [sum_range_list, hflatE2, sum_flatten, List.map_map]
    rfl
  have hB : ∀ i, MeasurableSet {ω | spot i ω ∈ A} := fun i => hA.mem (hmeas i)
  have hU : Measured (Set.univ : Set (V3 ℝ)) := by unfold Measured; simp
  have hone : ∀ i, μ {ω | spot i ω ∈ A} = sphereShare frame.loc R A := by
    intro i
    have h := hlaw (i + 1) (fun j => if j = i then A else Set.univ) (by intro j; split; exacts [hA, hU])
    rw [Finset.prod_eq_single_of_mem i (by simp) (by intro j _ hj; rw [if_neg hj, sphereShare_univ]), if_pos rfl] at h
    rw [← h]
    congr 1
    ext ω
    constructor
    · intro hω j _
      by_cases hj : j = i
      · subst hj; simpa using hω
      · simp [hj]
    · intro hω
      simpa using hω i (by omega)
  have htwo : ∀ i j, i ≠ j → μ ({ω | spot i ω ∈ A} ∩ {ω | spot j ω ∈ A}) = sphereShare frame.loc R A * sphereShare frame.loc R A := by
    intro i j hij
    have h := hlaw (i + j + 1) (fun m => if m = i ∨ m = j then A else Set.univ) (by intro j; split; exacts [hA, hU])
    have hp : ∏ m ∈ Finset.range (i + j + 1), sphereShare frame.loc R (if m = i ∨ m = j then A else Set.univ) =
        sphereShare frame.loc R A * sphereShare frame.loc R A := by
      rw [← Finset.prod_subset (s₁ := {i, j}), Finset.prod_pair hij]
      · simp
      · intro m hm
        rw [Finset.mem_insert, Finset.mem_singleton] at hm
        rw [Finset.mem_range]
        omega
      · intro m _ hm
        rw [Finset.mem_insert, Finset.mem_singleton] at hm
        rw [if_neg hm, sphereShare_univ]
    rw [hp] at h
    rw [← h]
    congr 1
    ext ω
    constructor
    · rintro ⟨h1, h2⟩ m _
      by_cases hm : m = i ∨ m = j
      · rw [if_pos hm]
        rcases hm with rfl | rfl
        · exact h1
        · exact h2
      · rw [if_neg hm]; trivial
    · intro hω
      exact ⟨by simpa using hω i (by omega), by simpa using hω j (by omega)⟩
  have hcheb := weighted_events hB hone htwo e (b.length * reps) hε
  rw [hs1, hs2] at hcheb
  refine ⟨flat ∪ _, (measure_union_le _ _).trans (add_le_add hflat hcheb), ?_⟩
  intro ω hω
  rw [Set.mem_union, not_or] at hω
  obtain ⟨res, hres, hhits⟩ := hgood ω hω.1
  refine ⟨_, ⟨res, hres, _, _, hhits, rfl⟩, ?_⟩
  have hfirst : (List.range (reps + 1)).flatMap (fun k => b.map fun r => r.energy * (1 - a) ^ k * a) =
      (b.map fun r => r.energy * a) ++ (List.range (b.length * reps)).map e := by
    rw [hflatE, List.range_succ_eq_map, List.flatMap_cons, List.flatMap_def, List.map_map]
    simp only [pow_zero, mul_one]
    rfl
  have hsum : (List.zipWith (fun e p => e * A.indicator (fun _ => (1 : ℝ)) p) ((List.range (reps + 1)).flatMap fun k => b.map fun r => r.energy * (1 - a) ^ k * a)
      ((b.map fun r => r.at (wayToWall R frame.loc r)) ++ (List.range (b.length * reps)).map fun i => spot i ω)).sum =
      (b.map fun r => r.energy * a * A.indicator (fun _ => 1) (r.at (wayToWall R frame.loc r))).sum +
        ∑ i ∈ Finset.range (b.length * reps), e i * {ω | spot i ω ∈ A}.indicator (fun _ => 1) ω := by
    rw [hfirst, List.zipWith_append (by simp), List.sum_append, List.zipWith_map, List.zipWith_self, List.zipWith_map, List.zipWith_self, sum_range_list]
    rfl
  rw [hsum]
  rw [add_sub_add_left_eq_sub]
  exact not_le.1 fun h => hω.2 h

end

/-- Numbers as `N.random.uniform` draws them for `pillbox_sunshape_directions`. -/
theorem even_angles : ∃ (μ : Measure (Nat → angleDraws)) (_ : IsProbabilityMeasure μ), (∀ i, Measurable fun ω : Nat → angleDraws => (ω i).1) ∧
    iIndepFun (fun i (ω : Nat → angleDraws) => (ω i).1) μ ∧ ∀ i S, MeasurableSet S → μ {ω | (ω i).1 ∈ S} = fraction angleDraws S := by
  have hm : MeasurableSet angleDraws := angleDraws_measurable
  have hv : volume angleDraws ≠ 0 ∧ volume angleDraws ≠ ⊤ := by
    have : angleDraws = Set.Ico (0 : ℝ) (2 * π) ×ˢ Set.Ico (0 : ℝ) 1 := rfl
    rw [this, Measure.volume_eq_prod, Measure.prod_prod, Real.volume_Ico, Real.volume_Ico, ← ENNReal.ofReal_mul (by linarith [Real.pi_pos])]
    have := Real.pi_pos
    refine ⟨?_, ENNReal.ofReal_ne_top⟩
    rw [Ne, ENNReal.ofReal_eq_zero, not_le]
    linarith
  have : IsProbabilityMeasure (cond volume angleDraws) := cond_isProbabilityMeasure_of_finite hv.1 hv.2
  have hval : ∀ S, MeasurableSet S → (Measure.comap Subtype.val (cond volume angleDraws)) {d : angleDraws | d.1 ∈ S} = fraction angleDraws S := by
    intro S hS
    rw [comap_subtype_coe_apply hm]
    have e : (Subtype.val '' {d : angleDraws | d.1 ∈ S}) = S ∩ angleDraws := by
      ext p
      constructor
      · rintro ⟨d, hd, rfl⟩; exact ⟨hd, d.2⟩
      · rintro ⟨h1, h2⟩; exact ⟨⟨p, h2⟩, h1, rfl⟩
    rw [e, cond_apply hm]
    unfold fraction
    rw [ENNReal.div_eq_inv_mul]
    rw [Set.inter_comm S angleDraws, ← Set.inter_assoc, Set.inter_self]
  have hp : IsProbabilityMeasure (Measure.comap Subtype.val (cond volume angleDraws) : Measure angleDraws) := by
    refine ⟨?_⟩
    have := hval Set.univ MeasurableSet.univ
    simp only [Set.mem_univ, Set.setOf_true] at this
    rw [this]
    unfold fraction
    rw [Set.univ_inter, ENNReal.div_self hv.1 hv.2]
  refine ⟨Measure.infinitePi fun _ => Measure.comap Subtype.val (cond volume angleDraws), inferInstance,
    fun i => measurable_subtype_coe.comp (measurable_pi_apply i), ?_, fun i S hS => ?_⟩
  · exact iIndepFun_infinitePi (P := fun _ : Nat => Measure.comap Subtype.val (cond volume angleDraws)) (X := fun _ x => x.1)
      (fun _ => measurable_subtype_coe)
  · have hS' : MeasurableSet {d : angleDraws | d.1 ∈ S} := measurable_subtype_coe hS
    rw [← hval S hS]
    exact (measurePreserving_eval_infinitePi (fun _ : Nat => (Measure.comap Subtype.val (cond volume angleDraws) : Measure angleDraws)) i).measure_preimage
      hS'.nullMeasurableSet

/-- A lamp of one ray in a sphere of radius 1 that absorbs a tenth; each of the next six places is in the upper half with probability one half. -/
example : ∃ (g : Geometry ℝ Unit) (μ : Measure (Nat → angleDraws)) (spot : Nat → (Nat → angleDraws) → V3 ℝ) (flat : Set (Nat → angleDraws)),
    sphereGM 1 = .ok g ∧ IsProbabilityMeasure μ ∧ μ flat ≤ 6 * ENNReal.ofReal ((1 / 10 ^ 6 / (2 * 1)) ^ 2) ∧
    μ {ω | ∀ i < 6, spot i ω ∈ {p | 0 ≤ V3.dot (p - 0) ⟨0, 0, 1⟩ ∧ V3.dot (p - 0) ⟨0, 0, 1⟩ < 1}} = ENNReal.ofReal ((1 - 0) / (2 * 1)) ^ 6 ∧
    ∀ ω ∉ flat, ∃ res, rayTracer [⟨[mkSurf g (lambertianReceiver (1 / 10)
        (fun n (w : Nat × Account ℝ) => ((List.range n).map fun j => (ω (w.1 + j)).1, (w.1 + n, w.2))) Prod.snd fun acc w => (w.1, acc)) 1],
        Obj.defaultOwn, Obj.defaultNext 1⟩] (0, Account.reset) [Examples.triangleRay] 7 (1 / 100) true = .ok res ∧
      res.world.2.getAllHits = .ok ((List.range 7).flatMap (fun k => [Examples.triangleRay].map fun r => r.energy * (1 - 1 / 10) ^ k * (1 / 10)),
        ([Examples.triangleRay].map fun r => r.at (wayToWall 1 0 r)) ++ (List.range 6).map fun i => spot i ω) := by
  obtain ⟨g, hg⟩ := (C34_constructor (E := Unit) 1).1 one_pos
  obtain ⟨μ, hμ, h1, h2, h3⟩ := even_angles
  obtain ⟨spot, _, hlaw, flat, hflat, hgood⟩ := C115_white_sphere (a := 1 / 10) (frame := 1) hg Tf.Rigid.one h1 h2 (fun i ω => (ω i).2) h3
    (taken := Prod.fst) (get := Prod.snd) (set := fun acc (w : Nat × Account ℝ) => (w.1, acc))
    (draw := fun ω n (w : Nat × Account ℝ) => ((List.range n).map fun j => (ω (w.1 + j)).1, (w.1 + n, w.2)))
    (fun ω => ⟨fun _ _ => rfl, fun _ _ => rfl, fun _ _ => rfl, fun _ _ => rfl, fun _ _ => rfl⟩)
    (b := [Examples.triangleRay]) (by simp) (w := (0, Account.reset)) (by
      intro r hr
      rw [List.mem_singleton] at hr
      subst hr
      exact Examples.triangleRay_in) rfl 6 (minE := 1 / 100) (by
      intro r hr k hk
      rw [List.mem_singleton] at hr
      subst hr
      have : Examples.triangleRay.energy = 1 := rfl
      rw [this]
      interval_cases k <;> norm_num) true
  have hz := C115_zone (R := 1) (lo := 0) (hi := 1) one_pos 0 (u := ⟨0, 0, 1⟩) (by simp [V3.IsUnit, V3.dot]) (by norm_num) (by norm_num) le_rfl
  refine ⟨g, μ, spot, flat, hg, hμ, by simpa using hflat, ?_, hgood⟩
  refine (hlaw 6 _ fun _ => hz.1).trans ?_
  rw [Finset.prod_const, Finset.card_range]
  exact congrArg (· ^ 6) hz.2

/-- The upper half of that sphere absorbs half of the light that comes there after the first place, 0.21 of 0.42, up to 0.1, with probability at least 0.2. -/
example : ∃ (g : Geometry ℝ Unit) (μ : Measure (Nat → angleDraws)) (far : Set (Nat → angleDraws)), sphereGM 1 = .ok g ∧ IsProbabilityMeasure μ ∧
    μ far ≤ ((1 * 6 : Nat) : ENNReal) * ENNReal.ofReal ((1 / 10 ^ 6 / (2 * 1)) ^ 2) +
      ENNReal.ofReal (1 / 2 * (1 - 1 / 2) * ((List.range 6).map fun k => ([Examples.triangleRay].map fun r => (r.energy * (1 - 1 / 10) ^ (k + 1) * (1 / 10)) ^ 2).sum).sum / (1 / 10) ^ 2) ∧
    ∀ ω ∉ far, ∃ got, Collects [⟨[mkSurf g (lambertianReceiver (1 / 10)
        (fun n (w : Nat × Account ℝ) => ((List.range n).map fun j => (ω (w.1 + j)).1, (w.1 + n, w.2))) Prod.snd fun acc w => (w.1, acc)) 1],
        Obj.defaultOwn, Obj.defaultNext 1⟩] (0, Account.reset) Prod.snd
        ({p : V3 ℝ | 0 ≤ V3.dot (p - 0) ⟨0, 0, 1⟩ ∧ V3.dot (p - 0) ⟨0, 0, 1⟩ < 1}.indicator fun _ => 1) [Examples.triangleRay] 7 (1 / 100) got ∧
      |got - (([Examples.triangleRay].map fun r => r.energy * (1 / 10) *
          {p : V3 ℝ | 0 ≤ V3.dot (p - 0) ⟨0, 0, 1⟩ ∧ V3.dot (p - 0) ⟨0, 0, 1⟩ < 1}.indicator (fun _ => 1) (r.at (wayToWall 1 0 r))).sum +
        1 / 2 * ((List.range 6).map fun k => ([Examples.triangleRay].map fun r => r.energy * (1 - 1 / 10) ^ (k + 1) * (1 / 10)).sum).sum)| < 1 / 10 := by
  obtain ⟨g, hg⟩ := (C34_constructor (E := Unit) 1).1 one_pos
  obtain ⟨μ, hμ, h1, h2, h3⟩ := even_angles
  have hz := C115_zone (R := 1) (lo := 0) (hi := 1) one_pos 0 (u := ⟨0, 0, 1⟩) (by simp [V3.IsUnit, V3.dot]) (by norm_num) (by norm_num) le_rfl
  have h := C115_accuracy (a := 1 / 10) (frame := 1) hg Tf.Rigid.one h1 h2 (fun i ω => (ω i).2) h3
    (taken := Prod.fst) (get := Prod.snd) (set := fun acc (w : Nat × Account ℝ) => (w.1, acc))
    (draw := fun ω n (w : Nat × Account ℝ) => ((List.range n).map fun j => (ω (w.1 + j)).1, (w.1 + n, w.2)))
    (fun ω => ⟨fun _ _ => rfl, fun _ _ => rfl, fun _ _ => rfl, fun _ _ => rfl, fun _ _ => rfl⟩)
    (b := [Examples.triangleRay]) (by simp) (w := (0, Account.reset)) (by
      intro r hr
      rw [List.mem_singleton] at hr
      subst hr
      exact Examples.triangleRay_in) rfl 6 (minE := 1 / 100) (by
      intro r hr k hk
      rw [List.mem_singleton] at hr
      subst hr
      have : Examples.triangleRay.energy = 1 := rfl
      rw [this]
      interval_cases k <;> norm_num) hz.1 (ε := 1 / 10) (by norm_num)
  have hs : (sphereShare (1 : Tf ℝ).loc 1 {p : V3 ℝ | 0 ≤ V3.dot (p - 0) ⟨0, 0, 1⟩ ∧ V3.dot (p - 0) ⟨0, 0, 1⟩ < 1}).toReal = 1 / 2 := by
    have e : (1 : Tf ℝ).loc = 0 := rfl
    rw [e, hz.2, ENNReal.toReal_ofReal (by norm_num)]
    norm_num
  rw [hs] at h
  obtain ⟨far, hfar, hgood⟩ := h
  exact ⟨g, μ, far, hg, hμ, hfar, hgood⟩

end Tracer
