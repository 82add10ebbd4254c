import Verif.Props.Factor
import Verif.Lemmas.ViewKernel
import Verif.Spec.Reciprocity

/-!
C117: two flat surfaces exchange diffuse light.  What the first, evenly lit, sends to the second, times its area, is what the second, evenly lit,
sends to the first, times its area; and a trace shows these shares.
-/

namespace Tracer

open Real MeasureTheory ProbabilityTheory

variable {E σ : Type _}

section
variable {S S' : V3 ℝ → Prop} {F G : Tf ℝ} {n m : V3 ℝ}

theorem onPlate_placed {v : ℝ × ℝ} (h : v ∈ footprint S) : Placed F S (onPlate F v) := ⟨_, h, rfl⟩

/-- All points of a plate are in one plane. -/
theorem onPlate_flat (hF : F.Rigid) (v : ℝ × ℝ) (p : V3 ℝ) : V3.dot (onPlate F v - p) F.rot.c3 = V3.dot (F.loc - p) F.rot.c3 := by
  obtain ⟨-, -, o3, -, o5, o6⟩ := M3.IsRotation.orthonormal hF
  simp only [V3.dot] at o3 o5 o6
  simp [onPlate, Tf.point, M3.mulVec, V3.dot]
  linear_combination v.1 * o5 + v.2 * o6

/-- What a small piece of one surface counts for at a point of the other: the product of the cosines over the square of the distance. -/
noncomputable def exchangeKernel (n m p q : V3 ℝ) : ℝ := V3.dot (q - p) n * V3.dot (p - q) m / V3.dist2 q p ^ 2

theorem exchangeKernel_comm (n m p q : V3 ℝ) : exchangeKernel n m p q = exchangeKernel m n q p := by
  simp only [exchangeKernel, V3.dist2, V3.dot, V3.sub_x, V3.sub_y, V3.sub_z]
  ring_nf

theorem kernel_facing (hm : m = G.rot.c3 ∨ m = -G.rot.c3) {p q : V3 ℝ} (h : 0 < V3.dot (q - p) n ∧ 0 < V3.dot (p - q) m) :
    kernel n G.rot.c3 p q = exchangeKernel n m p q := by
  unfold kernel exchangeKernel
  rw [max_eq_right h.1.le]
  congr 2
  have h2 := h.2
  have e1 : V3.dot (q - p) G.rot.c3 = -V3.dot (p - q) G.rot.c3 := by simp [V3.dot]; ring
  rcases hm with rfl | rfl
  · rw [e1, abs_neg, abs_of_pos h2]
  · have e2 : V3.dot (p - q) (-G.rot.c3) = -V3.dot (p - q) G.rot.c3 := by simp [V3.dot]; ring
    rw [e2] at h2 ⊢
    rw [e1, abs_of_pos h2]

theorem facing_plane (hG : G.Rigid) (hm : m = G.rot.c3 ∨ m = -G.rot.c3) {p : V3 ℝ} {v : ℝ × ℝ} (h : 0 < V3.dot (p - onPlate G v) m) :
    V3.dot (G.loc - p) G.rot.c3 ≠ 0 := by
  rw [← onPlate_flat hG v p]
  intro h0
  have e1 : V3.dot (p - onPlate G v) G.rot.c3 = -V3.dot (onPlate G v - p) G.rot.c3 := by simp [V3.dot]; ring
  rcases hm with rfl | rfl
  · rw [e1, h0] at h
    simp at h
  · have e2 : V3.dot (p - onPlate G v) (-G.rot.c3) = -V3.dot (p - onPlate G v) G.rot.c3 := by simp [V3.dot]; ring
    rw [e2, e1, h0] at h
    simp at h

/-- C117: the share of the light of the place `p` that goes to the second surface, as the textbooks have it. -/
theorem C117_view_factor {e1 e2 p : V3 ℝ} (hort : Orthonormal3 e1 e2 n) (hG : G.Rigid) (hm : m = G.rot.c3 ∨ m = -G.rot.c3)
    (hz : ∀ q, S' q → q.z = 0) (hS : MeasurableSet (footprint S')) (hface : ∀ q, Placed G S' q → 0 < V3.dot (q - p) n ∧ 0 < V3.dot (p - q) m) :
    fraction (disk 1) (nusselt (Placed G S') p e1 e2 n) =
      (∫⁻ v in footprint S', ENNReal.ofReal (V3.dot (onPlate G v - p) n * V3.dot (p - onPlate G v) m / V3.dist2 (onPlate G v) p ^ 2)) / ENNReal.ofReal π := by
  have hpi : volume (disk 1) = ENNReal.ofReal π := by rw [disk_area one_pos, one_pow, mul_one]
  by_cases hne : ∃ v, v ∈ footprint S'
  · obtain ⟨v0, hv0⟩ := hne
    unfold fraction
    rw [hpi, nusselt_area hort hG hz hS (facing_plane hG hm (hface _ (onPlate_placed hv0)).2)]
    congr 1
    exact setLIntegral_congr_fun hS fun v hv => by
      congr 1
      exact kernel_facing hm (hface _ (onPlate_placed hv))
  · have h1 : footprint S' = ∅ := Set.eq_empty_of_forall_notMem fun v hv => hne ⟨v, hv⟩
    have h2 : nusselt (Placed G S') p e1 e2 n = ∅ := by
      apply Set.eq_empty_of_forall_notMem
      rintro q ⟨t, _, l, hl, _⟩
      apply hne
      refine ⟨(l.x, l.y), ?_⟩
      show S' ⟨l.x, l.y, 0⟩
      rw [← hz l hl]
      exact hl
    rw [h1, h2]
    unfold fraction
    simp

theorem exchange_measurable (n m : V3 ℝ) (F G : Tf ℝ) :
    Measurable fun x : (ℝ × ℝ) × ℝ × ℝ => ENNReal.ofReal (exchangeKernel n m (onPlate F x.1) (onPlate G x.2)) := by
  apply Measurable.ennreal_ofReal
  simp only [exchangeKernel, V3.dist2, V3.dot, onPlate, Tf.point, M3.mulVec, V3.sub_x, V3.sub_y, V3.sub_z, V3.add_x, V3.add_y, V3.add_z,
    V3.smul_x, V3.smul_y, V3.smul_z]
  fun_prop

/-- C117: reciprocity.  Two flat surfaces that face each other: area times share of the light sent is the same in both directions. -/
theorem C117_reciprocity {e1 e2 f1 f2 : V3 ℝ} (he : Orthonormal3 e1 e2 n) (hf : Orthonormal3 f1 f2 m) (hF : F.Rigid) (hG : G.Rigid)
    (hn : n = F.rot.c3 ∨ n = -F.rot.c3) (hm : m = G.rot.c3 ∨ m = -G.rot.c3) (hz : ∀ q, S q → q.z = 0) (hz' : ∀ q, S' q → q.z = 0)
    (hS : MeasurableSet (footprint S)) (hS' : MeasurableSet (footprint S'))
    (h0 : volume (footprint S) ≠ 0) (h0' : volume (footprint S') ≠ 0) (h1 : volume (footprint S) ≠ ⊤) (h1' : volume (footprint S') ≠ ⊤)
    (hface : Facing (Placed F S) n (Placed G S') m) :
    volume (footprint S) * sentTo S F e1 e2 n (Placed G S') = volume (footprint S') * sentTo S' G f1 f2 m (Placed F S) := by
  unfold sentTo
  rw [ENNReal.mul_div_cancel h0 h1, ENNReal.mul_div_cancel h0' h1']
  have a1 : ∫⁻ v in footprint S, fraction (disk 1) (nusselt (Placed G S') (onPlate F v) e1 e2 n) =
      ∫⁻ v in footprint S, (∫⁻ u in footprint S', ENNReal.ofReal (exchangeKernel n m (onPlate F v) (onPlate G u))) / ENNReal.ofReal π :=
    setLIntegral_congr_fun hS fun v hv => C117_view_factor he hG hm hz' hS' fun q hq => hface _ (onPlate_placed hv) q hq
  have a2 : ∫⁻ u in footprint S', fraction (disk 1) (nusselt (Placed F S) (onPlate G u) f1 f2 m) =
      ∫⁻ u in footprint S', (∫⁻ v in footprint S, ENNReal.ofReal (exchangeKernel n m (onPlate F v) (onPlate G u))) / ENNReal.ofReal π :=
    setLIntegral_congr_fun hS' fun u hu => by
      rw [C117_view_factor hf hF hn hz hS fun q hq => (hface q hq _ (onPlate_placed hu)).symm]
      congr 2
      funext v
      rw [exchangeKernel_comm]
      rfl
  rw [a1, a2]
  simp only [ENNReal.div_eq_inv_mul]
  have hk := exchange_measurable n m F G
  rw [lintegral_const_mul, lintegral_const_mul, lintegral_lintegral_swap]
  · exact hk.aemeasurable
  · exact (hk.comp measurable_swap).lintegral_prod_right'
  · exact hk.lintegral_prod_right'

end

/-! ### In a trace -/

section
variable {S S' : V3 ℝ → Prop} {g g' : Geometry ℝ E} {F G : Tf ℝ} {n : V3 ℝ} {a a' : ℝ}
variable {taken : σ → Nat} {get : σ → Account ℝ} {set : Account ℝ → σ → σ}
variable {Ω : Type _} [MeasurableSpace Ω] {μ : Measure Ω} [IsProbabilityMeasure μ]

theorem angleDraws_area : volume angleDraws ≠ 0 ∧ volume angleDraws ≠ ⊤ := by
  have : angleDraws = Set.Ico (0 : ℝ) (2 * π) ×ˢ Set.Ico (0 : ℝ) 1 := rfl
  rw [this, Measure.volume_eq_prod, Measure.prod_prod, Real.volume_Ico, Real.volume_Ico, ← ENNReal.ofReal_mul (by linarith [Real.pi_pos])]
  have := Real.pi_pos
  refine ⟨?_, ENNReal.ofReal_ne_top⟩
  rw [Ne, ENNReal.ofReal_eq_zero, not_le]
  linarith

theorem onPlate_measurable (F : Tf ℝ) : V3M fun x : (ℝ × ℝ) × ℝ × ℝ => onPlate F x.1 := by
  unfold onPlate Tf.point M3.mulVec
  refine ⟨?_, ?_, ?_⟩
  all_goals
    simp only [V3.add_x, V3.add_y, V3.add_z, V3.smul_x, V3.smul_y, V3.smul_z]
    fun_prop

/-- C117: the shares are what a trace shows.  `N` rays arrive at places that are spread evenly over the first surface, and are sent on diffusely;
the places and the random numbers for the directions are independent.  Then the second surface reports the share `sentTo` of the energy, except with
a probability that is small if the number of rays is large. -/
theorem C117_trace {N : Nat} (hN : 0 < N) (hg : FlatShape g S) (hF : F.Rigid) (hn : n = F.rot.c3 ∨ n = -F.rot.c3)
    (hS : MeasurableSet (footprint S)) (h0 : volume (footprint S) ≠ 0) (h1 : volume (footprint S) ≠ ⊤)
    (hg' : FlatShape g' S') (hG : G.Rigid) (hnear : ∀ p, Placed F S p → 1 / 10 ^ 6 < |V3.dot (G.loc - p) G.rot.c3|)
    (hsize : ∀ p, Placed F S p → ∀ q, Placed G S' q → V3.dist2 q p < (10 ^ 10 * |V3.dot (G.loc - p) G.rot.c3|) ^ 2)
    {ζ : Nat → Ω → (ℝ × ℝ) × ℝ × ℝ} (hm : ∀ i, Measurable (ζ i)) (hind : iIndepFun ζ μ) (hmem : ∀ i ω, ζ i ω ∈ footprint S ×ˢ angleDraws)
    (heven : ∀ i T, MeasurableSet T → μ {ω | ζ i ω ∈ T} = volume (T ∩ footprint S ×ˢ angleDraws) / volume (footprint S ×ˢ angleDraws))
    {draw : Ω → Nat → σ → List (ℝ × ℝ) × σ} (hdr : ∀ ω, DrawsFrom (fun i => (ζ i ω).2) taken (draw ω) get set)
    {ray : Nat → Ω → Ray ℝ E} (hin : ∀ i ω, ArrivesAt (onPlate F (ζ i ω).1) n (Placed G S') (ray i ω)) {e : Nat → ℝ}
    (he : ∀ i ω, (ray i ω).energy = e i) {w : σ} (hw : get w = Account.reset) (hw0 : taken w = 0)
    {minE : ℝ} (hE : ∀ i < N, minE < e i * (1 - a)) {ε : ℝ} (hε : 0 < ε) :
    ∃ e1 e2, Orthonormal3 e1 e2 n ∧ ∃ s : ℝ, s = (sentTo S F e1 e2 n (Placed G S')).toReal ∧ ∃ far : Set Ω,
      μ far ≤ ENNReal.ofReal ((s * (1 - s) * ∑ i ∈ Finset.range N, (e i * (1 - a) * a') ^ 2) / ε ^ 2) ∧
      ∀ ω ∉ far, ∃ res es ps,
        rayTracer [⟨[mkSurf g (lambertian a (draw ω)) F], Obj.defaultOwn, Obj.defaultNext 1⟩,
          ⟨[mkSurf g' (reflectiveReceiver a' get set) G], Obj.defaultOwn, Obj.defaultNext 1⟩] w ((List.range N).map fun i => ray i ω) 2 minE true =
            .ok res ∧
        (get res.world).getAllHits = .ok (es, ps) ∧ |es.sum - s * ∑ i ∈ Finset.range N, e i * (1 - a) * a'| < ε := by
  classical
  obtain ⟨out', -, -, -, hS', hmeas⟩ := hg'.finite
  have hS' := hS' G hG
  have hnu := side_unit hF hn
  obtain ⟨r1, r2, _⟩ := C27_rotation_to_z hnu
  have hort := r1.orthonormal
  rw [r2] at hort
  have hpl : ∀ i ω, Placed F S (onPlate F (ζ i ω).1) := fun i ω => onPlate_placed (hmem i ω).1
  let D : Set ((ℝ × ℝ) × ℝ × ℝ) := {x | finiteParam out' G (onPlate F x.1) (whiteDir n x.2) ≠ ⊤}
  have hwd : V3M fun x : (ℝ × ℝ) × ℝ × ℝ => whiteDir n x.2 :=
    ⟨(whiteDir_measurable n).x.comp measurable_snd, (whiteDir_measurable n).y.comp measurable_snd, (whiteDir_measurable n).z.comp measurable_snd⟩
  have hD : MeasurableSet D := seen_measurable (hmeas G _) (onPlate_measurable F) hwd
  have hprob : ∀ i, μ {ω | ζ i ω ∈ D} = sentTo S F (rotationToZ n).c1 (rotationToZ n).c2 n (Placed G S') := by
    intro i
    rw [heven i D hD]
    unfold sentTo
    have hA := angleDraws_area
    have hv : volume (D ∩ footprint S ×ˢ angleDraws) =
        ∫⁻ v in footprint S, volume angleDraws * fraction (disk 1) (nusselt (Placed G S') (onPlate F v) (rotationToZ n).c1 (rotationToZ n).c2 n) := by
      rw [← Measure.restrict_apply hD, Measure.volume_eq_prod, ← Measure.prod_restrict, Measure.prod_apply hD]
      refine setLIntegral_congr_fun hS fun v hv => ?_
      rw [Measure.restrict_apply (measurable_prodMk_left hD),
        ← white_nusselt hnu hG hS' (hmeas G) (hnear _ (onPlate_placed hv)) (hsize _ (onPlate_placed hv))]
      unfold fraction
      rw [ENNReal.mul_div_cancel hA.1 hA.2]
      rfl
    have hprod : volume (footprint S ×ˢ angleDraws) = volume angleDraws * volume (footprint S) := by
      rw [Measure.volume_eq_prod, Measure.prod_prod, mul_comm]
    rw [hv, lintegral_const_mul' _ _ hA.2, hprod, ENNReal.mul_div_mul_left _ _ hA.1 hA.2]
  have htwo : ∀ i j, i ≠ j → μ ({ω | ζ i ω ∈ D} ∩ {ω | ζ j ω ∈ D}) = sentTo S F (rotationToZ n).c1 (rotationToZ n).c2 n (Placed G S') *
      sentTo S F (rotationToZ n).c1 (rotationToZ n).c2 n (Placed G S') := by
    intro i j hij
    have h := (hind.indepFun hij).measure_inter_preimage_eq_mul D D hD hD
    have hi : μ (ζ i ⁻¹' D) = _ := hprob i
    have hj : μ (ζ j ⁻¹' D) = _ := hprob j
    rw [hi, hj] at h
    exact h
  refine ⟨_, _, hort, _, rfl, _, weighted_events (fun i => hm i hD) hprob htwo (fun j => e j * (1 - a) * a') N hε, ?_⟩
  intro ω hω
  obtain ⟨res, ps, k1, k2, _⟩ := diffuse_traced (a := a) (a' := a') (r := fun i => ray i ω) (p := fun i => onPlate F (ζ i ω).1) hN hg hF
    (fun j _ => hpl j ω) hn hg' hG (fun j _ => hnear _ (hpl j ω)) (fun j _ => hsize _ (hpl j ω)) (fun i => (hmem i ω).2) (hdr ω)
    (fun j _ => hin j ω) hw (minE := minE) (fun j hj => by rw [he]; exact hE j hj)
  refine ⟨res, _, ps, k1, k2, ?_⟩
  rw [filter_sum, ← sum_range_list]
  have hω : ¬ ε ≤ _ := hω
  have hω := not_le.1 hω
  refine lt_of_eq_of_lt ?_ hω
  congr 2
  apply Finset.sum_congr rfl
  intro j _
  have hiff : ω ∈ {ω | ζ j ω ∈ D} ↔ ∃ t : ℝ, 0 < t ∧ Placed G S' (onPlate F (ζ j ω).1 + t • whiteDir n (ζ (taken w + j) ω).2) := by
    rw [hw0, zero_add]
    exact (finite_seen hG hS' (hnear _ (hpl j ω)) (hsize _ (hpl j ω)) (whiteDir_unit hnu (hmem j ω).2)).1
  rw [he]
  by_cases hs : ω ∈ {ω | ζ j ω ∈ D}
  · rw [if_pos (hiff.1 hs), Set.indicator_of_mem (show ω ∈ ζ j ⁻¹' D from hs), mul_one]
  · rw [if_neg (fun h => hs (hiff.2 h)), Set.indicator_of_notMem (show ω ∉ ζ j ⁻¹' D from hs), mul_zero]

end

/-! ### A square plate and a round one above it -/

/-- There are independent draws that are spread evenly over a set. -/
theorem even_sequence {X : Type} [MeasureSpace X] {A : Set X} (hm : MeasurableSet A) (h0 : volume A ≠ 0) (h1 : volume A ≠ ⊤) :
    ∃ (μ : Measure (Nat → A)) (_ : IsProbabilityMeasure μ), (∀ i, Measurable fun ω : Nat → A => (ω i).1) ∧
      iIndepFun (fun i (ω : Nat → A) => (ω i).1) μ ∧ ∀ i T, MeasurableSet T → μ {ω | (ω i).1 ∈ T} = volume (T ∩ A) / volume A := by
  have : IsProbabilityMeasure (cond volume A) := cond_isProbabilityMeasure_of_finite h0 h1
  have hval : ∀ T, MeasurableSet T → (Measure.comap Subtype.val (cond volume A)) {d : A | d.1 ∈ T} = volume (T ∩ A) / volume A := by
    intro T hT
    rw [comap_subtype_coe_apply hm]
    have e : (Subtype.val '' {d : A | d.1 ∈ T}) = T ∩ A := by
      ext p
      constructor
      · rintro ⟨d, hd, rfl⟩; exact ⟨hd, d.2⟩
      · rintro ⟨h1, h2⟩; exact ⟨⟨p, h2⟩, h1, rfl⟩
    rw [e, cond_apply hm, ENNReal.div_eq_inv_mul, Set.inter_comm T A, ← Set.inter_assoc, Set.inter_self]
  have hp : IsProbabilityMeasure (Measure.comap Subtype.val (cond volume A) : Measure A) := by
    refine ⟨?_⟩
    have := hval Set.univ MeasurableSet.univ
    simp only [Set.mem_univ, Set.setOf_true] at this
    rw [this, Set.univ_inter, ENNReal.div_self h0 h1]
  refine ⟨Measure.infinitePi fun _ => Measure.comap Subtype.val (cond volume A), inferInstance,
    fun i => measurable_subtype_coe.comp (measurable_pi_apply i), ?_, fun i T hT => ?_⟩
  · exact iIndepFun_infinitePi (P := fun _ : Nat => Measure.comap Subtype.val (cond volume A)) (X := fun _ x => x.1)
      (fun _ => measurable_subtype_coe)
  · have hT' : MeasurableSet {d : A | d.1 ∈ T} := measurable_subtype_coe hT
    rw [← hval T hT]
    exact (measurePreserving_eval_infinitePi (fun _ : Nat => (Measure.comap Subtype.val (cond volume A) : Measure A)) i).measure_preimage
      hT'.nullMeasurableSet

namespace Examples

/-- A ray to a place of the plate. -/
noncomputable def lampOver (v : ℝ × ℝ) : Ray ℝ Unit := ⟨⟨v.1 + 3 / 2, v.2, 2⟩, ⟨-(3 / 5), 0, -(4 / 5)⟩, 1, 0, none, ()⟩

theorem footprint_square : footprint (rectXY 2 2) = Set.Icc (-1) 1 ×ˢ Set.Icc (-1) 1 := by
  ext v
  simp only [footprint, rectXY, Set.mem_setOf_eq, Set.mem_prod, Set.mem_Icc]
  norm_num [abs_le]

theorem footprint_disk (R : ℝ) : footprint (diskXY R) = {v | v.1 ^ 2 + v.2 ^ 2 ≤ R ^ 2} := by
  ext v
  simp [footprint, diskXY]

theorem square_area : MeasurableSet (footprint (rectXY 2 2)) ∧ volume (footprint (rectXY 2 2)) = 4 := by
  rw [footprint_square]
  refine ⟨measurableSet_Icc.prod measurableSet_Icc, ?_⟩
  rw [Measure.volume_eq_prod, Measure.prod_prod, Real.volume_Icc, ← ENNReal.ofReal_mul (by norm_num)]
  norm_num

theorem round_area : MeasurableSet (footprint (diskXY 3)) ∧ volume (footprint (diskXY 3)) = ENNReal.ofReal (9 * π) := by
  rw [footprint_disk]
  refine ⟨measurableSet_le (by fun_prop) measurable_const, ?_⟩
  have h := disk_share (R := 4) (q := 9 / 16) (by norm_num) (by norm_num) (by norm_num)
  unfold fraction at h
  rw [disk_area (by norm_num)] at h
  have hsub : {p : ℝ × ℝ | p.1 ^ 2 + p.2 ^ 2 ≤ 9 / 16 * 4 ^ 2} ∩ disk 4 = {v | v.1 ^ 2 + v.2 ^ 2 ≤ 3 ^ 2} := by
    ext v
    simp only [disk, Set.mem_inter_iff, Set.mem_setOf_eq]
    constructor
    · rintro ⟨a, _⟩
      linarith
    · intro a
      constructor <;> linarith
  rw [hsub] at h
  have hpi : (0 : ℝ) < π * 4 ^ 2 := by positivity
  have h4 : ENNReal.ofReal (π * 4 ^ 2) ≠ 0 := by simpa using hpi
  have hc := ENNReal.div_mul_cancel (b := volume {v : ℝ × ℝ | v.1 ^ 2 + v.2 ^ 2 ≤ 3 ^ 2}) h4 ENNReal.ofReal_ne_top
  rw [h, ← ENNReal.ofReal_mul (by positivity)] at hc
  rw [← hc]
  congr 1
  ring

theorem above (v : ℝ × ℝ) : onPlate ⟨1, ⟨0, 0, 4⟩⟩ v = ⟨v.1, v.2, 4⟩ := by
  apply V3.ext <;> simp [onPlate, Tf.point, M3.mulVec]

theorem square_facing : Facing (Placed (1 : Tf ℝ) (rectXY 2 2)) ⟨0, 0, 1⟩ (Placed ⟨1, ⟨0, 0, 4⟩⟩ (diskXY 3)) (-⟨0, 0, 1⟩) := by
  rintro p ⟨l, hl, rfl⟩ q ⟨k, hk, rfl⟩
  have h1 : l.z = 0 := hl.1
  have h2 : k.z = 0 := hk.1
  simp [V3.dot, Tf.point, M3.mulVec, h1, h2]

theorem square_size {p q : V3 ℝ} (hp : Placed (1 : Tf ℝ) (rectXY 2 2) p) (hq : Placed ⟨1, ⟨0, 0, 4⟩⟩ (diskXY 3) q) :
    V3.dot ((⟨0, 0, 4⟩ : V3 ℝ) - p) (1 : M3 ℝ).c3 = 4 ∧ V3.dist2 q p ≤ 100 := by
  obtain ⟨l, ⟨h1, h2, h3⟩, rfl⟩ := hp
  obtain ⟨k, ⟨h4, h5⟩, rfl⟩ := hq
  rw [abs_le] at h2 h3
  refine ⟨by simp [V3.dot, Tf.point, M3.mulVec, h1], ?_⟩
  simp [V3.dist2, V3.dot, Tf.point, M3.mulVec, h1, h4]
  nlinarith [sq_nonneg (k.x + l.x), sq_nonneg (k.y + l.y)]

end Examples

/-- Four times the share that the square sends up is nine pi times the share that the round plate sends down. -/
example : 4 * sentTo (rectXY 2 2) 1 ⟨1, 0, 0⟩ ⟨0, 1, 0⟩ ⟨0, 0, 1⟩ (Placed ⟨1, ⟨0, 0, 4⟩⟩ (diskXY 3)) =
    ENNReal.ofReal (9 * π) * sentTo (diskXY 3) ⟨1, ⟨0, 0, 4⟩⟩ ⟨0, 1, 0⟩ ⟨1, 0, 0⟩ (-⟨0, 0, 1⟩) (Placed 1 (rectXY 2 2)) := by
  rw [← Examples.square_area.2, ← Examples.round_area.2]
  refine C117_reciprocity ?_ ?_ Tf.Rigid.one M3.IsRotation.one (Or.inl rfl) (Or.inr rfl) (fun q h => h.1) (fun q h => h.1) Examples.square_area.1
    Examples.round_area.1 ?_ ?_ ?_ ?_ Examples.square_facing
  · refine ⟨?_, ?_, ?_, ?_, ?_, ?_⟩ <;> simp [V3.dot]
  · refine ⟨?_, ?_, ?_, ?_, ?_, ?_⟩ <;> simp [V3.dot]
  · rw [Examples.square_area.2]; norm_num
  · rw [Examples.round_area.2]
    have : (0 : ℝ) < 9 * π := by positivity
    simpa using this
  · rw [Examples.square_area.2]; norm_num
  · rw [Examples.round_area.2]; exact ENNReal.ofReal_ne_top

/-- Ten thousand rays of energy 1 over the square. -/
example : ∃ (g g' : Geometry ℝ Unit) (μ : Measure (Nat → ↑(footprint (rectXY 2 2) ×ˢ angleDraws)))
    (far : Set (Nat → ↑(footprint (rectXY 2 2) ×ˢ angleDraws))) (e1 e2 : V3 ℝ) (s : ℝ),
    rectPlateGM 2 2 = .ok g ∧ roundPlateGM 3 = .ok g' ∧ IsProbabilityMeasure μ ∧ Orthonormal3 e1 e2 ⟨0, 0, 1⟩ ∧
    s = (sentTo (rectXY 2 2) 1 e1 e2 ⟨0, 0, 1⟩ (Placed ⟨1, ⟨0, 0, 4⟩⟩ (diskXY 3))).toReal ∧
    μ far ≤ ENNReal.ofReal (s * (1 - s) * 10000 / 100 ^ 2) ∧
    ∀ ω ∉ far, ∃ res es ps,
      rayTracer [⟨[mkSurf g (lambertian 0 fun n (w : Nat × Account ℝ) => ((List.range n).map fun j => (ω (w.1 + j)).1.2, (w.1 + n, w.2))) 1],
          Obj.defaultOwn, Obj.defaultNext 1⟩,
        ⟨[mkSurf g' (reflectiveReceiver 1 Prod.snd fun acc w => (w.1, acc)) ⟨1, ⟨0, 0, 4⟩⟩], Obj.defaultOwn, Obj.defaultNext 1⟩]
        (0, Account.reset) ((List.range 10000).map fun i => Examples.lampOver (ω i).1.1) 2 (1 / 100) true = .ok res ∧
      res.world.2.getAllHits = .ok (es, ps) ∧ |es.sum - s * 10000| < 100 := by
  obtain ⟨g, hg⟩ := (C31_constructor (E := Unit) (2 : ℝ) 2).1 ⟨by norm_num, by norm_num⟩
  obtain ⟨g', hg'⟩ := (C32_constructor (E := Unit) (3 : ℝ)).1 (by norm_num)
  have ha := angleDraws_area
  have hsq := Examples.square_area
  have hv : volume (footprint (rectXY 2 2) ×ˢ angleDraws) = 4 * volume angleDraws := by
    rw [Measure.volume_eq_prod, Measure.prod_prod, hsq.2]
  obtain ⟨μ, hμ, h1, h2, h3⟩ := even_sequence (A := footprint (rectXY 2 2) ×ˢ angleDraws) (hsq.1.prod angleDraws_measurable)
    (by rw [hv]; exact mul_ne_zero (by norm_num) ha.1) (by rw [hv]; exact ENNReal.mul_ne_top (by norm_num) ha.2)
  have hq0 : Placed ⟨1, ⟨0, 0, 4⟩⟩ (diskXY 3) (⟨0, 0, 4⟩ : V3 ℝ) := ⟨0, ⟨rfl, by norm_num⟩, by apply V3.ext <;> simp [Tf.point]⟩
  obtain ⟨e1, e2, he, s, hs, far, hfar, hgood⟩ := C117_trace (a := 0) (a' := 1) (F := 1) (G := ⟨1, ⟨0, 0, 4⟩⟩) (n := ⟨0, 0, 1⟩) (N := 10000)
    (by norm_num) (.rect 2 2 g hg) Tf.Rigid.one (Or.inl rfl) hsq.1 (by rw [hsq.2]; norm_num) (by rw [hsq.2]; norm_num) (.round 3 g' hg') M3.IsRotation.one
    (fun p hp => by rw [(Examples.square_size hp hq0).1]; norm_num)
    (fun p hp q hq => by
      rw [(Examples.square_size hp hq).1]
      exact lt_of_le_of_lt (Examples.square_size hp hq).2 (by norm_num)) h1 h2 (fun i ω => (ω i).2) h3
    (taken := Prod.fst) (get := Prod.snd) (set := fun acc (w : Nat × Account ℝ) => (w.1, acc))
    (draw := fun ω n (w : Nat × Account ℝ) => ((List.range n).map fun j => (ω (w.1 + j)).1.2, (w.1 + n, w.2)))
    (fun ω => ⟨fun _ _ => rfl, fun _ _ => rfl, fun _ _ => rfl, fun _ _ => rfl, fun _ _ => rfl⟩)
    (ray := fun i ω => Examples.lampOver (ω i).1.1) (by
      intro i ω
      refine ⟨⟨5 / 2, by norm_num, ?_⟩, ?_, ?_⟩
      · apply V3.ext <;> simp [Ray.at, Examples.lampOver, onPlate, Tf.point] <;> norm_num
      · simp [Examples.lampOver, V3.dot]
        norm_num
      · intro t ht h
        have := ((disk_placed (G := ⟨1, ⟨0, 0, 4⟩⟩) M3.IsRotation.one _).1 h).1
        simp [Ray.at, Examples.lampOver, V3.dot] at this
        linarith) (e := fun _ => 1) (fun _ _ => rfl) (w := (0, Account.reset)) rfl rfl (minE := 1 / 100) (fun _ _ => by norm_num) (ε := 100) (by norm_num)
  refine ⟨g, g', μ, far, e1, e2, s, hg, hg', hμ, he, hs, ?_, ?_⟩
  · simpa using hfar
  · intro ω hω
    obtain ⟨res, es, ps, k1, k2, k3⟩ := hgood ω hω
    exact ⟨res, es, ps, k1, k2, by simpa using k3⟩

end Tracer
