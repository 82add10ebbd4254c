import Verif.Spec.Distribution
import Verif.Props.Sources
import Verif.Props.Receivers
import Mathlib.Analysis.SpecialFunctions.PolarCoord
import Mathlib.Analysis.SpecialFunctions.Sqrt

/-!
# Random positions and directions are distributed as documented (C79)
-/

namespace Tracer

open Real MeasureTheory Set

/-- The point a pair of draws stands for. -/
noncomputable def polarPoint (R : ℝ) (d : ℝ × ℝ) : ℝ × ℝ := (R * √d.1 * cos d.2, R * √d.1 * sin d.2)

theorem polarPoint_sq (R : ℝ) {d : ℝ × ℝ} (h : 0 ≤ d.1) : (polarPoint R d).1 ^ 2 + (polarPoint R d).2 ^ 2 = R ^ 2 * d.1 := by
  unfold polarPoint
  have := sin_sq_add_cos_sq d.2
  have h2 := sq_sqrt h
  simp only
  linear_combination R ^ 2 * √d.1 ^ 2 * this + R ^ 2 * h2

theorem polarPoint_inj {R : ℝ} (hR : 0 < R) : InjOn (polarPoint R) {d | (0 < d.1 ∧ d.1 < 1) ∧ 0 ≤ d.2 ∧ d.2 < 2 * π} := by
  rintro ⟨u, a⟩ ⟨⟨hu, _⟩, ha0, ha1⟩ ⟨v, b⟩ ⟨⟨hv, _⟩, hb0, hb1⟩ h
  simp only at hu hv ha0 ha1 hb0 hb1
  have e1 := polarPoint_sq R (d := (u, a)) hu.le
  have e2 := polarPoint_sq R (d := (v, b)) hv.le
  rw [h, e2] at e1
  have huv : u = v := (mul_left_cancel₀ (by positivity : R ^ 2 ≠ 0) e1).symm
  subst huv
  unfold polarPoint at h
  simp only [Prod.mk.injEq] at h
  have hne : R * √u ≠ 0 := (mul_pos hR (sqrt_pos.2 hu)).ne'
  have hc := mul_left_cancel₀ hne h.1
  have hs := mul_left_cancel₀ hne h.2
  have hd : cos (a - b) = 1 := by
    rw [cos_sub, hc, hs]
    have := sin_sq_add_cos_sq b
    nlinarith
  have := (cos_eq_one_iff_of_lt_of_lt (by linarith) (by linarith)).1 hd
  rw [show a = b by linarith]

/-- The derivative of `polarPoint`. -/
noncomputable def polarDeriv (R : ℝ) (d : ℝ × ℝ) : ℝ × ℝ →L[ℝ] ℝ × ℝ :=
  (Matrix.toLin (.finTwoProd ℝ) (.finTwoProd ℝ)
    !![R * (1 / (2 * √d.1)) * cos d.2, -(R * √d.1 * sin d.2); R * (1 / (2 * √d.1)) * sin d.2, R * √d.1 * cos d.2]).toContinuousLinearMap

theorem polarPoint_deriv (R : ℝ) {d : ℝ × ℝ} (h : 0 < d.1) : HasFDerivAt (polarPoint R) (polarDeriv R d) d := by
  unfold polarDeriv
  rw [Matrix.toLin_finTwoProd_toContinuousLinearMap]
  have hsq : HasFDerivAt (fun p : ℝ × ℝ => √p.1) ((1 / (2 * √d.1)) • ContinuousLinearMap.fst ℝ ℝ ℝ) d :=
    (hasDerivAt_sqrt h.ne').comp_hasFDerivAt d hasFDerivAt_fst
  have hr := hsq.const_mul R
  have hc : HasFDerivAt (fun p : ℝ × ℝ => cos p.2) ((-sin d.2) • ContinuousLinearMap.snd ℝ ℝ ℝ) d :=
    (hasDerivAt_cos d.2).comp_hasFDerivAt d hasFDerivAt_snd
  have hs : HasFDerivAt (fun p : ℝ × ℝ => sin p.2) ((cos d.2) • ContinuousLinearMap.snd ℝ ℝ ℝ) d :=
    (hasDerivAt_sin d.2).comp_hasFDerivAt d hasFDerivAt_snd
  convert! HasFDerivAt.prodMk (𝕜 := ℝ) (hr.mul hc) (hr.mul hs) using 2
  · ext <;> simp <;> ring
  · ext <;> simp <;> ring

theorem polarDeriv_det (R : ℝ) {d : ℝ × ℝ} (h : 0 < d.1) : (polarDeriv R d).det = R ^ 2 / 2 := by
  unfold polarDeriv
  simp only [LinearMap.det_toContinuousLinearMap, LinearMap.det_toLin, Matrix.det_fin_two_of]
  have := sin_sq_add_cos_sq d.2
  have hs : √d.1 ≠ 0 := (sqrt_pos.2 h).ne'
  have e : R * (1 / (2 * √d.1)) * (R * √d.1) = R ^ 2 / 2 := by field_simp
  linear_combination e * (sin d.2 ^ 2 + cos d.2 ^ 2) + R ^ 2 / 2 * this

theorem polarPoint_image {R : ℝ} (hR : 0 < R) (A : Set (ℝ × ℝ)) :
    polarPoint R '' {d | ((0 < d.1 ∧ d.1 < 1) ∧ 0 ≤ d.2 ∧ d.2 < 2 * π) ∧ polarPoint R d ∈ A} = (A ∩ disk R) \ {0} := by
  ext p
  constructor
  · rintro ⟨d, ⟨⟨⟨h0, h1⟩, _, _⟩, hA⟩, rfl⟩
    have hq := polarPoint_sq R h0.le
    refine ⟨⟨hA, ?_⟩, ?_⟩
    · show _ < R ^ 2
      rw [hq]
      nlinarith [sq_pos_of_pos hR]
    · intro h
      rw [mem_singleton_iff] at h
      rw [h] at hq
      simp at hq
      rcases hq with hq | hq <;> linarith
  · rintro ⟨⟨hA, hD⟩, hne⟩
    have hD : p.1 ^ 2 + p.2 ^ 2 < R ^ 2 := hD
    have hpos : 0 < p.1 ^ 2 + p.2 ^ 2 := by
      by_contra hcon
      push Not at hcon
      apply hne
      have h1 : p.1 = 0 := by nlinarith [sq_nonneg p.1, sq_nonneg p.2]
      have h2 : p.2 = 0 := by nlinarith [sq_nonneg p.1, sq_nonneg p.2]
      exact Prod.ext h1 h2
    obtain ⟨a, ha0, ha1, hx, hy⟩ := exists_azimuth p.1 p.2
    have hpt : polarPoint R ((p.1 ^ 2 + p.2 ^ 2) / R ^ 2, a) = p := by
      unfold polarPoint
      simp only
      rw [sqrt_div hpos.le, sqrt_sq hR.le, mul_div_cancel₀ _ hR.ne']
      apply Prod.ext
      · simp only; linarith
      · simp only; linarith
    refine ⟨_, ⟨⟨⟨by positivity, ?_⟩, ha0, ha1⟩, by rw [hpt]; exact hA⟩, hpt⟩
    rw [div_lt_one (by positivity)]
    exact hD

theorem measurable_polarPoint (R : ℝ) : Measurable (polarPoint R) := by
  unfold polarPoint
  fun_prop

theorem polar_volume {R : ℝ} (hR : 0 < R) {A : Set (ℝ × ℝ)} (hA : MeasurableSet A) :
    ENNReal.ofReal (R ^ 2 / 2) * volume (polarPoint R ⁻¹' A ∩ draws) = volume (A ∩ disk R) := by
  have hmeas : MeasurableSet {d : ℝ × ℝ | ((0 < d.1 ∧ d.1 < 1) ∧ 0 ≤ d.2 ∧ d.2 < 2 * π) ∧ polarPoint R d ∈ A} := by
    refine MeasurableSet.inter ?_ (measurable_polarPoint R hA)
    exact ((measurableSet_lt measurable_const measurable_fst).inter (measurableSet_lt measurable_fst measurable_const)).inter
      ((measurableSet_le measurable_const measurable_snd).inter (measurableSet_lt measurable_snd measurable_const))
  have h1 := lintegral_abs_det_fderiv_eq_addHaar_image volume (f := polarPoint R) (f' := polarDeriv R) hmeas
    (fun d hd => (polarPoint_deriv R hd.1.1.1).hasFDerivWithinAt) ((polarPoint_inj hR).mono fun d hd => hd.1)
  rw [polarPoint_image hR, measure_diff_null (measure_singleton _)] at h1
  rw [← h1, setLIntegral_congr_fun (g := fun _ => ENNReal.ofReal (R ^ 2 / 2)) hmeas, setLIntegral_const]
  · congr 1
    apply measure_congr
    have hz : volume {d : ℝ × ℝ | d.1 = 0} = 0 := by
      have : {d : ℝ × ℝ | d.1 = 0} = ({0} : Set ℝ) ×ˢ univ := by ext; simp
      rw [this, Measure.volume_eq_prod, Measure.prod_prod]
      simp
    have : ∀ᵐ d : ℝ × ℝ, d.1 ≠ 0 := by
      rw [ae_iff]
      simpa using hz
    filter_upwards [this] with d hd
    apply propext
    constructor
    · rintro ⟨hA, ⟨h0, h1⟩, h2⟩
      exact ⟨⟨⟨lt_of_le_of_ne h0 (Ne.symm hd), h1⟩, h2⟩, hA⟩
    · rintro ⟨⟨⟨h0, h1⟩, h2⟩, hA⟩
      exact ⟨hA, ⟨h0.le, h1⟩, h2⟩
  · intro d hd
    simp only
    rw [polarDeriv_det R hd.1.1.1, abs_of_nonneg (by positivity)]

/-- The draws hit every part of the disk in proportion to its area. -/
theorem polar_fraction {R : ℝ} (hR : 0 < R) {A : Set (ℝ × ℝ)} (hA : MeasurableSet A) :
    fraction draws (polarPoint R ⁻¹' A) = fraction (disk R) A := by
  have h1 := polar_volume hR hA
  have h2 := polar_volume hR MeasurableSet.univ
  simp only [preimage_univ, univ_inter] at h2
  unfold fraction
  rw [← h1, ← h2, ENNReal.mul_div_mul_left]
  · have : 0 < R ^ 2 / 2 := by positivity
    simpa using this
  · exact ENNReal.ofReal_ne_top

theorem polar_fraction_swap {R : ℝ} (hR : 0 < R) {A : Set (ℝ × ℝ)} (hA : MeasurableSet A) :
    fraction angleDraws ((fun d => polarPoint R d.swap) ⁻¹' A) = fraction (disk R) A := by
  rw [← polar_fraction hR hA]
  have hp : MeasurePreserving (MeasurableEquiv.prodComm : ℝ × ℝ ≃ᵐ ℝ × ℝ) volume volume := Measure.measurePreserving_swap
  unfold fraction
  congr 1
  · exact hp.measure_preimage_equiv _ ▸ (congrArg volume (by
      ext d
      show (_ ∧ _) ↔ (_ ∧ _)
      exact and_congr Iff.rfl and_comm))
  · exact hp.measure_preimage_equiv _ ▸ (congrArg volume (by
      ext d
      show (_ ∧ _) ↔ (_ ∧ _)
      exact and_comm))

theorem rot_coords {m : M3 ℝ} (hm : m.IsRotation) (v : V3 ℝ) :
    V3.dot (m.mulVec v) m.c1 = v.x ∧ V3.dot (m.mulVec v) m.c2 = v.y := by
  have e1 : m.c1 = m.mulVec ⟨1, 0, 0⟩ := by apply V3.ext <;> simp
  have e2 : m.c2 = m.mulVec ⟨0, 1, 0⟩ := by apply V3.ext <;> simp
  constructor
  · conv_lhs => rw [e1]
    rw [hm.dot]
    simp [V3.dot]
  · conv_lhs => rw [e2]
    rw [hm.dot]
    simp [V3.dot]

theorem pillbox_polar {ang x1 x2 : ℝ} (h0 : 0 ≤ x2) (h1 : x2 ≤ 1) :
    ((pillboxOne ang x1 x2).x, (pillboxOne ang x1 x2).y) = polarPoint (sin ang) (x1, x2).swap := by
  have hs : √x2 ≤ 1 := sqrt_le_one.2 h1
  have hs0 := sqrt_nonneg x2
  have ha := abs_le.1 (abs_sin_le_one ang)
  have e : sin (arcsin (sin ang * √x2)) = sin ang * √x2 := sin_arcsin (by nlinarith) (by nlinarith)
  unfold pillboxOne polarPoint
  simp only [e, Prod.swap, Prod.mk.injEq]
  constructor <;> ring

/-- C79: the starts of a solar disk bundle are spread evenly over the disk, and its directions, seen along the axis, evenly over
the disk whose radius is the sine of the sun's half angle.  Each start and each direction is made of its own draw, so rays are
as independent as the draws. -/
theorem C79_solar_disk {center direction : V3 ℝ} (hdir : direction.IsUnit) {radius ang : ℝ} (hR : 0 < radius) (h0 : 0 < ang)
    (h1 : ang ≤ π / 2) :
    ∃ e1 e2, Orthonormal3 e1 e2 direction ∧ ∃ start aim : ℝ × ℝ → V3 ℝ,
      (∀ flux dirDraws posDraws, let b := solarDiskBundle center direction radius ang flux dirDraws posDraws
        b.vertices = posDraws.map start ∧ b.directions = dirDraws.map aim) ∧
      EvenOver draws (fun d => (V3.dot (start d - center) e1, V3.dot (start d - center) e2)) (disk radius) ∧
      EvenOver angleDraws (fun d => (V3.dot (aim d) e1, V3.dot (aim d) e2)) (disk (sin ang)) := by
  obtain ⟨r1, r2, _⟩ := C27_rotation_to_z hdir
  have hort := r1.orthonormal
  rw [r2] at hort
  refine ⟨_, _, hort, fun d => (rotationToZ direction).mulVec ⟨radius * √d.1 * cos d.2, radius * √d.1 * sin d.2, 0⟩ + center,
    fun d => (rotationToZ direction).mulVec (pillboxOne ang d.1 d.2), ?_, ?_, ?_⟩
  · intro flux dd pd
    exact ⟨rfl, by simp [solarDiskBundle, pillbox, List.map_map, Function.comp_def]⟩
  · intro A hA
    rw [← polar_fraction hR hA]
    congr 1
    ext d
    simp only [mem_preimage, add_sub_self, (rot_coords r1 _).1, (rot_coords r1 _).2]
    exact Iff.rfl
  · intro A hA
    have hs : 0 < sin ang := sin_pos_of_pos_of_lt_pi h0 (by linarith [pi_pos])
    rw [← polar_fraction_swap hs hA]
    unfold fraction
    congr 2
    ext d
    simp only [mem_inter_iff, mem_preimage, (rot_coords r1 _).1, (rot_coords r1 _).2]
    refine and_congr_left fun hd => ?_
    rw [pillbox_polar hd.2.1 hd.2.2.le]

/-- C79: Lambert's law.  The direction of each ray that leaves a diffuse surface is made of its own draw and of the normal at its
hit; seen along the normal, these directions are spread evenly over the unit disk, i.e. the rays per solid angle are
proportional to the cosine of the angle with the normal. -/
theorem C79_lambertian {σ E : Type _} (a : ℝ) (draw : Nat → σ → List (ℝ × ℝ) × σ) :
    ∃ aim : V3 ℝ → ℝ × ℝ → V3 ℝ,
      (∀ w up (hits : List (HitRec ℝ E)) out w', lambertian a draw w up hits = .ok (out, w') →
        out.map Ray.dir = List.zipWith (fun h d => aim h.normal d) hits (draw hits.length w).1) ∧
      ∀ n : V3 ℝ, n.IsUnit → (∀ d ∈ angleDraws, (aim n d).IsUnit ∧ 0 < V3.dot (aim n d) n) ∧
        ∃ e1 e2, Orthonormal3 e1 e2 n ∧
          EvenOver angleDraws (fun d => (V3.dot (aim n d) e1, V3.dot (aim n d) e2)) (disk 1) := by
  refine ⟨fun n d => (rotationToZ n).mulVec (pillboxOne (π / 2) d.1 d.2), ?_, ?_⟩
  · intro w up hits out w' h
    simp only [lambertian, Except.ok.injEq, Prod.mk.injEq] at h
    rw [← h.1]
    unfold pillbox
    rw [List.zipWith_map_right, List.map_zipWith]
  · intro n hn
    obtain ⟨r1, r2, _⟩ := C27_rotation_to_z hn
    constructor
    · intro d hd
      obtain ⟨u1, u2⟩ := pillbox_half (x1 := d.1) hd.2.1 hd.2.2
      refine ⟨?_, ?_⟩
      · unfold V3.IsUnit at *
        rw [r1.dot]
        exact u1
      · rw [rotationToZ_dot_axis hn]
        exact u2
    · have hort := r1.orthonormal
      rw [r2] at hort
      refine ⟨_, _, hort, ?_⟩
      intro A hA
      rw [← polar_fraction_swap one_pos hA]
      unfold fraction
      congr 2
      ext d
      simp only [mem_inter_iff, mem_preimage, (rot_coords r1 _).1, (rot_coords r1 _).2]
      refine and_congr_left fun hd => ?_
      rw [pillbox_polar hd.2.1 hd.2.2.le, sin_pi_div_two]

theorem disk_share {R q : ℝ} (hR : 0 < R) (h0 : 0 ≤ q) (h1 : q ≤ 1) :
    fraction (disk R) {p | p.1 ^ 2 + p.2 ^ 2 ≤ q * R ^ 2} = ENNReal.ofReal q := by
  have hm : MeasurableSet {p : ℝ × ℝ | p.1 ^ 2 + p.2 ^ 2 ≤ q * R ^ 2} :=
    measurableSet_le (by fun_prop) measurable_const
  rw [← polar_fraction hR hm]
  have hd : draws = Ico (0 : ℝ) 1 ×ˢ Ico 0 (2 * π) := by ext d; simp [draws]
  have hp : polarPoint R ⁻¹' {p : ℝ × ℝ | p.1 ^ 2 + p.2 ^ 2 ≤ q * R ^ 2} ∩ draws =
      (Ico (0 : ℝ) 1 ∩ Iic q) ×ˢ Ico 0 (2 * π) := by
    rw [hd]
    ext d
    simp only [mem_inter_iff, mem_preimage, mem_setOf_eq, mem_prod, mem_Ico, mem_Iic]
    constructor
    · rintro ⟨h, ⟨ha, hb⟩, hc⟩
      rw [polarPoint_sq R ha] at h
      exact ⟨⟨⟨ha, hb⟩, by nlinarith [sq_pos_of_pos hR]⟩, hc⟩
    · rintro ⟨⟨⟨ha, hb⟩, h⟩, hc⟩
      refine ⟨?_, ⟨ha, hb⟩, hc⟩
      rw [polarPoint_sq R ha]
      nlinarith [sq_pos_of_pos hR]
  have hv : volume (Ico (0 : ℝ) 1 ∩ Iic q) = ENNReal.ofReal q := by
    have : (Ico (0 : ℝ) 1 ∩ Iic q : Set ℝ) =ᵐ[volume] Icc 0 q := by
      have hne : ∀ᵐ x : ℝ, x ≠ 1 := by rw [ae_iff]; simp
      filter_upwards [hne] with x hx
      apply propext
      constructor
      · rintro ⟨⟨ha, _⟩, hb⟩
        exact ⟨ha, hb⟩
      · rintro ⟨ha, hb⟩
        exact ⟨⟨ha, lt_of_le_of_ne (hb.trans h1) hx⟩, hb⟩
    rw [measure_congr this]
    simp
  unfold fraction
  rw [hp, hd, Measure.volume_eq_prod, Measure.prod_prod, Measure.prod_prod, hv]
  simp only [volume_Ico, sub_zero, ENNReal.ofReal_one, one_mul]
  rw [mul_div_assoc, ENNReal.div_self, mul_one]
  · simpa using pi_pos
  · exact ENNReal.ofReal_ne_top

/-- C79: of the rays of a diffuse surface, the part within angle `t` of the normal is the square of the sine of `t`. -/
theorem C79_lambertian_cone {t : ℝ} (h0 : 0 ≤ t) (h1 : t ≤ π / 2) :
    fraction angleDraws {d | deviation (pillboxOne (π / 2) d.1 d.2) ⟨0, 0, 1⟩ ≤ t} = ENNReal.ofReal (sin t ^ 2) := by
  have hs0 : 0 ≤ sin t := sin_nonneg_of_nonneg_of_le_pi h0 (by linarith [pi_pos])
  have hs := sin_le_one t
  have hd := disk_share one_pos (sq_nonneg (sin t)) (by nlinarith)
  have hm : MeasurableSet {p : ℝ × ℝ | p.1 ^ 2 + p.2 ^ 2 ≤ sin t ^ 2 * 1 ^ 2} :=
    measurableSet_le (by fun_prop) measurable_const
  rw [← hd, ← polar_fraction_swap one_pos hm]
  unfold fraction
  congr 2
  ext d
  simp only [mem_inter_iff, mem_preimage, mem_setOf_eq]
  refine and_congr_left fun hdm => ?_
  rw [pillbox_le_iff (by linarith [pi_pos]) le_rfl h0 h1 hdm.2.1 hdm.2.2.le, polarPoint_sq 1 (d := d.swap) hdm.2.1]
  simp

/-- A quarter of the rays are within 30 degrees. -/
example : fraction angleDraws {d | deviation (pillboxOne (π / 2) d.1 d.2) ⟨0, 0, 1⟩ ≤ π / 6} = ENNReal.ofReal (1 / 4) := by
  rw [C79_lambertian_cone (by linarith [pi_pos]) (by linarith [pi_pos]), sin_pi_div_six]
  norm_num

/-- C79: so directions are not "uniformly distributed in 3D" as the docstring of `LambertianReflector` says: the cone of 60
degrees around the normal is half of the hemisphere's solid angle, but three quarters of the rays are in it. -/
theorem C79_not_isotropic :
    fraction angleDraws {d | deviation (pillboxOne (π / 2) d.1 d.2) ⟨0, 0, 1⟩ ≤ π / 3} = ENNReal.ofReal (3 / 4) := by
  rw [C79_lambertian_cone (by positivity) (by linarith [pi_pos]), sin_pi_div_three, div_pow, sq_sqrt (by norm_num)]
  norm_num

/-- Half a degree of sun on a disk of radius 3: the inner disk of radius 3/2 gets a quarter of the rays. -/
example : fraction (disk 3) {p | p.1 ^ 2 + p.2 ^ 2 ≤ 1 / 4 * 3 ^ 2} = ENNReal.ofReal (1 / 4) :=
  disk_share (by norm_num) (by norm_num) (by norm_num)

example : ∃ e1 e2, Orthonormal3 e1 e2 (⟨0, 3/5, 4/5⟩ : V3 ℝ) ∧ ∃ start aim : ℝ × ℝ → V3 ℝ,
      (∀ flux dirDraws posDraws, let b := solarDiskBundle ⟨1, 2, 3⟩ ⟨0, 3/5, 4/5⟩ 3 (1/200) flux dirDraws posDraws
        b.vertices = posDraws.map start ∧ b.directions = dirDraws.map aim) ∧
      EvenOver draws (fun d => (V3.dot (start d - ⟨1, 2, 3⟩) e1, V3.dot (start d - ⟨1, 2, 3⟩) e2)) (disk 3) ∧
      EvenOver angleDraws (fun d => (V3.dot (aim d) e1, V3.dot (aim d) e2)) (disk (sin (1/200))) :=
  C79_solar_disk (by norm_num [V3.IsUnit, V3.dot]) (by norm_num) (by norm_num) (by linarith [two_le_pi])

end Tracer
