import Verif.Spec.WhiteSphere
import Verif.Props.Sources
import Verif.Lemmas.Rigid
import Mathlib.Analysis.SpecialFunctions.Sqrt
import Mathlib.Analysis.Calculus.Deriv.Prod
import Mathlib.MeasureTheory.Function.Jacobian
import Mathlib.MeasureTheory.Constructions.Pi
import Mathlib.LinearAlgebra.Matrix.ToLin
import Mathlib.Analysis.SpecialFunctions.Trigonometric.Deriv

/-! Archimedes: heights and azimuths that are spread evenly give points that are spread evenly over the sphere. -/

namespace Tracer

open Real MeasureTheory Set

/-- The point of the unit sphere that a pair of draws stands for: azimuth, and height between 1 and -1. -/
noncomputable def archPoint (d : ℝ × ℝ) : V3 ℝ := ⟨2 * √(d.2 * (1 - d.2)) * cos d.1, 2 * √(d.2 * (1 - d.2)) * sin d.1, 1 - 2 * d.2⟩

/-- The point of the ball on the way to it. -/
noncomputable def ballPoint (x : Fin 3 → ℝ) : Fin 3 → ℝ :=
  ![x 2 * (2 * √(x 1 * (1 - x 1)) * cos (x 0)), x 2 * (2 * √(x 1 * (1 - x 1)) * sin (x 0)), x 2 * (1 - 2 * x 1)]

def ballDraws : Set (Fin 3 → ℝ) := {x | (0 ≤ x 0 ∧ x 0 < 2 * π) ∧ (0 < x 1 ∧ x 1 < 1) ∧ 0 < x 2 ∧ x 2 < 1}

noncomputable def ballMatrix (x : Fin 3 → ℝ) : Matrix (Fin 3) (Fin 3) ℝ :=
  !![-(x 2 * (2 * √(x 1 * (1 - x 1)) * sin (x 0))), x 2 * ((1 - 2 * x 1) / √(x 1 * (1 - x 1)) * cos (x 0)), 2 * √(x 1 * (1 - x 1)) * cos (x 0);
     x 2 * (2 * √(x 1 * (1 - x 1)) * cos (x 0)), x 2 * ((1 - 2 * x 1) / √(x 1 * (1 - x 1)) * sin (x 0)), 2 * √(x 1 * (1 - x 1)) * sin (x 0);
     0, -(2 * x 2), 1 - 2 * x 1]

theorem ballMatrix_det {x : Fin 3 → ℝ} (hx : x ∈ ballDraws) : (ballMatrix x).det = -(2 * x 2 ^ 2) := by
  obtain ⟨_, ⟨h1, h2⟩, _⟩ := hx
  have hs : 0 < √(x 1 * (1 - x 1)) := sqrt_pos.2 (mul_pos h1 (by linarith))
  have hq : √(x 1 * (1 - x 1)) ^ 2 = x 1 * (1 - x 1) := sq_sqrt (mul_pos h1 (by linarith)).le
  have htr := sin_sq_add_cos_sq (x 0)
  unfold ballMatrix
  rw [Matrix.det_fin_three]
  simp only [Matrix.of_apply, Matrix.cons_val', Matrix.cons_val_zero, Matrix.cons_val_one, Matrix.cons_val, Matrix.cons_val_fin_one]
  generalize √(x 1 * (1 - x 1)) = s at hs hq
  have hs' := hs.ne'
  field_simp
  generalize sin (x 0) = S at htr ⊢
  generalize cos (x 0) = C at htr ⊢
  linear_combination (-(x 2) ^ 2 * ((1 - 2 * x 1) ^ 2 + 4 * s ^ 2)) * htr - x 2 ^ 2 * 4 * hq

theorem ballPoint_deriv {x : Fin 3 → ℝ} (hx : x ∈ ballDraws) :
    HasFDerivAt ballPoint (Matrix.toLin' (ballMatrix x)).toContinuousLinearMap x := by
  obtain ⟨_, ⟨h1, h2⟩, _⟩ := hx
  have hp : x 1 * (1 - x 1) ≠ 0 := (mul_pos h1 (by linarith)).ne'
  have p0 : HasFDerivAt (fun y : Fin 3 → ℝ => y 0) (ContinuousLinearMap.proj 0 : (Fin 3 → ℝ) →L[ℝ] ℝ) x := hasFDerivAt_apply (𝕜 := ℝ) 0 x
  have p1 : HasFDerivAt (fun y : Fin 3 → ℝ => y 1) (ContinuousLinearMap.proj 1 : (Fin 3 → ℝ) →L[ℝ] ℝ) x := hasFDerivAt_apply (𝕜 := ℝ) 1 x
  have p2 : HasFDerivAt (fun y : Fin 3 → ℝ => y 2) (ContinuousLinearMap.proj 2 : (Fin 3 → ℝ) →L[ℝ] ℝ) x := hasFDerivAt_apply (𝕜 := ℝ) 2 x
  have hin := p1.mul (p1.const_sub 1)
  have hsq := ((hasDerivAt_sqrt hp).comp_hasFDerivAt x hin).const_mul 2
  have hc := (hasDerivAt_cos (x 0)).comp_hasFDerivAt x p0
  have hs := (hasDerivAt_sin (x 0)).comp_hasFDerivAt x p0
  have f0 := p2.mul (hsq.mul hc)
  have f1 := p2.mul (hsq.mul hs)
  have f2 := p2.mul ((p1.const_mul 2).const_sub 1)
  rw [hasFDerivAt_pi']
  intro i
  fin_cases i
  · convert! f0 using 1
    ext v
    simp [ballMatrix, dotProduct, Fin.sum_univ_three]
    ring
  · convert! f1 using 1
    ext v
    simp [ballMatrix, dotProduct, Fin.sum_univ_three]
    ring
  · convert! f2 using 1
    ext v
    simp [ballMatrix, dotProduct, Fin.sum_univ_three]
    ring

theorem ballPoint_norm {x : Fin 3 → ℝ} (h1 : 0 ≤ x 1) (h2 : x 1 ≤ 1) :
    ballPoint x 0 ^ 2 + ballPoint x 1 ^ 2 + ballPoint x 2 ^ 2 = x 2 ^ 2 := by
  have hq : √(x 1 * (1 - x 1)) ^ 2 = x 1 * (1 - x 1) := sq_sqrt (mul_nonneg h1 (by linarith))
  have htr := sin_sq_add_cos_sq (x 0)
  simp only [ballPoint, Matrix.cons_val_zero, Matrix.cons_val_one, Matrix.cons_val]
  linear_combination (x 2 ^ 2 * 4 * √(x 1 * (1 - x 1)) ^ 2) * htr + x 2 ^ 2 * 4 * hq

theorem ballPoint_arch (x : Fin 3 → ℝ) : V3.ofFin (ballPoint x) = x 2 • archPoint (x 0, x 1) := by
  apply V3.ext <;> simp [V3.ofFin, ballPoint, archPoint]

theorem ballPoint_inj : InjOn ballPoint ballDraws := by
  intro x hx y hy h
  obtain ⟨⟨a1, a2⟩, ⟨a3, a4⟩, a5, a6⟩ := hx
  obtain ⟨⟨b1, b2⟩, ⟨b3, b4⟩, b5, b6⟩ := hy
  have n1 := ballPoint_norm (x := x) a3.le a4.le
  have n2 := ballPoint_norm (x := y) b3.le b4.le
  rw [h, n2] at n1
  have e2 : y 2 = x 2 := by
    rcases sq_eq_sq_iff_eq_or_eq_neg.1 n1 with h | h
    · exact h
    · linarith
  have h2 := congrFun h 2
  have h0 := congrFun h 0
  have h1 := congrFun h 1
  simp only [ballPoint, Matrix.cons_val_zero, Matrix.cons_val_one, Matrix.cons_val] at h0 h1 h2
  rw [e2] at h0 h1 h2
  have e1 : x 1 = y 1 := by
    have := mul_left_cancel₀ a5.ne' h2
    linarith
  rw [e1] at h0 h1
  have hs : 0 < √(y 1 * (1 - y 1)) := sqrt_pos.2 (mul_pos b3 (by linarith))
  have hne : 2 * √(y 1 * (1 - y 1)) ≠ 0 := by positivity
  have hc := mul_left_cancel₀ hne (mul_left_cancel₀ a5.ne' h0)
  have hsn := mul_left_cancel₀ hne (mul_left_cancel₀ a5.ne' h1)
  have hd : cos (x 0 - y 0) = 1 := by
    rw [cos_sub, hc, hsn]
    have := sin_sq_add_cos_sq (y 0)
    nlinarith
  have := (cos_eq_one_iff_of_lt_of_lt (by linarith) (by linarith)).1 hd
  have e0 : x 0 = y 0 := by linarith
  funext i
  fin_cases i
  · exact e0
  · exact e1
  · exact e2.symm

/-- The direction in which a point is seen from the origin. -/
noncomputable def sightOf (p : Fin 3 → ℝ) : V3 ℝ := (1 / √(p 0 ^ 2 + p 1 ^ 2 + p 2 ^ 2)) • V3.ofFin p

theorem ballPoint_sight {x : Fin 3 → ℝ} (hx : x ∈ ballDraws) : sightOf (ballPoint x) = archPoint (x 0, x 1) := by
  obtain ⟨_, ⟨a3, a4⟩, a5, _⟩ := hx
  unfold sightOf
  rw [ballPoint_norm a3.le a4.le, sqrt_sq a5.le, ballPoint_arch]
  have := a5.ne'
  apply V3.ext <;> simp <;> field_simp

theorem ballPoint_image (A : Set (V3 ℝ)) :
    ballPoint '' {x | x ∈ ballDraws ∧ archPoint (x 0, x 1) ∈ A} = {p | p ∈ unitBall ∧ sightOf p ∈ A} \ {p | p 0 = 0 ∧ p 1 = 0} := by
  ext p
  constructor
  · rintro ⟨x, ⟨hx, hA⟩, rfl⟩
    have hx' := hx
    obtain ⟨_, ⟨a3, a4⟩, a5, a6⟩ := hx'
    refine ⟨⟨?_, by rw [ballPoint_sight hx]; exact hA⟩, ?_⟩
    · show ballPoint x 0 ^ 2 + ballPoint x 1 ^ 2 + ballPoint x 2 ^ 2 < 1
      rw [ballPoint_norm a3.le a4.le]
      nlinarith
    · rintro ⟨h0, h1⟩
      simp only [ballPoint, Matrix.cons_val_zero, Matrix.cons_val_one, Matrix.cons_val] at h0 h1
      have hs : 0 < √(x 1 * (1 - x 1)) := sqrt_pos.2 (mul_pos a3 (by linarith))
      have hne : 2 * √(x 1 * (1 - x 1)) ≠ 0 := by positivity
      have hc : cos (x 0) = 0 := by simpa [a5.ne', hs.ne'] using h0
      have hsn : sin (x 0) = 0 := by simpa [a5.ne', hs.ne'] using h1
      have := sin_sq_add_cos_sq (x 0)
      rw [hc, hsn] at this
      norm_num at this
  · rintro ⟨⟨hb, hA⟩, hne⟩
    have hb : p 0 ^ 2 + p 1 ^ 2 + p 2 ^ 2 < 1 := hb
    have hpos : 0 < p 0 ^ 2 + p 1 ^ 2 := by
      by_contra hcon
      push Not at hcon
      exact hne ⟨by nlinarith [sq_nonneg (p 0), sq_nonneg (p 1)], by nlinarith [sq_nonneg (p 0), sq_nonneg (p 1)]⟩
    set r := √(p 0 ^ 2 + p 1 ^ 2 + p 2 ^ 2) with hr
    have hrq : r ^ 2 = p 0 ^ 2 + p 1 ^ 2 + p 2 ^ 2 := sq_sqrt (by positivity)
    have hr0 : 0 < r := sqrt_pos.2 (by positivity)
    have hr1 : r < 1 := by nlinarith
    obtain ⟨a, ha0, ha1, hx, hy⟩ := exists_azimuth (p 0) (p 1)
    have hz : |p 2| < r := by
      apply abs_lt_of_sq_lt_sq _ hr0.le
      linarith
    have hz' := abs_lt.1 hz
    set y := (1 - p 2 / r) / 2 with hy'
    have hpr : p 2 / r < 1 ∧ -1 < p 2 / r := by
      constructor
      · rw [div_lt_one hr0]; exact hz'.2
      · rw [lt_div_iff₀ hr0]; linarith [hz'.1]
    have hlat : r * (2 * √(y * (1 - y))) = √(p 0 ^ 2 + p 1 ^ 2) := by
      have hB : 0 ≤ r * (2 * √(y * (1 - y))) := by positivity
      rw [← sqrt_sq hB]
      congr 1
      rw [mul_pow, mul_pow, sq_sqrt (mul_pos (by linarith) (by linarith)).le]
      have : y * (1 - y) = (1 - (p 2 / r) ^ 2) / 4 := by rw [hy']; ring
      rw [this, div_pow]
      field_simp
      linarith
    have hpt : ballPoint ![a, y, r] = p := by
      funext i
      fin_cases i
      · simp only [ballPoint, Matrix.cons_val_zero, Matrix.cons_val_one, Matrix.cons_val, Fin.zero_eta]
        rw [← mul_assoc, hlat]
        linarith
      · simp only [ballPoint, Matrix.cons_val_zero, Matrix.cons_val_one, Matrix.cons_val, Fin.mk_one]
        rw [← mul_assoc, hlat]
        linarith
      · simp only [ballPoint, Matrix.cons_val_zero, Matrix.cons_val_one, Matrix.cons_val, Fin.reduceFinMk]
        rw [hy']
        field_simp
        ring
    have hmem : ![a, y, r] ∈ ballDraws := by
      refine ⟨⟨ha0, ha1⟩, ⟨?_, ?_⟩, hr0, hr1⟩
      · show 0 < y
        linarith
      · show y < 1
        linarith
    refine ⟨_, ⟨hmem, ?_⟩, hpt⟩
    rw [← ballPoint_sight hmem, hpt]
    exact hA

theorem measurable_archPoint : Measurable (fun d => (archPoint d).x) ∧ Measurable (fun d => (archPoint d).y) ∧ Measurable (fun d => (archPoint d).z) := by
  unfold archPoint
  refine ⟨?_, ?_, ?_⟩ <;> fun_prop

theorem Measured.preimage {X : Type _} [MeasurableSpace X] {A : Set (V3 ℝ)} (hA : Measured A) {f : X → V3 ℝ}
    (hf : Measurable (fun x => (f x).x) ∧ Measurable (fun x => (f x).y) ∧ Measurable (fun x => (f x).z)) : MeasurableSet {x | f x ∈ A} := by
  have h : Measurable fun x => (![(f x).x, (f x).y, (f x).z] : Fin 3 → ℝ) := by
    rw [measurable_pi_iff]
    intro i
    fin_cases i
    · exact hf.1
    · exact hf.2.1
    · exact hf.2.2
  exact h hA

theorem ball_volume : ∃ k : ENNReal, k ≠ 0 ∧ k ≠ ⊤ ∧ ∀ A, Measured A →
    volume {p | p ∈ unitBall ∧ sightOf p ∈ A} = k * volume {d | d ∈ angleDraws ∧ archPoint d ∈ A} := by
  refine ⟨∫⁻ r in Ioo (0 : ℝ) 1, ENNReal.ofReal (2 * r ^ 2), ?_, ?_, fun A hA => ?_⟩
  · refine ne_of_gt ((setLIntegral_pos_iff (by fun_prop)).2 ?_)
    have e : Function.support (fun r : ℝ => ENNReal.ofReal (2 * r ^ 2)) ∩ Ioo 0 1 = Ioo 0 1 := by
      refine inter_eq_right.2 fun r hr => ?_
      rw [Function.mem_support, Ne, ENNReal.ofReal_eq_zero, not_le]
      have := hr.1
      positivity
    rw [e, Real.volume_Ioo]
    norm_num
  · refine ne_of_lt (lt_of_le_of_lt (setLIntegral_mono (g := fun _ => 2) measurable_const fun r hr => ?_) ?_)
    · rw [show (2 : ENNReal) = ENNReal.ofReal 2 by norm_num]
      apply ENNReal.ofReal_le_ofReal
      nlinarith [hr.1, hr.2]
    · rw [setLIntegral_const, Real.volume_Ioo]
      norm_num
  have hD : MeasurableSet ballDraws := by
    have m : ∀ i, Measurable fun x : Fin 3 → ℝ => x i := measurable_pi_apply
    exact ((measurableSet_le measurable_const (m 0)).inter (measurableSet_lt (m 0) measurable_const)).inter
      (((measurableSet_lt measurable_const (m 1)).inter (measurableSet_lt (m 1) measurable_const)).inter
      ((measurableSet_lt measurable_const (m 2)).inter (measurableSet_lt (m 2) measurable_const)))
  have hpair : Measurable fun x : Fin 3 → ℝ => (x 0, x 1) := (measurable_pi_apply 0).prodMk (measurable_pi_apply 1)
  have hB : MeasurableSet {d : ℝ × ℝ | archPoint d ∈ A} := hA.preimage measurable_archPoint
  have hDA : MeasurableSet {x | x ∈ ballDraws ∧ archPoint (x 0, x 1) ∈ A} := hD.inter (hpair hB)
  have h1 := lintegral_abs_det_fderiv_eq_addHaar_image volume (f := ballPoint) (f' := fun x => (Matrix.toLin' (ballMatrix x)).toContinuousLinearMap)
    hDA (fun x hx => (ballPoint_deriv hx.1).hasFDerivWithinAt) (ballPoint_inj.mono fun x hx => hx.1)
  have hnull : volume {p : Fin 3 → ℝ | p 0 = 0 ∧ p 1 = 0} = 0 := by
    refine measure_mono_null (t := {p : Fin 3 → ℝ | p 0 = 0}) (fun p hp => hp.1) ?_
    rw [volume_pi]
    exact Measure.pi_hyperplane _ 0 0
  rw [ballPoint_image, measure_diff_null hnull] at h1
  rw [← h1, setLIntegral_congr_fun (g := fun x => ENNReal.ofReal (2 * x 2 ^ 2)) hDA]
  swap
  · intro x hx
    have : ((Matrix.toLin' (ballMatrix x)).toContinuousLinearMap).det = -(2 * x 2 ^ 2) := by
      rw [← ballMatrix_det hx.1]
      simp [LinearMap.det_toContinuousLinearMap]
    simp only
    rw [this, abs_neg, abs_of_nonneg (by positivity)]
  -- the three numbers apart
  have hmp : MeasurePreserving (fun x : Fin 3 → ℝ => (x 2, (x 0, x 1))) volume (volume.prod volume) := by
    have h1 := volume_preserving_piFinSuccAbove (fun _ : Fin 3 => ℝ) 2
    have h2 := (MeasurePreserving.id (volume : Measure ℝ)).prod (volume_preserving_finTwoArrow ℝ)
    exact h2.comp h1
  have hT : MeasurableSet {d : ℝ × ℝ | ((0 ≤ d.1 ∧ d.1 < 2 * π) ∧ 0 < d.2 ∧ d.2 < 1) ∧ archPoint d ∈ A} :=
    (((measurableSet_le measurable_const measurable_fst).inter (measurableSet_lt measurable_fst measurable_const)).inter
      ((measurableSet_lt measurable_const measurable_snd).inter (measurableSet_lt measurable_snd measurable_const))).inter hB
  have hset : {x | x ∈ ballDraws ∧ archPoint (x 0, x 1) ∈ A} = (fun x : Fin 3 → ℝ => (x 2, (x 0, x 1))) ⁻¹'
      (Ioo 0 1 ×ˢ {d : ℝ × ℝ | ((0 ≤ d.1 ∧ d.1 < 2 * π) ∧ 0 < d.2 ∧ d.2 < 1) ∧ archPoint d ∈ A}) := by
    ext x
    constructor
    · rintro ⟨⟨h1, h2, h3⟩, h4⟩
      exact ⟨h3, ⟨h1, h2⟩, h4⟩
    · rintro ⟨h3, ⟨h1, h2⟩, h4⟩
      exact ⟨⟨h1, h2, h3⟩, h4⟩
  rw [hset]
  have h3 := hmp.setLIntegral_comp_preimage ((measurableSet_Ioo (a := (0 : ℝ)) (b := 1)).prod hT) (f := fun z : ℝ × (ℝ × ℝ) => ENNReal.ofReal (2 * z.1 ^ 2) * 1) (by fun_prop)
  simp only [mul_one] at h3
  refine h3.trans ?_
  have h4 := lintegral_prod_mul (μ := (volume : Measure ℝ).restrict (Ioo 0 1))
    (ν := (volume : Measure (ℝ × ℝ)).restrict {d : ℝ × ℝ | ((0 ≤ d.1 ∧ d.1 < 2 * π) ∧ 0 < d.2 ∧ d.2 < 1) ∧ archPoint d ∈ A})
    (f := fun r => ENNReal.ofReal (2 * r ^ 2)) (g := fun _ => 1) (by fun_prop) aemeasurable_const
  simp only [mul_one] at h4
  rw [← Measure.prod_restrict, h4]
  congr 1
  rw [lintegral_const, one_mul, Measure.restrict_apply_univ]
  apply measure_congr
  have hz : volume {d : ℝ × ℝ | d.2 = 0} = 0 := by
    have : {d : ℝ × ℝ | d.2 = 0} = univ ×ˢ ({0} : Set ℝ) := by ext; simp
    rw [this, Measure.volume_eq_prod, Measure.prod_prod]
    simp
  have : ∀ᵐ d : ℝ × ℝ, d.2 ≠ 0 := by
    rw [ae_iff]
    simpa using hz
  filter_upwards [this] with d hd
  apply propext
  constructor
  · rintro ⟨⟨h0, h1, h2⟩, h3⟩
    exact ⟨⟨h0, h1.le, h2⟩, h3⟩
  · rintro ⟨⟨h0, h1, h2⟩, h3⟩
    exact ⟨⟨h0, lt_of_le_of_ne h1 (Ne.symm hd), h2⟩, h3⟩

/-- Turning a solid does not change its volume. -/
theorem turned_volume {m : M3 ℝ} (hm : m.IsRotation) {A : Set (V3 ℝ)} (hA : Measured A) :
    volume {p | p ∈ unitBall ∧ m.mulVec (sightOf p) ∈ A} = volume {p | p ∈ unitBall ∧ sightOf p ∈ A} := by
  set M : Matrix (Fin 3) (Fin 3) ℝ := !![m.c1.x, m.c2.x, m.c3.x; m.c1.y, m.c2.y, m.c3.y; m.c1.z, m.c2.z, m.c3.z] with hM
  have hdet : M.det = 1 := by
    rw [Matrix.det_fin_three, ← hm.2]
    simp only [hM, Matrix.of_apply, Matrix.cons_val', Matrix.cons_val_zero, Matrix.cons_val_one, Matrix.cons_val, Matrix.cons_val_fin_one,
      M3.det, V3.dot, V3.cross]
    ring
  have hof : ∀ p, V3.ofFin (Matrix.toLin' M p) = m.mulVec (V3.ofFin p) := by
    intro p
    apply V3.ext <;> simp [V3.ofFin, hM, Matrix.toLin'_apply, dotProduct, Fin.sum_univ_three, M3.mulVec] <;> ring
  have hnorm : ∀ p, (Matrix.toLin' M p) 0 ^ 2 + (Matrix.toLin' M p) 1 ^ 2 + (Matrix.toLin' M p) 2 ^ 2 = p 0 ^ 2 + p 1 ^ 2 + p 2 ^ 2 := by
    intro p
    have e := hm.dot (V3.ofFin p) (V3.ofFin p)
    rw [← hof] at e
    simp only [V3.dot, V3.ofFin] at e
    linarith
  have hmap := Real.map_matrix_volume_pi_eq_smul_volume_pi (M := M) (by rw [hdet]; norm_num)
  rw [hdet, inv_one, abs_one, ENNReal.ofReal_one, one_smul] at hmap
  have hmeas : Measurable (Matrix.toLin' M) := (LinearMap.continuous_of_finiteDimensional _).measurable
  have hS : MeasurableSet {p | p ∈ unitBall ∧ sightOf p ∈ A} := by
    have m : ∀ i, Measurable fun x : Fin 3 → ℝ => x i := measurable_pi_apply
    refine MeasurableSet.inter ?_ (hA.preimage ?_)
    · unfold unitBall
      exact measurableSet_lt (by fun_prop) measurable_const
    · unfold sightOf V3.ofFin
      simp only [V3.smul_x, V3.smul_y, V3.smul_z]
      refine ⟨?_, ?_, ?_⟩ <;> fun_prop
  conv_rhs => rw [← hmap, Measure.map_apply hmeas hS]
  congr 1
  ext p
  have h1 := hnorm p
  have h2 : sightOf (Matrix.toLin' M p) = m.mulVec (sightOf p) := by
    unfold sightOf
    rw [h1, hof]
    apply V3.ext <;> simp [M3.mulVec] <;> ring
  show p 0 ^ 2 + p 1 ^ 2 + p 2 ^ 2 < 1 ∧ _ ↔ (Matrix.toLin' M p) 0 ^ 2 + (Matrix.toLin' M p) 1 ^ 2 + (Matrix.toLin' M p) 2 ^ 2 < 1 ∧ sightOf (Matrix.toLin' M p) ∈ A
  rw [h1, h2]

/-- Archimedes, for a sphere of any radius and any axis. -/
theorem arch_share {m : M3 ℝ} (hm : m.IsRotation) (c : V3 ℝ) (R : ℝ) {A : Set (V3 ℝ)} (hA : Measured A) :
    fraction angleDraws {d | c + R • m.mulVec (archPoint d) ∈ A} = sphereShare c R A := by
  obtain ⟨k, hk0, hk1, hk⟩ := ball_volume
  have hA' : Measured {v | c + R • v ∈ A} := by
    refine hA.preimage ?_
    unfold V3.ofFin
    simp only [V3.add_x, V3.add_y, V3.add_z, V3.smul_x, V3.smul_y, V3.smul_z]
    have m : ∀ i, Measurable fun x : Fin 3 → ℝ => x i := measurable_pi_apply
    refine ⟨?_, ?_, ?_⟩ <;> fun_prop
  have hA'' : Measured {v | c + R • m.mulVec v ∈ A} := by
    refine hA.preimage ?_
    unfold V3.ofFin
    simp only [V3.add_x, V3.add_y, V3.add_z, V3.smul_x, V3.smul_y, V3.smul_z, M3.mulVec]
    have m : ∀ i, Measurable fun x : Fin 3 → ℝ => x i := measurable_pi_apply
    refine ⟨?_, ?_, ?_⟩ <;> fun_prop
  have h1 := hk _ hA''
  have h2 := hk univ MeasurableSet.univ
  have h3 := turned_volume hm hA'
  have e1 : {p | p ∈ unitBall ∧ m.mulVec (sightOf p) ∈ {v | c + R • v ∈ A}} = {p | p ∈ unitBall ∧ sightOf p ∈ {v | c + R • m.mulVec v ∈ A}} := rfl
  rw [e1, h1] at h3
  have e2 : {p | p ∈ unitBall ∧ sightOf p ∈ univ} = unitBall := by ext; simp
  have e3 : {d | d ∈ angleDraws ∧ archPoint d ∈ univ} = angleDraws := by ext; simp
  rw [e2, e3] at h2
  have e4 : {p | p ∈ unitBall ∧ sightOf p ∈ {v | c + R • v ∈ A}} =
      {p | p ∈ unitBall ∧ c + (R / √(p 0 ^ 2 + p 1 ^ 2 + p 2 ^ 2)) • V3.ofFin p ∈ A} := by
    ext p
    refine and_congr_right fun _ => ?_
    have : R • sightOf p = (R / √(p 0 ^ 2 + p 1 ^ 2 + p 2 ^ 2)) • V3.ofFin p := by
      unfold sightOf
      apply V3.ext <;> simp <;> ring
    rw [mem_setOf_eq, this]
  rw [e4] at h3
  unfold fraction sphereShare
  rw [← h3, h2, ENNReal.mul_div_mul_left _ _ hk0 hk1]
  congr 2
  ext d
  exact and_comm

end Tracer
