import Verif.Spec.Sun
import Verif.Props.SunnyPlate
import Mathlib.MeasureTheory.Integral.Prod
import Mathlib.Analysis.SpecialFunctions.Integrals.Basic

/-!
# The sun is not a point: the power that a plate gets does not depend on the size of the sun (C113)

The rays of `solar_disk_bundle` start on a disk and their directions are spread over a cone.  If all of them fall on the same side of a plate
and the disk is large enough, the plate gets the same power as from a parallel beam.
-/

namespace Tracer

open MeasureTheory ProbabilityTheory Filter Topology Real

variable {E σ Ω : Type _}

section
variable {center : V3 ℝ} {m : M3 ℝ} {l : V3 ℝ} {F : Tf ℝ} {T A S : Set (ℝ × ℝ)} {outside : Tf ℝ → V3 ℝ → Bool}

theorem rot_crosses {m : M3 ℝ} (h : m.IsRotation) : V3.cross m.c2 m.c3 = m.c1 ∧ V3.cross m.c3 m.c1 = m.c2 := by
  have e1 : m.c1 = m.mulVec ⟨1, 0, 0⟩ := by apply V3.ext <;> simp
  have e2 : m.c2 = m.mulVec ⟨0, 1, 0⟩ := by apply V3.ext <;> simp
  have e3 : m.c3 = m.mulVec ⟨0, 0, 1⟩ := by apply V3.ext <;> simp
  constructor
  · have := h.cross ⟨0, 1, 0⟩ ⟨0, 0, 1⟩
    rw [← e2, ← e3] at this
    rw [← this, e1]
    congr 1
    apply V3.ext <;> simp [V3.cross]
  · have := h.cross ⟨0, 0, 1⟩ ⟨1, 0, 0⟩
    rw [← e3, ← e1] at this
    rw [← this, e2]
    congr 1
    apply V3.ext <;> simp [V3.cross]

/-- The point of the plate seen along the direction `m l`, on the plane through `center` across the third axis of `m`. -/
noncomputable def slantPoint (center : V3 ℝ) (m : M3 ℝ) (l : V3 ℝ) (F : Tf ℝ) (p : ℝ × ℝ) : ℝ × ℝ :=
  (V3.dot (F.point ⟨p.1, p.2, 0⟩ - center) m.c1 - l.x / l.z * V3.dot (F.point ⟨p.1, p.2, 0⟩ - center) m.c3,
    V3.dot (F.point ⟨p.1, p.2, 0⟩ - center) m.c2 - l.y / l.z * V3.dot (F.point ⟨p.1, p.2, 0⟩ - center) m.c3)

theorem slant_eq (p : ℝ × ℝ) : slantPoint center m l F p =
    ((V3.dot (F.loc - center) m.c1 - l.x / l.z * V3.dot (F.loc - center) m.c3) +
        ((V3.dot F.rot.c1 m.c1 - l.x / l.z * V3.dot F.rot.c1 m.c3) * p.1 + (V3.dot F.rot.c2 m.c1 - l.x / l.z * V3.dot F.rot.c2 m.c3) * p.2),
      (V3.dot (F.loc - center) m.c2 - l.y / l.z * V3.dot (F.loc - center) m.c3) +
        ((V3.dot F.rot.c1 m.c2 - l.y / l.z * V3.dot F.rot.c1 m.c3) * p.1 + (V3.dot F.rot.c2 m.c2 - l.y / l.z * V3.dot F.rot.c2 m.c3) * p.2)) := by
  refine Prod.ext ?_ ?_ <;> simp [slantPoint, Tf.point, M3.mulVec, V3.dot] <;> ring

theorem slant_minor (hm : m.IsRotation) (hF : F.Rigid) (hl : l.z ≠ 0) :
    (V3.dot F.rot.c1 m.c1 - l.x / l.z * V3.dot F.rot.c1 m.c3) * (V3.dot F.rot.c2 m.c2 - l.y / l.z * V3.dot F.rot.c2 m.c3) -
      (V3.dot F.rot.c2 m.c1 - l.x / l.z * V3.dot F.rot.c2 m.c3) * (V3.dot F.rot.c1 m.c2 - l.y / l.z * V3.dot F.rot.c1 m.c3) =
    V3.dot (m.mulVec l) F.rot.c3 / l.z := by
  have binet : ∀ a b c d : V3 ℝ, V3.dot a c * V3.dot b d - V3.dot b c * V3.dot a d = V3.dot (V3.cross a b) (V3.cross c d) := by
    intro a b c d
    simp [V3.dot, V3.cross]
    ring
  have h12 := binet F.rot.c1 F.rot.c2 m.c1 m.c2
  have h23 := binet F.rot.c1 F.rot.c2 m.c2 m.c3
  have h31 := binet F.rot.c1 F.rot.c2 m.c3 m.c1
  rw [rot_cross hF, rot_cross hm] at h12
  rw [rot_cross hF, (rot_crosses hm).1] at h23
  rw [rot_cross hF, (rot_crosses hm).2] at h31
  have e : V3.dot (m.mulVec l) F.rot.c3 = l.x * V3.dot F.rot.c3 m.c1 + l.y * V3.dot F.rot.c3 m.c2 + l.z * V3.dot F.rot.c3 m.c3 := by
    simp [V3.dot, M3.mulVec]
    ring
  rw [e, ← h12, ← h23, ← h31]
  field_simp
  ring

theorem slant_area (hm : m.IsRotation) (hF : F.Rigid) (hl : 0 < l.z) (T : Set (ℝ × ℝ)) :
    volume (slantPoint center m l F '' T) = ENNReal.ofReal (|V3.dot (m.mulVec l) F.rot.c3| / l.z) * volume T := by
  have e : slantPoint center m l F = _ := funext fun p => slant_eq p
  rw [e, affine_area, slant_minor hm hF hl.ne', abs_div, abs_of_pos hl]

theorem slant_measurable (hm : m.IsRotation) (hF : F.Rigid) (hl : 0 < l.z) (hcos : V3.dot (m.mulVec l) F.rot.c3 ≠ 0) (hT : MeasurableSet T) :
    MeasurableSet (slantPoint center m l F '' T) := by
  have e : slantPoint center m l F = _ := funext fun p => slant_eq p
  rw [e]
  refine hT.image_of_continuousOn_injOn (Continuous.continuousOn (by fun_prop)) (Function.Injective.injOn (affine_injective _ _ ?_))
  rw [slant_minor hm hF hl.ne']
  exact div_ne_zero hcos hl.ne'

/-- How far the ray from `v` along `u` goes to the plane of the plate. -/
noncomputable def flight (F : Tf ℝ) (v u : V3 ℝ) : ℝ := -V3.dot (v - F.loc) F.rot.c3 / V3.dot u F.rot.c3

/-- The local coordinates of the place where the ray from `v` along `u` meets the plane of the plate. -/
noncomputable def landing (F : Tf ℝ) (v u : V3 ℝ) : ℝ × ℝ :=
  ((F.inv.point (v + flight F v u • u)).x, (F.inv.point (v + flight F v u • u)).y)

theorem landing_point (hF : F.Rigid) {v u : V3 ℝ} (hcos : V3.dot u F.rot.c3 ≠ 0) :
    F.point ⟨(landing F v u).1, (landing F v u).2, 0⟩ = v + flight F v u • u := by
  set p := v + flight F v u • u with hp
  have hl : F.point (F.inv.point p) = p := Tf.point_inv_point (M3.IsRotation.det_ne hF) p
  have hz : (F.inv.point p).z = 0 := by
    have h0 : V3.dot (p - F.loc) F.rot.c3 = 0 := by
      have e : V3.dot (p - F.loc) F.rot.c3 = V3.dot (v - F.loc) F.rot.c3 + flight F v u * V3.dot u F.rot.c3 := by
        rw [hp]
        simp [V3.dot]
        ring
      rw [e]
      unfold flight
      field_simp
      ring
    rw [← hl] at h0
    have e : F.point (F.inv.point p) - F.loc = F.rot.mulVec (F.inv.point p) := by
      unfold Tf.point
      apply V3.ext <;> simp
    rw [e, rot_third hF] at h0
    exact h0
  have e : (⟨(landing F v u).1, (landing F v u).2, 0⟩ : V3 ℝ) = F.inv.point p := V3.ext rfl rfl hz.symm
  rw [e, hl]

theorem landing_iff (hm : m.IsRotation) (hF : F.Rigid) (hl : 0 < l.z) (hcos : V3.dot (m.mulVec l) F.rot.c3 ≠ 0) (x y : ℝ) (q : ℝ × ℝ) :
    landing F (m.mulVec ⟨x, y, 0⟩ + center) (m.mulVec l) = q ↔ (x, y) = slantPoint center m l F q := by
  set v := m.mulVec ⟨x, y, 0⟩ + center with hv
  set u := m.mulVec l with hu
  constructor
  · intro h
    have hp := landing_point (v := v) hF hcos
    rw [h] at hp
    have e : F.point ⟨q.1, q.2, 0⟩ - center = m.mulVec ⟨x + flight F v u * l.x, y + flight F v u * l.y, flight F v u * l.z⟩ := by
      rw [hp]
      generalize flight F v u = t
      rw [hv, hu]
      apply V3.ext <;> simp [M3.mulVec] <;> ring
    unfold slantPoint
    rw [e, (rot_coords hm _).1, (rot_coords hm _).2, rot_third hm]
    simp only
    have := hl.ne'
    refine Prod.ext ?_ ?_ <;> · simp only; field_simp; ring
  · intro h
    have hx := congrArg Prod.fst h
    have hy := congrArg Prod.snd h
    simp only [slantPoint] at hx hy
    have he := rot_expand hm (F.point ⟨q.1, q.2, 0⟩ - center)
    set Q := F.point ⟨q.1, q.2, 0⟩ - center with hQ
    set s := V3.dot Q m.c3 / l.z with hs
    have e3 : V3.dot Q m.c3 = s * l.z := by rw [hs]; field_simp
    have e1 : V3.dot Q m.c1 = x + s * l.x := by rw [hx, hs]; field_simp; ring
    have e2 : V3.dot Q m.c2 = y + s * l.y := by rw [hy, hs]; field_simp; ring
    have hpt : v + s • u = F.point ⟨q.1, q.2, 0⟩ := by
      have : F.point ⟨q.1, q.2, 0⟩ = Q + center := by rw [hQ]; apply V3.ext <;> simp
      rw [this, ← he, e1, e2, e3, hv, hu]
      apply V3.ext <;> simp [M3.mulVec] <;> ring
    have h0 : V3.dot (F.point ⟨q.1, q.2, 0⟩ - F.loc) F.rot.c3 = 0 := by
      have e : F.point ⟨q.1, q.2, 0⟩ - F.loc = F.rot.mulVec ⟨q.1, q.2, 0⟩ := by
        unfold Tf.point
        apply V3.ext <;> simp
      rw [e, rot_third hF]
    have hfl : flight F v u = s := by
      unfold flight
      rw [← hpt] at h0
      have e : V3.dot (v + s • u - F.loc) F.rot.c3 = V3.dot (v - F.loc) F.rot.c3 + s * V3.dot u F.rot.c3 := by
        simp [V3.dot]
        ring
      rw [e] at h0
      field_simp
      linarith
    unfold landing
    rw [hfl, hpt, Tf.inv_point_point (M3.IsRotation.det_ne hF)]

/-- The rays along one direction that land in a part of the plate start in its slanted shadow. -/
theorem landing_preimage (hm : m.IsRotation) (hF : F.Rigid) (hl : 0 < l.z) (hcos : V3.dot (m.mulVec l) F.rot.c3 ≠ 0) (T : Set (ℝ × ℝ)) :
    {p : ℝ × ℝ | landing F (m.mulVec ⟨p.1, p.2, 0⟩ + center) (m.mulVec l) ∈ T} = slantPoint center m l F '' T := by
  ext p
  constructor
  · intro h
    exact ⟨_, h, ((landing_iff hm hF hl hcos p.1 p.2 _).1 rfl).symm⟩
  · rintro ⟨q, hq, rfl⟩
    have := (landing_iff (center := center) hm hF hl hcos (slantPoint center m l F q).1 (slantPoint center m l F q).2 q).2 rfl
    show _ ∈ T
    rw [this]
    exact hq

/-- Which rays meet the plate. -/
theorem landing_hit (hA : ∀ p, outside F p = false ↔ ((F.inv.point p).x, (F.inv.point p).y) ∈ A) {v u : V3 ℝ}
    (hcos : 1 / 10 ^ 10 < |V3.dot u F.rot.c3|) (hfront : landing F v u ∈ A → 0 ≤ flight F v u) :
    (landing F v u ∈ A → finiteParam outside F v u = ((flight F v u : ℝ) : WithTop ℝ)) ∧ (landing F v u ∉ A → finiteParam outside F v u = ⊤) := by
  have hcos0 : V3.dot u F.rot.c3 ≠ 0 := by
    intro h
    rw [h, abs_zero] at hcos
    norm_num at hcos
  constructor
  · intro h
    refine finiteParam_iff.2 ⟨hcos, ?_, hfront h, (hA _).2 h⟩
    unfold flight
    field_simp
  · intro h
    generalize hfp : finiteParam outside F v u = P
    cases P with
    | top => rfl
    | coe t =>
      exfalso
      obtain ⟨_, h2, h3, h4⟩ := finiteParam_iff.1 hfp
      have ht : flight F v u = t := by
        unfold flight
        rw [← h2]
        field_simp
      apply h
      unfold landing
      rw [ht]
      exact (hA _).1 h4

end

/-! ### The mean over the cone -/

section
variable {ang : ℝ}

theorem pillbox_z (h0 : 0 ≤ ang) (h1 : ang < π / 2) {ξ : ℝ × ℝ} (hξ : ξ ∈ angleDraws) :
    cos ang ≤ (pillboxOne ang ξ.1 ξ.2).z ∧ 0 < (pillboxOne ang ξ.1 ξ.2).z := by
  have hc : 0 < cos ang := cos_pos_of_mem_Ioo ⟨by linarith [pi_pos], h1⟩
  have hs : 0 ≤ sin ang := sin_nonneg_of_nonneg_of_le_pi h0 (by linarith [pi_pos])
  have hr : √ξ.2 ≤ 1 := by rw [sqrt_le_one]; exact hξ.2.2.le
  have hle : cos ang ≤ (pillboxOne ang ξ.1 ξ.2).z := by
    show cos ang ≤ cos (arcsin (sin ang * √ξ.2))
    have hle : arcsin (sin ang * √ξ.2) ≤ ang := by
      rw [arcsin_le_iff_le_sin' ⟨by linarith [pi_pos], h1⟩]
      exact mul_le_of_le_one_right hs hr
    exact cos_le_cos_of_nonneg_of_le_pi (arcsin_nonneg.2 (mul_nonneg hs (sqrt_nonneg _))) (by linarith [pi_pos]) hle
  exact ⟨hle, hc.trans_le hle⟩

theorem integral_cos_sin : (∫ x in Set.Ico (0 : ℝ) (2 * π), cos x) = 0 ∧ (∫ x in Set.Ico (0 : ℝ) (2 * π), sin x) = 0 := by
  have h : ∀ f : ℝ → ℝ, (∫ x in Set.Ico (0 : ℝ) (2 * π), f x) = ∫ x in (0 : ℝ)..(2 * π), f x := by
    intro f
    rw [intervalIntegral.integral_of_le (by positivity), integral_Ico_eq_integral_Ioc]
  rw [h, h, integral_cos, integral_sin]
  simp

theorem cone_mean (h0 : 0 ≤ ang) (h1 : ang < π / 2) (m : M3 ℝ) (k : V3 ℝ) :
    ∫ ξ in angleDraws, V3.dot (m.mulVec (pillboxOne ang ξ.1 ξ.2)) k / (pillboxOne ang ξ.1 ξ.2).z = 2 * π * V3.dot m.c3 k := by
  have hd : angleDraws = Set.Ico (0 : ℝ) (2 * π) ×ˢ Set.Ico (0 : ℝ) 1 := rfl
  have hdm : MeasurableSet angleDraws := measurableSet_Ico.prod measurableSet_Ico
  set τ : ℝ → ℝ := fun y => tan (arcsin (sin ang * √y)) with hτ
  have e : ∀ ξ ∈ angleDraws, V3.dot (m.mulVec (pillboxOne ang ξ.1 ξ.2)) k / (pillboxOne ang ξ.1 ξ.2).z =
      V3.dot m.c1 k * (cos ξ.1 * τ ξ.2) + V3.dot m.c2 k * (sin ξ.1 * τ ξ.2) + V3.dot m.c3 k := by
    intro ξ hξ
    have hz := (pillbox_z h0 h1 hξ).2
    simp only [hτ]
    rw [tan_eq_sin_div_cos]
    unfold pillboxOne at hz ⊢
    simp only at hz ⊢
    generalize arcsin (sin ang * √ξ.2) = θ at *
    have := hz.ne'
    simp only [V3.dot, M3.mulVec]
    field_simp
    try simp
    ring
  rw [setIntegral_congr_fun hdm e]
  have hτm : Measurable τ := by
    have h : Measurable fun y : ℝ => arcsin (sin ang * √y) := measurable_arcsin.comp (measurable_const.mul continuous_sqrt.measurable)
    have : τ = fun y => sin (arcsin (sin ang * √y)) / cos (arcsin (sin ang * √y)) := funext fun y => tan_eq_sin_div_cos _
    rw [this]
    exact (measurable_sin.comp h).div (measurable_cos.comp h)
  have hτb : ∀ ξ ∈ angleDraws, |τ ξ.2| ≤ 1 / cos ang := by
    intro ξ hξ
    have hz : cos ang ≤ cos (arcsin (sin ang * √ξ.2)) := (pillbox_z h0 h1 hξ).1
    have hc : 0 < cos ang := cos_pos_of_mem_Ioo ⟨by linarith [pi_pos], h1⟩
    simp only [hτ]
    rw [tan_eq_sin_div_cos, abs_div, abs_of_pos (hc.trans_le hz)]
    exact div_le_div₀ zero_le_one (abs_sin_le_one _) hc hz
  have hvol : volume angleDraws = ENNReal.ofReal (2 * π) := by
    rw [hd, Measure.volume_eq_prod, Measure.prod_prod, Real.volume_Ico, Real.volume_Ico]
    simp
  have hfin : IsFiniteMeasure (volume.restrict angleDraws) := ⟨by rw [Measure.restrict_apply_univ, hvol]; exact ENNReal.ofReal_lt_top⟩
  have int : ∀ g : ℝ → ℝ, Measurable g → (∀ x, |g x| ≤ 1) → Integrable (fun ξ : ℝ × ℝ => g ξ.1 * τ ξ.2) (volume.restrict angleDraws) := by
    intro g hg hb
    refine Integrable.of_bound ((hg.comp measurable_fst).mul (hτm.comp measurable_snd)).aestronglyMeasurable (1 / cos ang) ?_
    refine (ae_restrict_iff' hdm).2 (Eventually.of_forall fun ξ hξ => ?_)
    rw [norm_eq_abs, abs_mul]
    calc |g ξ.1| * |τ ξ.2| ≤ 1 * (1 / cos ang) := mul_le_mul (hb _) (hτb ξ hξ) (abs_nonneg _) zero_le_one
      _ = _ := one_mul _
  have zero : ∀ g : ℝ → ℝ, (∫ x in Set.Ico (0 : ℝ) (2 * π), g x) = 0 → ∫ ξ in angleDraws, g ξ.1 * τ ξ.2 = 0 := by
    intro g hg
    rw [hd, Measure.volume_eq_prod, ← Measure.prod_restrict, integral_prod_mul, hg, zero_mul]
  have i1 := (int cos measurable_cos abs_cos_le_one).const_mul (V3.dot m.c1 k)
  have i2 := (int sin measurable_sin abs_sin_le_one).const_mul (V3.dot m.c2 k)
  have i12 : Integrable (fun ξ : ℝ × ℝ => V3.dot m.c1 k * (cos ξ.1 * τ ξ.2) + V3.dot m.c2 k * (sin ξ.1 * τ ξ.2)) (volume.restrict angleDraws) := i1.add i2
  rw [integral_add i12 (integrable_const _), integral_add i1 i2, integral_const_mul, integral_const_mul,
    zero _ integral_cos_sin.1, zero _ integral_cos_sin.2, integral_const]
  simp only [Measure.real, Measure.restrict_apply_univ, hvol, ENNReal.toReal_ofReal (by positivity : (0:ℝ) ≤ 2 * π), smul_eq_mul]
  ring

/-- How often a ray of the sun lands in a part of the plate. -/
theorem cone_share {center : V3 ℝ} {m : M3 ℝ} {F : Tf ℝ} {T : Set (ℝ × ℝ)} {radius ε c : ℝ} (h0 : 0 ≤ ang) (h1 : ang < π / 2) (hm : m.IsRotation) (hF : F.Rigid)
    (hR : 0 < radius) (hT : MeasurableSet T) (hε : ε = 1 ∨ ε = -1)
    (hside : ∀ ξ ∈ angleDraws, 0 < ε * V3.dot (m.mulVec (pillboxOne ang ξ.1 ξ.2)) F.rot.c3)
    (hcover : ∀ ξ ∈ angleDraws, slantPoint center m (pillboxOne ang ξ.1 ξ.2) F '' T ⊆ disk radius)
    [MeasurableSpace Ω] {μ : Measure Ω} [IsProbabilityMeasure μ] {D : Ω → angleDraws ×ˢ draws} (hD : Measurable D)
    (heven : ∀ S, MeasurableSet S → μ {ω | (D ω).1 ∈ S} = volume (S ∩ angleDraws ×ˢ draws) / volume (angleDraws ×ˢ draws))
    [DecidablePred fun d : (ℝ × ℝ) × (ℝ × ℝ) => landing F (m.mulVec ⟨(polarPoint radius d.2).1, (polarPoint radius d.2).2, 0⟩ + center)
      (m.mulVec (pillboxOne ang d.1.1 d.1.2)) ∈ T] :
    ∫ ω, (if landing F (m.mulVec ⟨(polarPoint radius (D ω).1.2).1, (polarPoint radius (D ω).1.2).2, 0⟩ + center)
      (m.mulVec (pillboxOne ang (D ω).1.1.1 (D ω).1.1.2)) ∈ T then c else 0) ∂μ =
      c / (π * radius ^ 2) * (ε * V3.dot m.c3 F.rot.c3 * (volume T).toReal) := by
  have hpi := pi_pos
  have had : angleDraws = Set.Ico (0 : ℝ) (2 * π) ×ˢ Set.Ico (0 : ℝ) 1 := rfl
  have hdd : draws = Set.Ico (0 : ℝ) 1 ×ˢ Set.Ico (0 : ℝ) (2 * π) := rfl
  have ham : MeasurableSet angleDraws := measurableSet_Ico.prod measurableSet_Ico
  have hdm : MeasurableSet draws := measurableSet_Ico.prod measurableSet_Ico
  have hva : volume angleDraws = ENNReal.ofReal (2 * π) := by
    rw [had, Measure.volume_eq_prod, Measure.prod_prod, Real.volume_Ico, Real.volume_Ico]
    simp
  have hvd : volume draws = ENNReal.ofReal (2 * π) := by
    rw [hdd, Measure.volume_eq_prod, Measure.prod_prod, Real.volume_Ico, Real.volume_Ico]
    simp
  have hvp : volume (angleDraws ×ˢ draws) = ENNReal.ofReal (2 * π * (2 * π)) := by
    rw [Measure.volume_eq_prod, Measure.prod_prod, hva, hvd, ← ENNReal.ofReal_mul (by positivity)]
  -- the function
  set f : (ℝ × ℝ) × (ℝ × ℝ) → ℝ := fun d => if landing F (m.mulVec ⟨(polarPoint radius d.2).1, (polarPoint radius d.2).2, 0⟩ + center)
      (m.mulVec (pillboxOne ang d.1.1 d.1.2)) ∈ T then c else 0 with hf
  have hpp := measurable_polarPoint radius
  have hv : V3M fun d : (ℝ × ℝ) × (ℝ × ℝ) => m.mulVec ⟨(polarPoint radius d.2).1, (polarPoint radius d.2).2, 0⟩ + center :=
    V3M.add (V3M.mulVec _ ⟨measurable_fst.comp (hpp.comp measurable_snd), measurable_snd.comp (hpp.comp measurable_snd), measurable_const⟩) (V3M.const _)
  have hu : V3M fun d : (ℝ × ℝ) × (ℝ × ℝ) => m.mulVec (pillboxOne ang d.1.1 d.1.2) := by
    have hth : Measurable fun d : (ℝ × ℝ) × (ℝ × ℝ) => arcsin (sin ang * √d.1.2) :=
      measurable_arcsin.comp (measurable_const.mul (continuous_sqrt.measurable.comp (measurable_snd.comp measurable_fst)))
    refine V3M.mulVec _ ⟨?_, ?_, ?_⟩
    · exact (measurable_cos.comp (measurable_fst.comp measurable_fst)).mul (measurable_sin.comp hth)
    · exact (measurable_sin.comp (measurable_fst.comp measurable_fst)).mul (measurable_sin.comp hth)
    · exact measurable_cos.comp hth
  have hland : Measurable fun d : (ℝ × ℝ) × (ℝ × ℝ) => landing F (m.mulVec ⟨(polarPoint radius d.2).1, (polarPoint radius d.2).2, 0⟩ + center)
      (m.mulVec (pillboxOne ang d.1.1 d.1.2)) := by
    have ht : Measurable fun d : (ℝ × ℝ) × (ℝ × ℝ) => flight F (m.mulVec ⟨(polarPoint radius d.2).1, (polarPoint radius d.2).2, 0⟩ + center)
        (m.mulVec (pillboxOne ang d.1.1 d.1.2)) :=
      ((V3M.dot (hv.sub (V3M.const _)) (V3M.const _)).neg).div (V3M.dot hu (V3M.const _))
    have := V3M.point F.inv (hv.add (V3M.smul ht hu))
    exact this.x.prodMk this.y
  have hfm : Measurable f := Measurable.ite (hland hT) measurable_const measurable_const
  -- the law of a draw
  have hDm : Measurable fun ω => (D ω).1 := measurable_subtype_coe.comp hD
  have hmap : Measure.map (fun ω => (D ω).1) μ = (volume (angleDraws ×ˢ draws))⁻¹ • volume.restrict (angleDraws ×ˢ draws) := by
    ext S hS
    rw [Measure.map_apply hDm hS, Measure.smul_apply, Measure.restrict_apply hS, smul_eq_mul, ← ENNReal.div_eq_inv_mul]
    exact heven S hS
  have e1 : ∫ ω, f ((D ω).1) ∂μ = ∫ d, f d ∂(Measure.map (fun ω => (D ω).1) μ) :=
    (integral_map hDm.aemeasurable hfm.aestronglyMeasurable).symm
  show ∫ ω, f ((D ω).1) ∂μ = _
  rw [e1, hmap, integral_smul_measure]
  have hfin : IsFiniteMeasure ((volume.restrict angleDraws).prod (volume.restrict draws)) := by
    have i1 : IsFiniteMeasure (volume.restrict angleDraws) := ⟨by rw [Measure.restrict_apply_univ, hva]; exact ENNReal.ofReal_lt_top⟩
    have i2 : IsFiniteMeasure (volume.restrict draws) := ⟨by rw [Measure.restrict_apply_univ, hvd]; exact ENNReal.ofReal_lt_top⟩
    infer_instance
  have e2 : ∫ d in angleDraws ×ˢ draws, f d = ∫ ξ in angleDraws, ∫ p in draws, f (ξ, p) := by
    rw [Measure.volume_eq_prod, ← Measure.prod_restrict]
    refine integral_prod _ (Integrable.of_bound hfm.aestronglyMeasurable |c| (Eventually.of_forall fun d => ?_))
    rw [norm_eq_abs, hf]
    simp only
    split
    · exact le_rfl
    · rw [abs_zero]; exact abs_nonneg _
  have e3 : ∀ ξ ∈ angleDraws, ∫ p in draws, f (ξ, p) =
      c * (2 / radius ^ 2) * (volume T).toReal * ε * (V3.dot (m.mulVec (pillboxOne ang ξ.1 ξ.2)) F.rot.c3 / (pillboxOne ang ξ.1 ξ.2).z) := by
    intro ξ hξ
    have hz := (pillbox_z h0 h1 hξ).2
    have hs := hside ξ hξ
    set l := pillboxOne ang ξ.1 ξ.2 with hl
    have hcos : V3.dot (m.mulVec l) F.rot.c3 ≠ 0 := by
      intro h
      rw [h, mul_zero] at hs
      exact lt_irrefl _ hs
    have habs : |V3.dot (m.mulVec l) F.rot.c3| = ε * V3.dot (m.mulVec l) F.rot.c3 := by
      rcases hε with rfl | rfl
      · rw [one_mul] at hs ⊢
        exact abs_of_pos hs
      · rw [neg_one_mul] at hs ⊢
        exact abs_of_neg (by linarith)
    set B := slantPoint center m l F '' T with hB
    have hBm : MeasurableSet B := slant_measurable hm hF hz hcos hT
    have hpre := landing_preimage (center := center) hm hF hz hcos T
    have e : (fun p => f (ξ, p)) = Set.indicator (polarPoint radius ⁻¹' B) fun _ => c := by
      classical
      funext p
      rw [Set.indicator_apply, hf]
      simp only
      have : polarPoint radius p ∈ B ↔ landing F (m.mulVec ⟨(polarPoint radius p).1, (polarPoint radius p).2, 0⟩ + center) (m.mulVec l) ∈ T := by
        rw [hB, ← hpre]
        rfl
      rw [Set.mem_preimage]
      by_cases h : polarPoint radius p ∈ B
      · rw [if_pos h, if_pos (this.1 h)]
      · rw [if_neg h, if_neg fun h' => h (this.2 h')]
    rw [e, integral_indicator_const _ (hpp hBm)]
    have hvol := polar_volume hR hBm
    rw [Set.inter_eq_left.2 (hcover ξ hξ), slant_area hm hF hz, habs] at hvol
    have ht := congrArg ENNReal.toReal hvol
    rw [ENNReal.toReal_mul, ENNReal.toReal_mul, ENNReal.toReal_ofReal (by positivity), ENNReal.toReal_ofReal (div_nonneg hs.le hz.le)] at ht
    unfold Measure.real
    rw [Measure.restrict_apply (hpp hBm), smul_eq_mul]
    have hr := hR.ne'
    have ht' : (volume (polarPoint radius ⁻¹' B ∩ draws)).toReal = 2 / radius ^ 2 * (ε * V3.dot (m.mulVec l) F.rot.c3 / l.z * (volume T).toReal) := by
      rw [← ht]
      field_simp
    rw [ht']
    ring
  rw [e2, setIntegral_congr_fun ham e3, integral_const_mul, cone_mean h0 h1, hvp, ENNReal.toReal_inv, ENNReal.toReal_ofReal (by positivity)]
  have hr := hR.ne'
  rw [smul_eq_mul]
  field_simp

end

section
variable {center direction : V3 ℝ} {F : Tf ℝ} {A S : Set (ℝ × ℝ)} {outside : Tf ℝ → V3 ℝ → Bool} {ang : ℝ}

/-- What the receiver reports is the mean of what the rays bring: each brings all its energy or nothing, and on average what the plate sees of
the sun. -/
theorem sun_average [MeasurableSpace Ω] {μ : Measure Ω} [IsProbabilityMeasure μ] {radius flux a minE : ℝ} {g : Geometry ℝ E}
    {get : σ → Account ℝ} {set : Account ℝ → σ → σ} (hgs : ∀ acc w, get (set acc w) = acc) {w : σ} (h0 : get w = Account.reset)
    (hgeo : g = finiteFlatGM outside) (hfg : FlatGeometry g) (hA : ∀ p, outside F p = false ↔ ((F.inv.point p).x, (F.inv.point p).y) ∈ A)
    (hAm : MeasurableSet A) (hS : MeasurableSet S) (hF : F.Rigid) (hd : direction.IsUnit) (hR : 0 < radius)
    (hang : 0 ≤ ang ∧ ang < π / 2) (hside : OneSide direction ang F) (hcover : SeenFromDisk center direction radius ang F A)
    (extra : E) {reps : Nat} (hreps : 0 < reps)
    {D : Nat → Ω → angleDraws ×ˢ draws} (hD : ∀ i, Measurable (D i))
    (heven : ∀ S, MeasurableSet S → μ {ω | (D 0 ω).1 ∈ S} = volume (S ∩ angleDraws ×ˢ draws) / volume (angleDraws ×ˢ draws))
    {got : Nat → Ω → ℝ}
    (hgot : ∀ n ω, 0 < n → ∃ src b, solarDisk center direction radius ang (some flux) ((List.range n).map fun i => (D i ω).1.1)
      ((List.range n).map fun i => (D i ω).1.2) = .ok src ∧ src.rays extra = .ok b ∧
      Collects (lone (mkSurf g (accountant a get set (reflective a)) F)) w get (cell F S) b reps minE (got n ω)) :
    ∃ share : angleDraws ×ˢ draws → ℝ, Measurable share ∧ (∀ d, share d = 0 ∨ share d = a * (π * radius ^ 2 * flux)) ∧
      (∀ n ω, 0 < n → got n ω = (∑ i ∈ Finset.range n, share (D i ω)) / n) ∧
      ∫ ω, share (D 0 ω) ∂μ = a * flux * (|V3.dot direction F.rot.c3| * (volume (S ∩ A)).toReal) := by
  classical
  obtain ⟨r1, r2, _⟩ := C27_rotation_to_z hd
  set m := rotationToZ direction with hm
  set s : Surf σ ℝ E := mkSurf g (accountant a get set (reflective a)) F with hs
  have hfl : FlatMirror s := ⟨g, _, F, rfl, hfg, .receiver _ _ _ _ (.mirror _), ((M3.isRotation_iff _).1 hF).1.2.2.1⟩
  have hw : WatchedScene (lone s) w get a := by
    refine ⟨lone_plain s, lone_mirrors hfg.plain (.receiver _ _ _ _ (.mirror _)), h0, ⟨0, 0, s⟩, ?_, g, _, F, set, rfl, hgs,
      (C51_reflective a get).1, ?_⟩
    · rw [lone_sites]; exact List.mem_singleton_self _
    · intro y hy hne
      rw [lone_sites, List.mem_singleton] at hy
      exact absurd ⟨by rw [hy], by rw [hy]⟩ hne
  -- the directions
  have hthird : ∀ l : V3 ℝ, V3.dot (m.mulVec l) direction = l.z := by
    intro l
    have := rot_third r1 l
    rw [r2] at this
    exact this
  have hcone : ∀ ξ ∈ angleDraws, InCone direction ang (m.mulVec (pillboxOne ang ξ.1 ξ.2)) := by
    intro ξ hξ
    refine ⟨?_, ?_⟩
    · unfold V3.IsUnit
      rw [r1.dot]
      exact pillbox_unit _ _ _
    · rw [hthird]
      exact (pillbox_z hang.1 hang.2 hξ).1
  have haxis : InCone direction ang direction := ⟨hd, by rw [hd]; exact cos_le_one _⟩
  obtain ⟨ε, hε, hsign⟩ : ∃ ε : ℝ, (ε = 1 ∨ ε = -1) ∧ ∀ u, InCone direction ang u → 1 / 10 ^ 10 < ε * V3.dot u F.rot.c3 := by
    rcases hside with h | h
    · exact ⟨1, Or.inl rfl, fun u hu => by rw [one_mul]; exact h u hu⟩
    · exact ⟨-1, Or.inr rfl, fun u hu => by linarith [h u hu]⟩
  have habs : ∀ u, InCone direction ang u → |V3.dot u F.rot.c3| = ε * V3.dot u F.rot.c3 := by
    intro u hu
    have h1 := hsign u hu
    have h2 : (0 : ℝ) < 1 / 10 ^ 10 := by norm_num
    rcases hε with rfl | rfl
    · rw [one_mul] at h1 ⊢
      exact abs_of_pos (by linarith)
    · rw [neg_one_mul] at h1 ⊢
      exact abs_of_neg (by linarith)
  have hcos : ∀ ξ ∈ angleDraws, 1 / 10 ^ 10 < |V3.dot (m.mulVec (pillboxOne ang ξ.1 ξ.2)) F.rot.c3| := by
    intro ξ hξ
    rw [habs _ (hcone ξ hξ)]
    exact hsign _ (hcone ξ hξ)
  have hcos0 : ∀ ξ ∈ angleDraws, V3.dot (m.mulVec (pillboxOne ang ξ.1 ξ.2)) F.rot.c3 ≠ 0 := by
    intro ξ hξ h
    have := hcos ξ hξ
    rw [h, abs_zero] at this
    norm_num at this
  -- how far the plate is, along a direction of the cone
  have hseen : ∀ q ∈ A, ∀ ξ ∈ angleDraws, slantPoint center m (pillboxOne ang ξ.1 ξ.2) F q ∈ disk radius ∧
      ∀ x y, landing F (m.mulVec ⟨x, y, 0⟩ + center) (m.mulVec (pillboxOne ang ξ.1 ξ.2)) = q →
        1 / 10 ^ 6 < flight F (m.mulVec ⟨x, y, 0⟩ + center) (m.mulVec (pillboxOne ang ξ.1 ξ.2)) := by
    intro q hq ξ hξ
    have hz := (pillbox_z hang.1 hang.2 hξ).2
    obtain ⟨k, hk, hperp, hdist⟩ := hcover q hq _ (hcone ξ hξ)
    set l := pillboxOne ang ξ.1 ξ.2 with hl
    have key : ∀ x y t, F.point ⟨q.1, q.2, 0⟩ = m.mulVec ⟨x, y, 0⟩ + center + t • m.mulVec l → t = k ∧ x ^ 2 + y ^ 2 < radius ^ 2 := by
      intro x y t h
      have e : F.point ⟨q.1, q.2, 0⟩ - k • m.mulVec l - center = m.mulVec ⟨x + (t - k) * l.x, y + (t - k) * l.y, (t - k) * l.z⟩ := by
        rw [h]
        apply V3.ext <;> simp [M3.mulVec] <;> ring
      rw [e, hthird] at hperp
      have ht : t = k := by
        rcases mul_eq_zero.1 hperp with h | h
        · linarith
        · exact absurd h hz.ne'
      refine ⟨ht, ?_⟩
      have e' : V3.dist2 (F.point ⟨q.1, q.2, 0⟩ - k • m.mulVec l) center = x ^ 2 + y ^ 2 := by
        unfold V3.dist2
        rw [e, r1.dot, ht]
        simp only [V3.dot]
        ring
      rw [e'] at hdist
      exact hdist
    constructor
    · have hland := (landing_iff (center := center) r1 hF hz (hcos0 ξ hξ) (slantPoint center m l F q).1 (slantPoint center m l F q).2 q).2 rfl
      have hp := landing_point (v := m.mulVec ⟨(slantPoint center m l F q).1, (slantPoint center m l F q).2, 0⟩ + center) hF (hcos0 ξ hξ)
      rw [hland] at hp
      exact (key _ _ _ hp).2
    · intro x y hland
      have hp := landing_point (v := m.mulVec ⟨x, y, 0⟩ + center) hF (hcos0 ξ hξ)
      rw [hland] at hp
      rw [(key _ _ _ hp).1]
      exact hk
  -- the rays
  set ray : angleDraws ×ˢ draws → Ray ℝ E := fun d => sunRay center direction radius ang flux extra d.1 with hray
  set land : angleDraws ×ˢ draws → ℝ × ℝ := fun d => landing F (m.mulVec ⟨(polarPoint radius d.1.2).1, (polarPoint radius d.1.2).2, 0⟩ + center)
    (m.mulVec (pillboxOne ang d.1.1.1 d.1.1.2)) with hland
  have hvert : ∀ d, (ray d).vertex = m.mulVec ⟨(polarPoint radius d.1.2).1, (polarPoint radius d.1.2).2, 0⟩ + center := fun d => rfl
  have hdir : ∀ d, (ray d).dir = m.mulVec (pillboxOne ang d.1.1.1 d.1.1.2) := fun d => rfl
  have hsingle : ∀ d, s.single (ray d) = finiteParam outside F (ray d).vertex (ray d).dir := by
    intro d
    unfold Surf.single
    rw [hs, hgeo, mkSurf_perRay (finiteFlatGM_perRay _) _ F]
    rfl
  have hfar : ∀ d, land d ∈ A → 1 / 10 ^ 6 < flight F (ray d).vertex (ray d).dir := fun d h => (hseen _ h d.1.1 d.2.1).2 _ _ rfl
  have hhit : ∀ d, (land d ∈ A → s.single (ray d) = ((flight F (ray d).vertex (ray d).dir : ℝ) : WithTop ℝ)) ∧ (land d ∉ A → s.single (ray d) = ⊤) := by
    intro d
    rw [hsingle]
    exact landing_hit (v := (ray d).vertex) (u := (ray d).dir) hA (hcos _ d.2.1)
      fun h => by have := hfar d h; linarith [show (0 : ℝ) < 1 / 10 ^ 6 by norm_num]
  have hset : ∀ d m, GoingsSettled Surf.single (Surf.alone w) (plainPolicy (lone s)) (sites (lone s)) m [ray d] reps := by
    intro d m
    refine flat_settled (lone_plain s) (fun o ho t ht => ?_) fun o ho t ht u hu => ?_
    · rw [lone, List.mem_singleton] at ho
      subst ho
      rw [List.mem_singleton] at ht
      rw [ht]
      exact hfl
    · rw [lone, List.mem_singleton] at ho
      subst ho
      rw [List.mem_singleton] at ht
      rw [ht] at hu
      by_cases h : land d ∈ A
      · rw [← WithTop.coe_injective (((hhit d).1 h).symm.trans hu)]
        exact Or.inr (hfar d h)
      · exact absurd (((hhit d).2 h).symm.trans hu) WithTop.top_ne_coe
  -- what one ray brings
  set c : ℝ := a * (π * radius ^ 2 * flux) with hc
  have hpower : ∀ d m e, Collects (lone s) w get (cell F S) [ray d] reps m e → e = if land d ∈ S ∩ A then c else 0 := by
    intro d m e he
    obtain ⟨x, hx, hflow⟩ := collects_flow (cell F S) (reps := reps) hw
    rw [lone_sites, List.mem_singleton] at hx
    have h1 := hflow _ _ _ (by intro r hr; rw [List.mem_singleton] at hr; rw [hr]; exact hset d m) he
    obtain ⟨k, rfl⟩ : ∃ k, reps = k + 1 := ⟨reps - 1, by omega⟩
    rw [hx, List.map_singleton, lone_flow hfl] at h1
    rw [h1]
    unfold brings
    by_cases h : land d ∈ A
    · have ht := (hhit d).1 h
      have hm := lone_meets (s := s) (g := ⟨ray d, none⟩) (cut := dropTol) ht (hfar d h) le_rfl
      rw [if_pos hm]
      have hcell : cell F S (spot Surf.single (⟨0, 0, s⟩ : Site σ ℝ E) (ray d)) = if land d ∈ S ∩ A then 1 else 0 := by
        unfold spot
        rw [ht, WithTop.untopD_coe]
        unfold cell
        refine if_congr ?_ rfl rfl
        exact ⟨fun h' => ⟨h', h⟩, fun h' => h'.1⟩
      show a * ((ray d).energy * cell F S (spot Surf.single (⟨0, 0, s⟩ : Site σ ℝ E) (ray d))) = _
      rw [hcell]
      have he : (ray d).energy = π * radius ^ 2 * flux := rfl
      rw [he, hc]
      split <;> simp
    · have hm := lone_misses (s := s) (g := ⟨ray d, none⟩) (cut := dropTol) ((hhit d).2 h)
      rw [if_neg hm, mul_zero, if_neg]
      exact fun h' => h h'.2
  have hcoll : ∀ d m, Collects (lone s) w get (cell F S) [ray d] reps m (if land d ∈ S ∩ A then c else 0) := by
    intro d m
    obtain ⟨e, he⟩ := C113_exists hw (cell F S) [ray d] reps m
    rw [← hpower d m e he]
    exact he
  have hsame : ∀ n ω, 0 < n → got n ω = (∑ i ∈ Finset.range n, if land (D i ω) ∈ S ∩ A then c else 0) / n := by
    intro n ω hn
    obtain ⟨src, b, h1, h2, h3⟩ := hgot n ω hn
    rw [solarDisk_drawn center direction radius ang flux extra (fun i => (D i ω).1) hn h1 h2] at h3
    have hn' : (n : ℝ) ≠ 0 := by positivity
    have em : minE = n * minE / n := by field_simp
    rw [em] at h3
    exact C113_average hw ray (fun i => D i ω) (fun d => hset d _) (fun d => hcoll d _) hn h3
  have hrm : RayM ray := by
    have h := sunRay_measurable center direction radius ang flux extra
    exact ⟨⟨h.vertex.x.comp measurable_subtype_coe, h.vertex.y.comp measurable_subtype_coe, h.vertex.z.comp measurable_subtype_coe⟩,
      ⟨h.dir.x.comp measurable_subtype_coe, h.dir.y.comp measurable_subtype_coe, h.dir.z.comp measurable_subtype_coe⟩,
      h.energy.comp measurable_subtype_coe⟩
  -- the mean
  have hmean : ∫ ω, (if land (D 0 ω) ∈ S ∩ A then c else 0) ∂μ = a * flux * (|V3.dot direction F.rot.c3| * (volume (S ∩ A)).toReal) := by
    have := cone_share (center := center) (m := m) (F := F) (T := S ∩ A) (c := c) hang.1 hang.2 r1 hF hR (hS.inter hAm) hε
      (fun ξ hξ => by have := hsign _ (hcone ξ hξ); linarith [show (0 : ℝ) < 1 / 10 ^ 10 by norm_num])
      (by rintro ξ hξ _ ⟨q, hq, rfl⟩; exact (hseen q hq.2 ξ hξ).1) (hD 0) heven
    refine this.trans ?_
    rw [r2, habs _ haxis, hc]
    have hp := pi_pos.ne'
    have hr := hR.ne'
    field_simp
  refine ⟨fun d => if land d ∈ S ∩ A then c else 0, power_measurable hw (cell_weights F hS) hrm (fun d => hset d 0) (fun d => hcoll d 0), fun d => ?_,
    hsame, hmean⟩
  by_cases h : land d ∈ S ∩ A
  · exact Or.inr (if_pos h)
  · exact Or.inl (if_neg h)

theorem sun_map [MeasurableSpace Ω] {μ : Measure Ω} [IsProbabilityMeasure μ] {radius flux a minE : ℝ} {g : Geometry ℝ E}
    {get : σ → Account ℝ} {set : Account ℝ → σ → σ} (hgs : ∀ acc w, get (set acc w) = acc) {w : σ} (h0 : get w = Account.reset)
    (hgeo : g = finiteFlatGM outside) (hfg : FlatGeometry g) (hA : ∀ p, outside F p = false ↔ ((F.inv.point p).x, (F.inv.point p).y) ∈ A)
    (hAm : MeasurableSet A) (hS : MeasurableSet S) (hF : F.Rigid) (hd : direction.IsUnit) (hR : 0 < radius)
    (hang : 0 ≤ ang ∧ ang < π / 2) (hside : OneSide direction ang F) (hcover : SeenFromDisk center direction radius ang F A)
    (extra : E) {reps : Nat} (hreps : 0 < reps)
    {D : Nat → Ω → angleDraws ×ˢ draws} (hD : ∀ i, Measurable (D i)) (hind : Pairwise fun i j => IndepFun (D i) (D j) μ)
    (hid : ∀ i, IdentDistrib (D i) (D 0) μ μ)
    (heven : ∀ S, MeasurableSet S → μ {ω | (D 0 ω).1 ∈ S} = volume (S ∩ angleDraws ×ˢ draws) / volume (angleDraws ×ˢ draws))
    {got : Nat → Ω → ℝ}
    (hgot : ∀ n ω, 0 < n → ∃ src b, solarDisk center direction radius ang (some flux) ((List.range n).map fun i => (D i ω).1.1)
      ((List.range n).map fun i => (D i ω).1.2) = .ok src ∧ src.rays extra = .ok b ∧
      Collects (lone (mkSurf g (accountant a get set (reflective a)) F)) w get (cell F S) b reps minE (got n ω)) :
    ∀ᵐ ω ∂μ, Tendsto (fun n => got n ω) atTop (𝓝 (a * flux * (|V3.dot direction F.rot.c3| * (volume (S ∩ A)).toReal))) := by
  obtain ⟨share, h1, h2, h3, h4⟩ := sun_average hgs h0 hgeo hfg hA hAm hS hF hd hR hang hside hcover extra hreps hD heven hgot
  have hint : Integrable (fun ω => share (D 0 ω)) μ := by
    refine Integrable.of_bound (h1.comp (hD 0)).aestronglyMeasurable |a * (π * radius ^ 2 * flux)| (Eventually.of_forall fun ω => ?_)
    rcases h2 (D 0 ω) with h | h <;> rw [h]
    · rw [norm_zero]
      exact abs_nonneg _
    · rfl
  have hlaw := strong_law_ae_real (fun i ω => share (D i ω)) hint (fun i j hij => (hind hij).comp h1 h1) fun i => (hid i).comp h1
  rw [← h4]
  filter_upwards [hlaw] with ω hω
  refine hω.congr' ?_
  filter_upwards [eventually_gt_atTop 0] with n hn
  exact (h3 n ω hn).symm

/-- C113: the flux map of a rectangular plate under a sun that is not a point.  The directions of the rays are spread evenly (in the sense of C55)
over the cone of half angle `ang` about the axis, and all of them fall on the same side of the plate.  With more and more rays the energies
that the receiver reports in any part `S` of the plate add up to `a` times the flux times the area of this part times the cosine of the angle
between the plate's normal and the axis, whatever `ang` is.  The energy threshold does not matter. -/
theorem C113_sun_plate [MeasurableSpace Ω] {μ : Measure Ω} [IsProbabilityMeasure μ] {width height radius flux a minE : ℝ} {g : Geometry ℝ E}
    {get : σ → Account ℝ} {set : Account ℝ → σ → σ} (hgs : ∀ acc w, get (set acc w) = acc) {w : σ} (h0 : get w = Account.reset)
    (hg : rectPlateGM width height = .ok g) (hS : MeasurableSet S) (hF : F.Rigid) (hd : direction.IsUnit) (hR : 0 < radius)
    (hang : 0 ≤ ang ∧ ang < π / 2) (hside : OneSide direction ang F)
    (hcover : SeenFromDisk center direction radius ang F {q | |q.1| ≤ width / 2 ∧ |q.2| ≤ height / 2})
    (extra : E) {reps : Nat} (hreps : 0 < reps)
    {D : Nat → Ω → angleDraws ×ˢ draws} (hD : ∀ i, Measurable (D i)) (hind : Pairwise fun i j => IndepFun (D i) (D j) μ)
    (hid : ∀ i, IdentDistrib (D i) (D 0) μ μ)
    (heven : ∀ S, MeasurableSet S → μ {ω | (D 0 ω).1 ∈ S} = volume (S ∩ angleDraws ×ˢ draws) / volume (angleDraws ×ˢ draws))
    {got : Nat → Ω → ℝ}
    (hgot : ∀ n ω, 0 < n → ∃ src b, solarDisk center direction radius ang (some flux) ((List.range n).map fun i => (D i ω).1.1)
      ((List.range n).map fun i => (D i ω).1.2) = .ok src ∧ src.rays extra = .ok b ∧
      Collects (lone (mkSurf g (accountant a get set (reflective a)) F)) w get (cell F S) b reps minE (got n ω)) :
    ∀ᵐ ω ∂μ, Tendsto (fun n => got n ω) atTop (𝓝 (a * flux * (|V3.dot direction F.rot.c3| *
      (volume (S ∩ {q | |q.1| ≤ width / 2 ∧ |q.2| ≤ height / 2})).toReal))) := by
  refine sun_map (A := {q | |q.1| ≤ width / 2 ∧ |q.2| ≤ height / 2}) hgs h0 (rect_eq hg) (.rect _ _ _ hg) (fun p => ?_) ?_ hS hF hd hR hang
    hside hcover extra hreps hD hind hid heven hgot
  · unfold rectOutside toLocal
    simp
  · exact (measurableSet_le (absM measurable_fst) measurable_const).inter (measurableSet_le (absM measurable_snd) measurable_const)

/-- C113: the flux map of a round plate under a sun that is not a point. -/
theorem C113_sun_round_plate [MeasurableSpace Ω] {μ : Measure Ω} [IsProbabilityMeasure μ] {R radius flux a minE : ℝ} {g : Geometry ℝ E}
    {get : σ → Account ℝ} {set : Account ℝ → σ → σ} (hgs : ∀ acc w, get (set acc w) = acc) {w : σ} (h0 : get w = Account.reset)
    (hg : roundPlateGM R = .ok g) (hS : MeasurableSet S) (hF : F.Rigid) (hd : direction.IsUnit) (hR : 0 < radius)
    (hang : 0 ≤ ang ∧ ang < π / 2) (hside : OneSide direction ang F)
    (hcover : SeenFromDisk center direction radius ang F {q | q.1 ^ 2 + q.2 ^ 2 ≤ R ^ 2})
    (extra : E) {reps : Nat} (hreps : 0 < reps)
    {D : Nat → Ω → angleDraws ×ˢ draws} (hD : ∀ i, Measurable (D i)) (hind : Pairwise fun i j => IndepFun (D i) (D j) μ)
    (hid : ∀ i, IdentDistrib (D i) (D 0) μ μ)
    (heven : ∀ S, MeasurableSet S → μ {ω | (D 0 ω).1 ∈ S} = volume (S ∩ angleDraws ×ˢ draws) / volume (angleDraws ×ˢ draws))
    {got : Nat → Ω → ℝ}
    (hgot : ∀ n ω, 0 < n → ∃ src b, solarDisk center direction radius ang (some flux) ((List.range n).map fun i => (D i ω).1.1)
      ((List.range n).map fun i => (D i ω).1.2) = .ok src ∧ src.rays extra = .ok b ∧
      Collects (lone (mkSurf g (accountant a get set (reflective a)) F)) w get (cell F S) b reps minE (got n ω)) :
    ∀ᵐ ω ∂μ, Tendsto (fun n => got n ω) atTop (𝓝 (a * flux * (|V3.dot direction F.rot.c3| *
      (volume (S ∩ {q | q.1 ^ 2 + q.2 ^ 2 ≤ R ^ 2})).toReal))) := by
  refine sun_map (A := {q | q.1 ^ 2 + q.2 ^ 2 ≤ R ^ 2}) hgs h0 (round_eq hg) (.round _ _ hg) (fun p => ?_) ?_ hS hF hd hR hang
    hside hcover extra hreps hD hind hid heven hgot
  · unfold roundOutside toLocal
    simp
  · exact measurableSet_le ((measurable_fst.pow_const 2).add (measurable_snd.pow_const 2)) measurable_const

end

/-- Draws of a direction and a start as `solar_disk_bundle` makes them. -/
theorem even_pairs : ∃ ν : Measure (angleDraws ×ˢ draws), IsProbabilityMeasure ν ∧
    ∀ S, MeasurableSet S → ν {d | d.1 ∈ S} = volume (S ∩ angleDraws ×ˢ draws) / volume (angleDraws ×ˢ draws) := by
  have hd : angleDraws ×ˢ draws = (Set.Ico (0 : ℝ) (2 * π) ×ˢ Set.Ico (0 : ℝ) 1) ×ˢ (Set.Ico (0 : ℝ) 1 ×ˢ Set.Ico (0 : ℝ) (2 * π)) := rfl
  have hm : MeasurableSet (angleDraws ×ˢ draws) := (measurableSet_Ico.prod measurableSet_Ico).prod (measurableSet_Ico.prod measurableSet_Ico)
  have hv : volume (angleDraws ×ˢ draws) ≠ 0 ∧ volume (angleDraws ×ˢ draws) ≠ ⊤ := by
    have hp := Real.pi_pos
    rw [hd]
    simp only [Measure.volume_eq_prod, Measure.prod_prod, Real.volume_Ico]
    constructor
    · refine mul_ne_zero (mul_ne_zero ?_ ?_) (mul_ne_zero ?_ ?_) <;> rw [Ne, ENNReal.ofReal_eq_zero, not_le] <;> linarith
    · exact ENNReal.mul_ne_top (ENNReal.mul_ne_top ENNReal.ofReal_ne_top ENNReal.ofReal_ne_top)
        (ENNReal.mul_ne_top ENNReal.ofReal_ne_top ENNReal.ofReal_ne_top)
  have hval : ∀ S, MeasurableSet S → (Measure.comap Subtype.val (cond volume (angleDraws ×ˢ draws)))
      {d : (angleDraws ×ˢ draws : Set ((ℝ × ℝ) × (ℝ × ℝ))) | d.1 ∈ S} = volume (S ∩ angleDraws ×ˢ draws) / volume (angleDraws ×ˢ draws) := by
    intro S hS
    rw [comap_subtype_coe_apply hm]
    have e : (Subtype.val '' {d : (angleDraws ×ˢ draws : Set ((ℝ × ℝ) × (ℝ × ℝ))) | d.1 ∈ S}) = S ∩ angleDraws ×ˢ draws := by
      ext p
      constructor
      · rintro ⟨d, hd, rfl⟩; exact ⟨hd, d.2⟩
      · rintro ⟨h1, h2⟩; exact ⟨⟨p, h2⟩, h1, rfl⟩
    rw [e, cond_apply hm, ENNReal.div_eq_inv_mul, Set.inter_comm S, ← Set.inter_assoc, Set.inter_self]
  refine ⟨_, ⟨?_⟩, hval⟩
  have := hval Set.univ MeasurableSet.univ
  simp only [Set.mem_univ, Set.setOf_true] at this
  rw [this, Set.univ_inter, ENNReal.div_self hv.1 hv.2]

theorem zenith_cone {u : V3 ℝ} (hu : InCone ⟨0, 0, -1⟩ (π / 6) u) : 4 / 5 < -u.z ∧ u.x ^ 2 + u.y ^ 2 + u.z ^ 2 = 1 ∧ 3 / 4 ≤ u.z ^ 2 := by
  have h1 := hu.1
  have h2 := hu.2
  rw [cos_pi_div_six] at h2
  simp only [V3.IsUnit, V3.dot] at h1 h2
  have h3 : (4 / 5 : ℝ) < √3 / 2 := by
    have : (8 / 5 : ℝ) < √3 := by
      rw [Real.lt_sqrt (by norm_num)]
      norm_num
    linarith
  have h4 : √3 ^ 2 = 3 := Real.sq_sqrt (by norm_num)
  have h5 : 0 ≤ √3 := Real.sqrt_nonneg _
  refine ⟨by linarith, by nlinarith, ?_⟩
  nlinarith

theorem zenith_side : OneSide ⟨0, 0, -1⟩ (π / 6) (1 : Tf ℝ) := by
  refine Or.inr fun u hu => ?_
  have := (zenith_cone hu).1
  have e : V3.dot u (1 : Tf ℝ).rot.c3 = u.z := by simp [V3.dot]
  rw [e]
  linarith [show (1 / 10 ^ 10 : ℝ) < 4 / 5 by norm_num]

theorem zenith_seen : SeenFromDisk ⟨0, 0, 5⟩ ⟨0, 0, -1⟩ 5 (π / 6) (1 : Tf ℝ) {q | |q.1| ≤ 2 / 2 ∧ |q.2| ≤ 2 / 2} := by
  intro q hq u hu
  obtain ⟨h1, h2, h3⟩ := zenith_cone hu
  have ha := abs_le.1 hq.1
  have hb := abs_le.1 hq.2
  have hz : u.z ≠ 0 := by intro h; rw [h] at h1; norm_num at h1
  have e : (5 / -u.z) * u.z = -5 := by field_simp
  refine ⟨5 / -u.z, ?_, ?_, ?_⟩
  · have h4 : -u.z ≤ 1 := by nlinarith
    have h5 : 5 ≤ 5 / -u.z := by
      rw [le_div_iff₀ (by linarith)]
      linarith
    exact lt_of_lt_of_le (by norm_num) h5
  · simp only [V3.dot, Tf.point, V3.sub_x, V3.sub_y, V3.sub_z, V3.smul_z]
    simp
    linarith
  · have hk : (5 / -u.z) ^ 2 * (u.x ^ 2 + u.y ^ 2) ≤ 25 / 3 := by
      have e1 : u.x ^ 2 + u.y ^ 2 = 1 - u.z ^ 2 := by linarith
      have e2 : (5 / -u.z) ^ 2 = 25 / u.z ^ 2 := by rw [div_pow, neg_sq]; norm_num
      rw [e1, e2, div_mul_eq_mul_div, div_le_iff₀ (by positivity)]
      linarith
    generalize 5 / -u.z = k at e hk
    have h6 : q.1 ^ 2 ≤ 1 := by nlinarith
    have h7 : q.2 ^ 2 ≤ 1 := by nlinarith
    have e3 : V3.dist2 ((1 : Tf ℝ).point ⟨q.1, q.2, 0⟩ - k • u) ⟨0, 0, 5⟩ = (q.1 - k * u.x) ^ 2 + (q.2 - k * u.y) ^ 2 := by
      have : -(k * u.z) - 5 = 0 := by linarith
      simp [V3.dot, V3.dist2, Tf.point, this]
      ring
    rw [e3]
    have h8 : (q.1 - k * u.x) ^ 2 ≤ 2 * q.1 ^ 2 + 2 * (k ^ 2 * u.x ^ 2) := by linarith [sq_nonneg (q.1 + k * u.x)]
    have h9 : (q.2 - k * u.y) ^ 2 ≤ 2 * q.2 ^ 2 + 2 * (k ^ 2 * u.y ^ 2) := by linarith [sq_nonneg (q.2 + k * u.y)]
    linarith

/-- A plate of 2 by 2, which absorbs half the light, 5 under a sun of radius 5, flux 1000 and half angle 30° in the zenith: the half of the plate
where x is not negative collects 1000, as it would under a sun that is a point. -/
example (reps : Nat) (hreps : 0 < reps) (minE : ℝ) : ∃ (g : Geometry ℝ Unit) (μ : Measure (Nat → (angleDraws ×ˢ draws : Set ((ℝ × ℝ) × (ℝ × ℝ)))))
    (got : Nat → (Nat → (angleDraws ×ˢ draws : Set ((ℝ × ℝ) × (ℝ × ℝ)))) → ℝ), rectPlateGM 2 2 = .ok g ∧ IsProbabilityMeasure μ ∧
    (∀ n ω, 0 < n → ∃ src b, solarDisk ⟨0, 0, 5⟩ ⟨0, 0, -1⟩ 5 (π / 6) (some 1000) ((List.range n).map fun i => (ω i).1.1)
      ((List.range n).map fun i => (ω i).1.2) = .ok src ∧ src.rays () = .ok b ∧
      Collects (lone (mkSurf g (accountant (1 / 2) id (fun a _ => a) (reflective (1 / 2))) 1)) Account.reset id (cell 1 {q | 0 ≤ q.1}) b reps minE (got n ω)) ∧
    ∀ᵐ ω ∂μ, Tendsto (fun n => got n ω) atTop (𝓝 1000) := by
  obtain ⟨ν, hν, heven⟩ := even_pairs
  obtain ⟨μ, hμ, hD, hind, hid, hlaw⟩ := draws_exist ν
  obtain ⟨g, hg⟩ : ∃ g : Geometry ℝ Unit, rectPlateGM 2 2 = .ok g := ⟨_, by unfold rectPlateGM; rw [if_neg (by norm_num), if_neg (by norm_num)]⟩
  set s : Surf (Account ℝ) ℝ Unit := mkSurf g (accountant (1 / 2) id (fun a _ => a) (reflective (1 / 2))) 1 with hs
  have hw : WatchedScene (lone s) Account.reset id (1 / 2) := by
    refine ⟨lone_plain s, lone_mirrors (.rect _ _ _ hg) (.receiver _ _ _ _ (.mirror _)), rfl, ⟨0, 0, s⟩, ?_, g, _, 1, _, rfl, fun _ _ => rfl,
      (C51_reflective _ id).1, ?_⟩
    · rw [lone_sites]; exact List.mem_singleton_self _
    · intro y hy hne
      rw [lone_sites, List.mem_singleton] at hy
      exact absurd ⟨by rw [hy], by rw [hy]⟩ hne
  have hex : ∀ n ω, ∃ e, 0 < n → ∃ src b, solarDisk ⟨0, 0, 5⟩ ⟨0, 0, -1⟩ 5 (π / 6) (some 1000) ((List.range n).map fun i => ((ω : Nat → (angleDraws ×ˢ draws : Set ((ℝ × ℝ) × (ℝ × ℝ)))) i).1.1)
      ((List.range n).map fun i => (ω i).1.2) = .ok src ∧ src.rays () = .ok b ∧ Collects (lone s) Account.reset id (cell 1 {q | 0 ≤ q.1}) b reps minE e := by
    intro n ω
    rcases Nat.eq_zero_or_pos n with rfl | hn
    · exact ⟨0, fun h => absurd h (lt_irrefl _)⟩
    · obtain ⟨src, h1⟩ : ∃ src, solarDisk ⟨0, 0, 5⟩ ⟨0, 0, -1⟩ 5 (π / 6) (some 1000) ((List.range n).map fun i => (ω i).1.1)
          ((List.range n).map fun i => (ω i).1.2) = .ok src := ⟨_, by unfold solarDisk; rw [if_neg (by simp; omega)]⟩
      obtain ⟨b, h2⟩ : ∃ b, src.rays () = .ok b := by
        unfold solarDisk at h1
        rw [if_neg (by simp; omega)] at h1
        cases h1
        exact ⟨_, rfl⟩
      obtain ⟨e, he⟩ := C113_exists hw (cell 1 {q | 0 ≤ q.1}) b reps minE
      exact ⟨e, fun _ => ⟨src, b, h1, h2, he⟩⟩
  choose got hgot using hex
  refine ⟨g, μ, got, hg, hμ, hgot, ?_⟩
  have h := C113_sun_plate (center := ⟨0, 0, 5⟩) (direction := ⟨0, 0, -1⟩) (F := 1) (width := 2) (height := 2) (radius := 5) (flux := 1000)
    (S := {q | 0 ≤ q.1}) (ang := π / 6)
    (get := id) (set := fun a _ => a) (μ := μ) (D := fun i ω => ω i) (got := got) (a := 1 / 2) (minE := minE)
    (fun _ _ => rfl) rfl hg (measurableSet_le measurable_const measurable_fst) Tf.Rigid.one (by unfold V3.IsUnit; norm_num [V3.dot]) (by norm_num)
    ⟨by positivity, by linarith [Real.pi_pos]⟩ ?_ ?_ () hreps hD hind hid ?_ hgot
  · have e1 : ({q | 0 ≤ q.1} ∩ {q | |q.1| ≤ 2 / 2 ∧ |q.2| ≤ 2 / 2} : Set (ℝ × ℝ)) = Set.Icc 0 1 ×ˢ Set.Icc (-1) 1 := by
      ext q
      simp only [Set.mem_inter_iff, Set.mem_setOf_eq, Set.mem_prod, Set.mem_Icc, abs_le]
      constructor
      · rintro ⟨h1, ⟨h2, h3⟩, h4, h5⟩
        exact ⟨⟨h1, by linarith⟩, by linarith, by linarith⟩
      · rintro ⟨⟨h1, h2⟩, h3, h4⟩
        exact ⟨h1, ⟨by linarith, by linarith⟩, by linarith, by linarith⟩
    have e : (1 / 2 : ℝ) * 1000 * (|V3.dot (⟨0, 0, -1⟩ : V3 ℝ) (1 : Tf ℝ).rot.c3| *
        (volume ({q | 0 ≤ q.1} ∩ {q | |q.1| ≤ 2 / 2 ∧ |q.2| ≤ 2 / 2} : Set (ℝ × ℝ))).toReal) = 1000 := by
      rw [e1, Measure.volume_eq_prod, Measure.prod_prod, Real.volume_Icc, Real.volume_Icc, ← ENNReal.ofReal_mul (by norm_num),
        ENNReal.toReal_ofReal (by norm_num)]
      norm_num [V3.dot]
    rw [e] at h
    exact h
  · exact zenith_side
  · exact zenith_seen
  · intro S hS
    rw [← heven S hS]
    exact hlaw {d | d.1 ∈ S} (measurable_subtype_coe hS)

end Tracer
