import Verif.Model.Boundary
import Verif.Model.Lens
import Verif.Model.Heliostats
import Verif.Props.CutSphere
import Verif.Lemmas.LensBatch
import Mathlib.Analysis.SpecialFunctions.Trigonometric.Deriv
import Mathlib.Analysis.Real.Pi.Bounds
import Mathlib.Tactic.NormNum.Basic

/-!
More unit tests of the repository (`/repo/tests`) stated of the model, over the reals: the expected values the tests record, with
equality in place of agreement to six digits.  They are tests of the model, not properties.
-/

namespace Tracer.Replay

open Real

/-! ### tests/test_boundary_surface.py -/

/-- `self.points` of `TestInBounds` -/
noncomputable def diagonal : List (V3 ℝ) := [⟨0, 0, 0⟩, ⟨1, 1, 1⟩, ⟨2, 2, 2⟩]

/-- TestInBounds.test_sphere -/
example : (BoundarySphere.mk' 0 2).inBounds diagonal = [true, true, false] := by
  norm_num [BoundarySphere.mk', BoundarySphere.inBounds, TempLoc.head, diagonal]

/-- TestInBounds.test_cylinder -/
example : cylinderInBounds (boundaryCylinder 3 0 1) diagonal = .ok [true, true, false] := by
  norm_num [cylinderInBounds, boundaryCylinder, diagonal, Tf.point, M3.mulVec]

/-- TestInBounds.test_plane -/
example : (boundaryPlane ⟨0, 1, 0⟩ (rotx (-π / 6)).rot).planeInBounds diagonal = .ok [false, true, true] := by
  have hs : sin (-π / 6) = -(1 / 2) := by rw [neg_div, sin_neg, sin_pi_div_six]
  have hc : cos (-π / 6) = √3 / 2 := by rw [neg_div, cos_neg, cos_pi_div_six]
  have h3 : √3 * √3 = 3 := Real.mul_self_sqrt (by norm_num)
  have h0 : 0 < √3 := by positivity
  have hdet : (rotx (-π / 6)).rot.det = 1 := by
    simp only [M3.det, V3.dot, V3.cross, rotx, hs, hc]; nlinarith
  have hz : ∀ p : V3 ℝ, ((⟨(rotx (-π / 6)).rot, ⟨0, 1, 0⟩⟩ : Tf ℝ).inv.point p).z = 1 / 2 * (p.y - 1) + √3 / 2 * p.z := by
    intro p
    simp only [Tf.inv, Tf.point, M3.inv, hdet]
    simp only [M3.mulVec, V3.cross, rotx, hs, hc, V3.add_z, V3.neg_z]
    ring
  unfold BoundaryFrame.planeInBounds
  simp only [boundaryPlane, hdet, one_ne_zero, if_false, hz, diagonal, List.map_cons, List.map_nil]
  norm_num
  constructor <;> nlinarith

/-- The bounding rectangle of a sphere for a plane, given what its centre looks like from there. -/
theorem rect_of (p c : V3 ℝ) (r e : ℝ) (t : Tf ℝ) (hd : t.rot.det ≠ 0) (hc : t.inv.point p = c)
    (he : r ^ 2 - (p.z - c.z) ^ 2 = e ^ 2) (h0 : 0 ≤ e) :
    (BoundarySphere.mk' p r).boundingRect t = .ok (c.x - e, c.x + e, c.y - e, c.y + e) := by
  unfold BoundarySphere.boundingRect BoundarySphere.mk'
  simp only [hd, if_false, hc, he, Real.sqrt_sq h0]
  rw [if_neg (not_lt.mpr (sq_nonneg e))]

/-- `generate_transform` about the Y axis, at a place. -/
noncomputable def aboutY (angle : ℝ) (l : V3 ℝ) : Tf ℝ := ⟨generalAxisRotation ⟨0, 1, 0⟩ angle, l⟩

theorem aboutY_det (angle : ℝ) (l : V3 ℝ) : (aboutY angle l).rot.det = 1 := by
  simp only [aboutY, generalAxisRotation, M3.det, V3.dot, V3.cross]
  linear_combination sin_sq_add_cos_sq angle

theorem aboutY_inv (angle : ℝ) (l p : V3 ℝ) : (aboutY angle l).inv.point p =
    ⟨cos angle * (p.x - l.x) - sin angle * (p.z - l.z), p.y - l.y, sin angle * (p.x - l.x) + cos angle * (p.z - l.z)⟩ := by
  have h := aboutY_det angle l
  simp only [Tf.inv, Tf.point, M3.inv, h]
  have := sin_sq_add_cos_sq angle
  ext <;> simp only [aboutY, generalAxisRotation, M3.mulVec, V3.cross, V3.add_x, V3.add_y, V3.add_z, V3.neg_x, V3.neg_y, V3.neg_z]
  · ring
  · linear_combination (p.y - l.y) * this
  · ring

/-- TestSphereBoundingRect.test_sphere_at_origin: the planes through the origin -/
example : (BoundarySphere.mk' 0 2).boundingRect 1 = .ok (-2, 2, -2, 2) ∧
    (BoundarySphere.mk' 0 2).boundingRect (aboutY (π / 2) 0) = .ok (-2, 2, -2, 2) ∧
    (BoundarySphere.mk' 0 2).boundingRect (aboutY (π / 4) 0) = .ok (-2, 2, -2, 2) := by
  refine ⟨?_, ?_, ?_⟩
  · rw [rect_of 0 0 2 2 1 (by norm_num [M3.det, V3.dot, V3.cross])
      (by ext <;> norm_num [Tf.inv, Tf.point, M3.inv, M3.det, V3.dot, V3.cross, M3.mulVec]) (by norm_num) (by norm_num)]
    norm_num
  all_goals
    rw [rect_of 0 0 2 2 _ (by rw [aboutY_det]; norm_num) (by rw [aboutY_inv]; ext <;> simp) (by norm_num) (by norm_num)]
    norm_num

/-- TestSphereBoundingRect.test_sphere_at_origin: the planes at distance 1 -/
example : (BoundarySphere.mk' 0 2).boundingRect (aboutY 0 ⟨0, 0, 1⟩) = .ok (-√3, √3, -√3, √3) ∧
    (BoundarySphere.mk' 0 2).boundingRect (aboutY (π / 2) ⟨1, 0, 0⟩) = .ok (-√3, √3, -√3, √3) ∧
    (BoundarySphere.mk' 0 2).boundingRect (aboutY (π / 4) ⟨√(1 / 2), 0, √(1 / 2)⟩) = .ok (-√3, √3, -√3, √3) := by
  have h3 : √3 ^ 2 = 3 := Real.sq_sqrt (by norm_num)
  have hh : √(1 / 2) = √2 / 2 := by
    rw [Real.sqrt_eq_iff_mul_self_eq (by norm_num) (by positivity)]
    have : √2 * √2 = 2 := Real.mul_self_sqrt (by norm_num)
    nlinarith
  have h2 : √2 * √2 = 2 := Real.mul_self_sqrt (by norm_num)
  refine ⟨?_, ?_, ?_⟩
  all_goals
    rw [rect_of 0 ⟨0, 0, -1⟩ 2 (√3) _ (by rw [aboutY_det]; norm_num)
      (by rw [aboutY_inv]; ext <;> simp only [hh, cos_pi_div_four, sin_pi_div_four, cos_zero, sin_zero, cos_pi_div_two, sin_pi_div_two, V3.zero_x, V3.zero_y, V3.zero_z] <;> nlinarith) (by rw [h3]; norm_num) (by positivity)]
    norm_num

/-- TestSphereBoundingRect.test_sphere_moved -/
example : (BoundarySphere.mk' ⟨1, 0, 0⟩ 2).boundingRect 1 = .ok (-1, 3, -2, 2) ∧
    (BoundarySphere.mk' ⟨1, 0, 0⟩ 2).boundingRect (aboutY (π / 2) 0) = .ok (-√3, √3, -√3, √3) ∧
    (BoundarySphere.mk' ⟨1, 0, 0⟩ 2).boundingRect (aboutY (π / 4) 0) =
      .ok (√(1 / 2) - √(7 / 2), √(1 / 2) + √(7 / 2), -√(7 / 2), √(7 / 2)) ∧
    (BoundarySphere.mk' ⟨1, 0, 0⟩ 2).boundingRect (aboutY 0 ⟨0, 0, 1⟩) = .ok (1 - √3, 1 + √3, -√3, √3) ∧
    (BoundarySphere.mk' ⟨1, 0, 0⟩ 2).boundingRect (aboutY (π / 2) ⟨1, 0, 0⟩) = .ok (-2, 2, -2, 2) ∧
    (BoundarySphere.mk' ⟨1, 0, 0⟩ 2).boundingRect (aboutY (π / 4) ⟨√(1 / 2), 0, √(1 / 2)⟩) =
      .ok (√(1 / 2) - √(4 - (1 - √(1 / 2)) ^ 2), √(1 / 2) + √(4 - (1 - √(1 / 2)) ^ 2), -√(4 - (1 - √(1 / 2)) ^ 2),
        √(4 - (1 - √(1 / 2)) ^ 2)) := by
  have h3 : √3 ^ 2 = 3 := Real.sq_sqrt (by norm_num)
  have h7 : √(7 / 2) ^ 2 = 7 / 2 := Real.sq_sqrt (by norm_num)
  have hh : √(1 / 2) = √2 / 2 := by
    rw [Real.sqrt_eq_iff_mul_self_eq (by norm_num) (by positivity)]
    have : √2 * √2 = 2 := Real.mul_self_sqrt (by norm_num)
    nlinarith
  have h2 : √2 * √2 = 2 := Real.mul_self_sqrt (by norm_num)
  have h1 : 0 ≤ √2 := by positivity
  have h4 : √2 ≤ 2 := by nlinarith
  have hR : √(4 - (1 - √2 / 2) ^ 2) ^ 2 = 4 - (1 - √2 / 2) ^ 2 := Real.sq_sqrt (by nlinarith)
  refine ⟨?_, ?_, ?_, ?_, ?_, ?_⟩
  · rw [rect_of _ ⟨1, 0, 0⟩ 2 2 1 (by norm_num [M3.det, V3.dot, V3.cross])
      (by ext <;> norm_num [Tf.inv, Tf.point, M3.inv, M3.det, V3.dot, V3.cross, M3.mulVec]) (by norm_num) (by norm_num)]
    norm_num
  · rw [rect_of _ ⟨0, 0, 1⟩ 2 (√3) _ (by rw [aboutY_det]; norm_num) (by rw [aboutY_inv]; ext <;> simp) (by rw [h3]; norm_num) (by positivity)]
    norm_num
  · rw [rect_of _ ⟨√(1 / 2), 0, √(1 / 2)⟩ 2 (√(7 / 2)) _ (by rw [aboutY_det]; norm_num)
      (by rw [aboutY_inv]; ext <;> simp only [hh, cos_pi_div_four, sin_pi_div_four, V3.zero_x, V3.zero_y, V3.zero_z] <;> ring) (by rw [h7, hh]; nlinarith) (by positivity)]
    norm_num
  · rw [rect_of _ ⟨1, 0, -1⟩ 2 (√3) _ (by rw [aboutY_det]; norm_num) (by rw [aboutY_inv]; ext <;> simp) (by rw [h3]; norm_num) (by positivity)]
    norm_num
  · rw [rect_of _ ⟨0, 0, 0⟩ 2 2 _ (by rw [aboutY_det]; norm_num) (by rw [aboutY_inv]; ext <;> simp) (by norm_num) (by positivity)]
    norm_num
  · rw [hh, rect_of _ ⟨√2 / 2, 0, √2 / 2 - 1⟩ 2 (√(4 - (1 - √2 / 2) ^ 2)) _ (by rw [aboutY_det]; norm_num)
      (by rw [aboutY_inv]; ext <;> simp [cos_pi_div_four, sin_pi_div_four] <;> nlinarith) (by rw [hR]; ring) (by positivity)]
    norm_num

/-! ### tests/test_optics.py -/

/-- TestSingleReflection, TestMultipleReflections -/
example (s : ℝ) : reflection (⟨0, 1 / s, -1 / s⟩ : V3 ℝ) ⟨0, 0, 1⟩ = ⟨0, 1 / s, 1 / s⟩ ∧
    ∀ x y : ℝ, reflection (⟨x / s, y / s, -1 / s⟩ : V3 ℝ) ⟨0, 0, 1⟩ = ⟨x / s, y / s, 1 / s⟩ := by
  refine ⟨?_, fun x y => ?_⟩ <;> ext <;> simp [reflection, V3.dot] <;> ring

/-- TestTangentRays -/
example (x y : ℝ) : reflection (⟨x, y, 0⟩ : V3 ℝ) ⟨0, 0, 1⟩ = ⟨x, y, 0⟩ := by
  ext <;> simp [reflection, V3.dot]

/-- TestMultipleNormals -/
example : reflection (⟨1 / √3, 1 / √3, -1 / √3⟩ : V3 ℝ) ⟨0, 0, 1⟩ = ⟨1 / √3, 1 / √3, 1 / √3⟩ ∧
    reflection (⟨-1 / √3, 1 / √3, -1 / √3⟩ : V3 ℝ) ⟨1 / √2, 0, 1 / √2⟩ = ⟨1 / √3, 1 / √3, 1 / √3⟩ ∧
    reflection (⟨-1 / √3, -1 / √3, -1 / √3⟩ : V3 ℝ) ⟨1 / √3, 1 / √3, 1 / √3⟩ = ⟨1 / √3, 1 / √3, 1 / √3⟩ ∧
    reflection (⟨1 / √3, -1 / √3, -1 / √3⟩ : V3 ℝ) ⟨0, 1 / √2, 1 / √2⟩ = ⟨1 / √3, 1 / √3, 1 / √3⟩ := by
  have h2 : √2 ^ 2 = 2 := Real.sq_sqrt (by norm_num)
  have h3 : √3 ^ 2 = 3 := Real.sq_sqrt (by norm_num)
  have p2 : √2 ≠ 0 := by positivity
  have p3 : √3 ≠ 0 := by positivity
  refine ⟨?_, ?_, ?_, ?_⟩ <;> ext <;> simp [reflection, V3.dot] <;> field_simp <;> (try rw [h2]) <;> (try rw [h3]) <;> norm_num

/-- TestFresnel.test_normal_incidence -/
example : fresnelOne ⟨0, 0, 1⟩ ⟨0, 0, 1⟩ 1 (3 / 2) = 4 / 100 := by
  norm_num [fresnelOne, V3.dot]

/-- TestFresnel.test_grazing_incidence -/
example : fresnelOne ⟨0, 0, 1⟩ ⟨0, 1, 0⟩ 1 (3 / 2) = 1 := by
  norm_num [fresnelOne, V3.dot]

/-- TestFresnel.test_no_reflectance -/
example : fresnelOne ⟨0, 1 / √2, 1 / √2⟩ ⟨0, 1, 0⟩ 1 1 = 0 := by
  have h2 : √2 ^ 2 = 2 := Real.sq_sqrt (by norm_num)
  have h0 : 0 < √2 := by positivity
  have ha : |V3.dot (⟨0, 1, 0⟩ : V3 ℝ) ⟨0, 1 / √2, 1 / √2⟩| = cos (π / 4) := by
    rw [cos_pi_div_four]
    simp only [V3.dot, zero_mul, one_mul, zero_add, add_zero]
    rw [abs_of_pos (by positivity)]
    field_simp
    rw [h2]
  simp only [fresnelOne, ha, arccos_cos (by positivity : (0 : ℝ) ≤ π / 4) (by linarith [pi_pos])]
  have hb : √(1 - (1 / 1 * sin (π / 4)) ^ 2) = cos (π / 4) := by
    rw [cos_pi_div_four, sin_pi_div_four, Real.sqrt_eq_iff_mul_self_eq_of_pos (by positivity)]
    nlinarith
  rw [hb]
  norm_num

/-- A refraction, given the two cosines. -/
theorem refractions_cons (n1 n2 : ℝ) (d m d' : V3 ℝ) (l : List Incidence) (h : refractedOne n1 n2 d m = true) (h' : refractOne n1 n2 d m = d') :
    refractions (⟨n1, n2, d, m⟩ :: l) = (true :: (refractions l).1, d' :: (refractions l).2) := by
  simp [refractions, h, h', Np.mask]

/-- The ray at 45 degrees, from air into glass. -/
theorem glass (s u : ℝ) (hs : s = 1 ∨ s = -1) (hu : u = 1 ∨ u = -1) :
    refractedOne 1 (3 / 2) ⟨0, -1 / √2, u / √2⟩ ⟨0, s, 0⟩ = true ∧
    refractOne 1 (3 / 2) ⟨0, -1 / √2, u / √2⟩ ⟨0, s, 0⟩ = ⟨0, -√(7 / 9), u * √(2 / 9)⟩ := by
  have h2 : √2 ^ 2 = 2 := Real.sq_sqrt (by norm_num)
  have h0 : 0 < √2 := by positivity
  have h29 : √(2 / 9) = √2 / 3 := by
    rw [Real.sqrt_eq_iff_mul_self_eq_of_pos (by positivity)]; nlinarith
  have hd : 1 / √2 = √2 / 2 := by field_simp; rw [h2]
  have hd' : -1 / √2 = -(√2 / 2) := by rw [neg_div, hd]
  have hu' : u / √2 = u * (√2 / 2) := by rw [← hd]; ring
  have h7 : (1 : ℝ) - 1 / (3 / 2 / 1) ^ 2 * (1 - (√2 / 2) ^ 2) = 7 / 9 := by
    have : (√2 / 2) ^ 2 = 1 / 2 := by rw [div_pow, h2]; norm_num
    rw [this]; norm_num
  rw [hd', hu']
  rcases hs with rfl | rfl
  · refine ⟨?_, ?_⟩
    · norm_num [refractedOne, V3.dot]; nlinarith
    · simp only [refractOne, V3.dot, zero_mul, mul_zero, add_zero, zero_add, one_mul, neg_sq, h7, h29]
      rw [if_pos (by linarith)]
      ext <;> ring
  · refine ⟨?_, ?_⟩
    · norm_num [refractedOne, V3.dot]; nlinarith
    · simp only [refractOne, V3.dot, zero_mul, mul_zero, add_zero, zero_add, neg_mul_neg, one_mul, h7, h29]
      rw [if_neg (by linarith)]
      ext <;> ring

/-- The ray at 45 degrees, between equal media. -/
theorem sameMedium (s : ℝ) (hs : s = 1 ∨ s = -1) :
    refractedOne 1 1 ⟨0, -1 / √2, 1 / √2⟩ ⟨0, s, 0⟩ = true ∧
    refractOne 1 1 ⟨0, -1 / √2, 1 / √2⟩ ⟨0, s, 0⟩ = ⟨0, -1 / √2, 1 / √2⟩ := by
  have h2 : √2 ^ 2 = 2 := Real.sq_sqrt (by norm_num)
  have h0 : 0 < √2 := by positivity
  have hd : 1 / √2 = √2 / 2 := by field_simp; rw [h2]
  have hd' : -1 / √2 = -(√2 / 2) := by rw [neg_div, hd]
  have h7 : √((1 : ℝ) - 1 / (1 / 1) ^ 2 * (1 - (√2 / 2) ^ 2)) = √2 / 2 := by
    rw [Real.sqrt_eq_iff_mul_self_eq_of_pos (by positivity)]; ring
  rw [hd', hd]
  rcases hs with rfl | rfl
  · refine ⟨?_, ?_⟩
    · norm_num [refractedOne, V3.dot]; positivity
    · simp only [refractOne, V3.dot, zero_mul, mul_zero, add_zero, zero_add, one_mul, neg_sq, h7]
      rw [if_pos (by linarith)]
      ext <;> ring
  · refine ⟨?_, ?_⟩
    · norm_num [refractedOne, V3.dot]; positivity
    · simp only [refractOne, V3.dot, zero_mul, mul_zero, add_zero, zero_add, neg_mul_neg, one_mul, h7]
      rw [if_neg (by linarith)]
      ext <;> ring

/-- TestRefractionDirs.test_multiple_ref_idxs and test_reverse_normal -/
example (s : ℝ) (hs : s = 1 ∨ s = -1) :
    refractions [⟨1, 1, ⟨0, -1 / √2, 1 / √2⟩, ⟨0, s, 0⟩⟩, ⟨1, 3 / 2, ⟨0, -1 / √2, -1 / √2⟩, ⟨0, s, 0⟩⟩] =
      ([true, true], [⟨0, -1 / √2, 1 / √2⟩, ⟨0, -√(7 / 9), -1 * √(2 / 9)⟩]) := by
  rw [refractions_cons _ _ _ _ _ _ (sameMedium s hs).1 (sameMedium s hs).2,
    refractions_cons _ _ _ _ _ _ (glass s (-1) hs (.inr rfl)).1 (glass s (-1) hs (.inr rfl)).2]
  rfl

/-- TestRefractionDirs.test_single_ref_idx -/
example : refractions [⟨1, 3 / 2, ⟨0, -1 / √2, 1 / √2⟩, ⟨0, -1, 0⟩⟩, ⟨1, 3 / 2, ⟨0, -1 / √2, -1 / √2⟩, ⟨0, -1, 0⟩⟩] =
    ([true, true], [⟨0, -√(7 / 9), 1 * √(2 / 9)⟩, ⟨0, -√(7 / 9), -1 * √(2 / 9)⟩]) := by
  rw [refractions_cons _ _ _ _ _ _ (glass (-1) 1 (.inr rfl) (.inl rfl)).1 (glass (-1) 1 (.inr rfl) (.inl rfl)).2,
    refractions_cons _ _ _ _ _ _ (glass (-1) (-1) (.inr rfl) (.inr rfl)).1 (glass (-1) (-1) (.inr rfl) (.inr rfl)).2]
  rfl

/-- TestRefractionDirs.test_TIR -/
example : refractions [⟨3 / 2, 1, ⟨0, -1, 0⟩, ⟨0, -1, 0⟩⟩, ⟨3 / 2, 1, ⟨0, -1 / √2, -1 / √2⟩, ⟨0, -1, 0⟩⟩] =
    ([true, false], [⟨0, -1, 0⟩]) := by
  have h2 : √2 ^ 2 = 2 := Real.sq_sqrt (by norm_num)
  have hd' : -1 / √2 = -(√2 / 2) := by field_simp; rw [h2]
  have hf : refractedOne (3 / 2) 1 ⟨0, -1 / √2, -1 / √2⟩ ⟨0, -1, 0⟩ = false := by
    rw [hd']
    norm_num [refractedOne, V3.dot]
    nlinarith
  have ht : refractedOne (3 / 2) 1 ⟨0, -1, 0⟩ ⟨0, -1, 0⟩ = true := by norm_num [refractedOne, V3.dot]
  have hr : refractOne (3 / 2) 1 ⟨0, -1, 0⟩ ⟨0, -1, 0⟩ = ⟨0, -1, 0⟩ := by norm_num [refractOne, V3.dot]
  rw [refractions_cons _ _ _ _ _ _ ht hr]
  simp [refractions, hf, Np.mask]

/-! ### tests/test_transforms.py -/

/-- TestRotateToZ.test_single_vec and test_two_vecs -/
example : rotationToZAll [⟨1 / √3, 1 / √3, 1 / √3⟩, ⟨1, 0, 0⟩] =
    [⟨⟨1 / √2, -1 / √2, 0⟩, ⟨1 / √6, 1 / √6, -2 / √6⟩, ⟨1 / √3, 1 / √3, 1 / √3⟩⟩, ⟨⟨0, -1, 0⟩, ⟨0, 0, -1⟩, ⟨1, 0, 0⟩⟩] := by
  have h2 : √2 ^ 2 = 2 := Real.sq_sqrt (by norm_num)
  have h3 : √3 ^ 2 = 3 := Real.sq_sqrt (by norm_num)
  have p2 : 0 < √2 := by positivity
  have p3 : 0 < √3 := by positivity
  have h6 : √6 = √2 * √3 := by rw [← Real.sqrt_mul (by norm_num)]; norm_num
  have hn : √((1 / √3) ^ 2 + (-(1 / √3)) ^ 2 + 0 ^ 2) = √2 / √3 := by
    rw [Real.sqrt_eq_iff_mul_self_eq_of_pos (by positivity)]
    field_simp
    rw [h2]; norm_num
  have ha : rotationToZ ⟨1 / √3, 1 / √3, 1 / √3⟩ =
      ⟨⟨1 / √2, -1 / √2, 0⟩, ⟨1 / √6, 1 / √6, -2 / √6⟩, ⟨1 / √3, 1 / √3, 1 / √3⟩⟩ := by
    have hne : ¬ (1 / √3 = 0 ∧ -(1 / √3) = 0) := by
      rintro ⟨h, _⟩
      exact absurd h (by positivity)
    simp only [rotationToZ, perpXY, hne, if_false, hn, h6]
    ext <;> simp [V3.cross] <;> field_simp <;> norm_num
  have hb : rotationToZ ⟨1, 0, 0⟩ = ⟨⟨0, -1, 0⟩, ⟨0, 0, -1⟩, ⟨1, 0, 0⟩⟩ := by
    norm_num [rotationToZ, perpXY, V3.cross]
  simp only [rotationToZAll, List.map_cons, List.map_nil, ha, hb]

/-! ### Quadrics -/

/-- The two solutions, given the root of the discriminant. -/
theorem cand_of {A B C e : ℝ} (v d : V3 ℝ) (hA : planarTol < A) (he : B ^ 2 - 4 * A * C = e ^ 2) (h0 : 0 ≤ e) :
    candidate (A, B, C) v d = some ⟨(-B + -1 * e) / (2 * A), (-B + 1 * e) / (2 * A), v + ((-B + -1 * e) / (2 * A)) • d,
      v + ((-B + 1 * e) / (2 * A)) • d⟩ := by
  unfold candidate
  simp only [he, Real.sqrt_sq h0]
  rw [if_pos (sq_nonneg e), if_neg (not_le.mpr hA)]

theorem dropped (test : V3 ℝ → Bool) {p : V3 ℝ} (t : ℝ) (h : t ≤ 0 ∨ test p = false) : (test p && decide (0 < t)) = false := by
  rcases h with h | h
  · rw [decide_eq_false (not_lt.mpr h), Bool.and_false]
  · rw [h, Bool.false_and]

/-- What a trimmed surface answers for one ray: the second solution. -/
theorem param_second {A B C e t : ℝ} (test : V3 ℝ → Bool) (v d : V3 ℝ) (hA : planarTol < A) (he : B ^ 2 - 4 * A * C = e ^ 2) (h0 : 0 ≤ e)
    (hn : (-B + -1 * e) / (2 * A) ≤ 0 ∨ test (v + ((-B + -1 * e) / (2 * A)) • d) = false) (ht : (-B + 1 * e) / (2 * A) = t) (hp : 0 < t)
    (hok : test (v + t • d) = true) :
    chosenParam (trimPick test) (candidate (A, B, C) v d) = (t : WithTop ℝ) := by
  rw [cand_of v d hA he h0]
  subst ht
  have a1 := dropped test _ hn
  simp only [chosenParam, trimPick, pick, hok, hp, a1, decide_true, Bool.and_self, Bool.false_eq_true, if_true, if_false, Cand.choose]

/-- The first solution. -/
theorem param_first {A B C e t : ℝ} (test : V3 ℝ → Bool) (v d : V3 ℝ) (hA : planarTol < A) (he : B ^ 2 - 4 * A * C = e ^ 2) (h0 : 0 ≤ e)
    (ht : (-B + -1 * e) / (2 * A) = t) (hp : 0 < t) (hok : test (v + t • d) = true) :
    chosenParam (trimPick test) (candidate (A, B, C) v d) = (t : WithTop ℝ) := by
  rw [cand_of v d hA he h0]
  subst ht
  simp only [chosenParam, trimPick, pick, hok, hp, decide_true, Bool.and_self, if_true, Cand.choose]
  rfl

/-- None. -/
theorem param_none {A B C e : ℝ} (test : V3 ℝ → Bool) (v d : V3 ℝ) (hA : planarTol < A) (he : B ^ 2 - 4 * A * C = e ^ 2) (h0 : 0 ≤ e)
    (h1 : (-B + -1 * e) / (2 * A) ≤ 0 ∨ test (v + ((-B + -1 * e) / (2 * A)) • d) = false)
    (h2 : (-B + 1 * e) / (2 * A) ≤ 0 ∨ test (v + ((-B + 1 * e) / (2 * A)) • d) = false) :
    chosenParam (trimPick test) (candidate (A, B, C) v d) = ⊤ := by
  rw [cand_of v d hA he h0]
  have a1 := dropped test _ h1
  have a2 := dropped test _ h2
  simp only [chosenParam, trimPick, a1, a2, pick, Bool.false_eq_true, if_false]

theorem tol_lt {A : ℝ} (h : 1 / 1000 ≤ A) : planarTol < A := by unfold planarTol; linarith [show (1 : ℝ) / 10 ^ 10 < 1 / 1000 by norm_num]

theorem one_inv_point (p : V3 ℝ) : (1 : Tf ℝ).inv.point p = p := by
  ext <;> norm_num [Tf.inv, Tf.point, M3.inv, M3.det, V3.dot, V3.cross, M3.mulVec]

theorem one_localDir (d : V3 ℝ) : localDir 1 d = d := by
  ext <;> simp [localDir, M3.transpose, M3.mulVec]

/-- The rays of tests/test_cylinder.py: TestInfiniteCylinder -/
noncomputable def fromInAndOut : Bundle ℝ Unit :=
  [⟨⟨0, 0, 0⟩, ⟨0, 1, 0⟩, 1, 0, none, ()⟩, ⟨⟨0, 0, 0⟩, ⟨0, √2 / 2, √2 / 2⟩, 1, 0, none, ()⟩,
   ⟨⟨0, 1, 0⟩, ⟨0, -1, 0⟩, 1, 0, none, ()⟩, ⟨⟨0, 1, 0⟩, ⟨0, -(√2 / 2), √2 / 2⟩, 1, 0, none, ()⟩]

/-- tests/test_cylinder.py: TestInfiniteCylinder.test_vertical -/
example : (infiniteCylinderGM 1).find 1 fromInAndOut =
      [((1 / 2 : ℝ) : WithTop ℝ), ((√2 / 2 : ℝ) : WithTop ℝ), ((1 / 2 : ℝ) : WithTop ℝ), ((√2 / 2 : ℝ) : WithTop ℝ)] ∧
    List.zipWith (fun r t => r.at t) fromInAndOut [1 / 2, √2 / 2, 1 / 2, √2 / 2] =
      [⟨0, 1 / 2, 0⟩, ⟨0, 1 / 2, 1 / 2⟩, ⟨0, 1 / 2, 0⟩, ⟨0, 1 / 2, 1 / 2⟩] ∧
    List.zipWith (fun r t => (infiniteCylinderGM (E := Unit) 1).normal 1 (r.at t) r.dir) fromInAndOut [1 / 2, √2 / 2, 1 / 2, √2 / 2] =
      [⟨0, -1, 0⟩, ⟨0, -1, 0⟩, ⟨0, 1, 0⟩, ⟨0, 1, 0⟩] := by
  have h2 : √2 ^ 2 = 2 := Real.sq_sqrt (by norm_num)
  have h0 : 0 < √2 := by positivity
  have hu : √2 < 3 / 2 := by nlinarith
  have ho : 1 < √2 := by nlinarith
  have hpts : List.zipWith (fun r t => r.at t) fromInAndOut [1 / 2, √2 / 2, 1 / 2, √2 / 2] =
      [⟨0, 1 / 2, 0⟩, ⟨0, 1 / 2, 1 / 2⟩, ⟨0, 1 / 2, 0⟩, ⟨0, 1 / 2, 1 / 2⟩] := by
    simp only [fromInAndOut, List.zipWith_cons_cons, List.zipWith_nil_left, Ray.at, List.cons.injEq, and_true]
    refine ⟨?_, ?_, ?_, ?_⟩ <;> ext <;> simp <;> nlinarith
  refine ⟨?_, hpts, ?_⟩
  · show quadricFind _ defaultSelect _ = _
    rw [quadricFind_map _ defaultSelect_eq]
    rw [show defaultPick = trimPick (fun _ => true) from (funext trimPick_true).symm]
    simp only [fromInAndOut, List.map_cons, List.map_nil, cylinderABC, one_inv_point, one_localDir]
    rw [param_second (e := 1) (t := 1 / 2) _ _ _ (tol_lt (by norm_num)) (by norm_num) (by norm_num) (by norm_num) (by norm_num) (by norm_num) rfl,
      param_second (e := √2 / 2) (t := √2 / 2) _ _ _ (tol_lt (by nlinarith)) (by nlinarith) (by positivity)
        (.inl (div_nonpos_of_nonpos_of_nonneg (by linarith) (by positivity))) (by field_simp; nlinarith) (by positivity) rfl,
      param_first (e := 1) (t := 1 / 2) _ _ _ (tol_lt (by norm_num)) (by norm_num) (by norm_num) (by norm_num) (by norm_num) rfl,
      param_first (e := √2 / 2) (t := √2 / 2) _ _ _ (tol_lt (by nlinarith)) (by nlinarith) (by positivity)
        (by field_simp; nlinarith) (by positivity) rfl]
  · simp only [fromInAndOut, List.zipWith_cons_cons, List.zipWith_nil_left, Ray.at, List.cons.injEq, and_true] at hpts ⊢
    obtain ⟨p1, p2, p3, p4⟩ := hpts
    rw [p1, p2, p3, p4]
    simp only [infiniteCylinderGM, cylinderNormal, one_inv_point, one_localDir]
    have hs : √((0 : ℝ) ^ 2 + (1 / 2 : ℝ) ^ 2) = 1 / 2 := by
      rw [zero_pow (by norm_num), zero_add]; exact Real.sqrt_sq (by norm_num)
    have hn : ¬ (√2 / 2 < 0) := by linarith
    have hn' : 0 < √2 / 2 := by linarith
    simp only [hs]
    norm_num [M3.mulVec, hn, hn']

/-- The rays of tests/test_cylinder.py: TestFiniteCylinder, their directions not divided by their lengths. -/
noncomputable def eightRays : Bundle ℝ Unit :=
  [⟨⟨0, 0, 0⟩, ⟨0, 1, 0⟩, 1, 0, none, ()⟩, ⟨⟨0, 0, 0⟩, ⟨0, 1, 1⟩, 1, 0, none, ()⟩, ⟨⟨0, 1, 0⟩, ⟨0, -1, 0⟩, 1, 0, none, ()⟩,
   ⟨⟨0, 1, 0⟩, ⟨0, -1, 1⟩, 1, 0, none, ()⟩, ⟨⟨0, 1, 0⟩, ⟨0, -1, 5 / 100⟩, 1, 0, none, ()⟩,
   ⟨⟨0, 1, 1 / 10⟩, ⟨0, -1, -5 / 100⟩, 1, 0, none, ()⟩, ⟨⟨0, 2 / 10, -6 / 100⟩, ⟨0, 1, 2 / 10⟩, 1, 0, none, ()⟩,
   ⟨⟨0, 0, 3 / 100⟩, ⟨0, 1, 1 / 10⟩, 1, 0, none, ()⟩]

/-- tests/test_cylinder.py: TestFiniteCylinder.test_vertical -/
example : (finiteCylinderGM 1 (1 / 10)).find 1 eightRays =
    [((1 / 2 : ℝ) : WithTop ℝ), ⊤, ((1 / 2 : ℝ) : WithTop ℝ), ⊤, ((1 / 2 : ℝ) : WithTop ℝ), ((3 / 2 : ℝ) : WithTop ℝ),
      ((3 / 10 : ℝ) : WithTop ℝ), ⊤] := by
  show quadricFind _ (cylinderSelect _ _) _ = _
  rw [quadricFind_map _ (cylinderSelect_eq _ _)]
  simp only [eightRays, List.map_cons, List.map_nil, cylinderABC, one_inv_point, one_localDir]
  rw [param_second (e := 1) (t := 1 / 2) _ _ _ (tol_lt (by norm_num)) (by norm_num) (by norm_num) (by norm_num) (by norm_num) (by norm_num)
      (by norm_num [abs_le]),
    param_none (e := 1) _ _ _ (tol_lt (by norm_num)) (by norm_num) (by norm_num) (by norm_num) (by norm_num [abs_le]),
    param_first (e := 1) (t := 1 / 2) _ _ _ (tol_lt (by norm_num)) (by norm_num) (by norm_num) (by norm_num) (by norm_num) (by norm_num [abs_le]),
    param_none (e := 1) _ _ _ (tol_lt (by norm_num)) (by norm_num) (by norm_num) (by norm_num [abs_le]) (by norm_num [abs_le]),
    param_first (e := 1) (t := 1 / 2) _ _ _ (tol_lt (by norm_num)) (by norm_num) (by norm_num) (by norm_num) (by norm_num) (by norm_num [abs_le]),
    param_second (e := 1) (t := 3 / 2) _ _ _ (tol_lt (by norm_num)) (by norm_num) (by norm_num) (by norm_num [abs_le]) (by norm_num) (by norm_num)
      (by norm_num [abs_le]),
    param_second (e := 1) (t := 3 / 10) _ _ _ (tol_lt (by norm_num)) (by norm_num) (by norm_num) (by norm_num) (by norm_num) (by norm_num)
      (by norm_num [abs_le]),
    param_none (e := 1) _ _ _ (tol_lt (by norm_num)) (by norm_num) (by norm_num) (by norm_num [abs_le]) (by norm_num [abs_le])]

/-- Rays straight down from a circle of radius 1 (tests/test_hemisphere_gm.py, test_cut_sphere.py, test_paraboloid_gm.py), at any angles. -/
noncomputable def fromCircle (angles : List ℝ) : Bundle ℝ Unit :=
  angles.map fun a => ⟨⟨cos a, sin a, 1⟩, ⟨0, 0, -1⟩, 1, 0, none, ()⟩

theorem two_sin : 2 * sin (π / 3) = √3 := by rw [sin_pi_div_three]; ring

/-- The sphere of radius 2 and a ray from the circle: the two solutions. -/
theorem circle_cand (a : ℝ) : candidate (sphereABC 2 1 ⟨cos a, sin a, 1⟩ ⟨0, 0, -1⟩) ⟨cos a, sin a, 1⟩ ⟨0, 0, -1⟩ =
    some ⟨1 - √3, 1 + √3, ⟨cos a, sin a, √3⟩, ⟨cos a, sin a, -√3⟩⟩ := by
  have h3 : √3 ^ 2 = 3 := Real.sq_sqrt (by norm_num)
  have := sin_sq_add_cos_sq a
  have hh : sphereABC 2 1 ⟨cos a, sin a, 1⟩ ⟨0, 0, -1⟩ = (1, -2, -2) := by
    simp only [sphereABC, Tf.one_loc, V3.sub_x, V3.sub_y, V3.sub_z, V3.zero_x, V3.zero_y, V3.zero_z]
    norm_num
  rw [hh, cand_of (e := 2 * √3) _ _ (tol_lt (by norm_num)) (by rw [mul_pow, h3]; norm_num) (by positivity)]
  have e0 : (- -2 + -1 * (2 * √3)) / (2 * 1) = 1 - √3 := by ring
  have e1 : (- -2 + 1 * (2 * √3)) / (2 * 1) = 1 + √3 := by ring
  rw [e0, e1]
  congr 1
  congr 1 <;> ext <;> simp <;> ring

/-- What a half of that sphere answers, if its lower part is kept. -/
theorem circle_find (test : V3 ℝ → Bool) (angles : List ℝ) (h : ∀ a ∈ angles, test ⟨cos a, sin a, -√3⟩ = true) :
    quadricFind (sphereABC 2 1) (trimSelect nonzeroUT test) (fromCircle angles) = angles.map fun _ => ((1 + √3 : ℝ) : WithTop ℝ) := by
  have h3 : √3 ^ 2 = 3 := Real.sq_sqrt (by norm_num)
  have h0 : 0 < √3 := by positivity
  have h1 : 1 < √3 := by nlinarith
  have hneg : ¬ (0 < 1 - √3) := by linarith
  have hpos : 0 < 1 + √3 := by linarith
  rw [quadricFind_of (f := trimPick test)]
  · simp only [fromCircle, List.map_map]
    apply List.map_congr_left
    intro a ha
    simp only [Function.comp, circle_cand, chosenParam, trimPick, pick, h a ha, hneg, hpos, decide_false, decide_true, Bool.and_false,
      Bool.and_true, Bool.false_eq_true, if_false, if_true, Cand.choose]
  · rintro cands rfl
    apply trimSelectUT_eq
    have hc : ((fromCircle angles).map fun r => candidate (sphereABC 2 1 r.vertex r.dir) r.vertex r.dir).filterMap id =
        angles.map fun a => ⟨1 - √3, 1 + √3, ⟨cos a, sin a, √3⟩, ⟨cos a, sin a, -√3⟩⟩ := by
      simp only [fromCircle, List.map_map, Function.comp_def, circle_cand, List.filterMap_map, id]
      simp
    rw [hc, List.pairwise_map]
    refine List.pairwise_of_forall fun a b => ?_
    simp [Swapped, hneg]

/-- tests/test_hemisphere_gm.py: test_find_intersections -/
example (angles : List ℝ) : ∃ g : Geometry ℝ Unit, hemisphereGM 2 = .ok g ∧
    g.find 1 (fromCircle angles) = angles.map fun _ => ((1 + 2 * sin (π / 3) : ℝ) : WithTop ℝ) := by
  rw [two_sin]
  refine ⟨_, by simp only [hemisphereGM, setRadius]; norm_num; rfl, circle_find _ _ fun a _ => ?_⟩
  simp only [hemisphereTest, one_inv_point, decide_eq_true_eq, Left.neg_nonpos_iff]
  positivity

/-- The bounding sphere of tests/test_cut_sphere.py as the geometry manager uses it. -/
noncomputable def bottomBound (frame : Tf ℝ) (p : V3 ℝ) : Bool :=
  (((BoundarySphere.mk' ⟨0, 0, -4 * √3 / 2⟩ 4).transformFrame frame).inBounds [p]).all id

/-- tests/test_cut_sphere.py: test_find_intersections -/
example (angles : List ℝ) : ∃ g : Geometry ℝ Unit, cutSphereGM 2 (some bottomBound) = .ok g ∧
    g.find 1 (fromCircle angles) = angles.map fun _ => ((1 + 2 * sin (π / 3) : ℝ) : WithTop ℝ) := by
  rw [two_sin]
  refine ⟨_, by simp only [cutSphereGM, setRadius]; norm_num; rfl, circle_find _ _ fun a _ => ?_⟩
  have h3 : √3 ^ 2 = 3 := Real.sq_sqrt (by norm_num)
  have := sin_sq_add_cos_sq a
  simp [bottomBound, BoundarySphere.mk', BoundarySphere.transformFrame, BoundarySphere.inBounds, TempLoc.head, Tf.point, M3.mulVec]
  nlinarith

/-- tests/test_hemisphere_gm.py and test_cut_sphere.py: test_get_normals and test_inters_points_global -/
example (a : ℝ) : (⟨⟨cos a, sin a, 1⟩, ⟨0, 0, -1⟩, 1, 0, none, ()⟩ : Ray ℝ Unit).at (1 + 2 * sin (π / 3)) = ⟨cos a, sin a, -(2 * sin (π / 3))⟩ ∧
    sphereNormal 1 ⟨cos a, sin a, -(2 * sin (π / 3))⟩ ⟨0, 0, -1⟩ = ⟨-(cos a) / 2, -(sin a) / 2, √3 / 2⟩ := by
  have h3 : √3 ^ 2 = 3 := Real.sq_sqrt (by norm_num)
  have h0 : 0 < √3 := by positivity
  have := sin_sq_add_cos_sq a
  rw [two_sin]
  refine ⟨by ext <;> simp [Ray.at], ?_⟩
  have hr : √((-cos a) ^ 2 + (-sin a) ^ 2 + √3 ^ 2) = 2 := by
    rw [h3, neg_sq, neg_sq, show cos a ^ 2 + sin a ^ 2 + 3 = 2 ^ 2 by linarith]
    exact Real.sqrt_sq (by norm_num)
  simp only [sphereNormal, Tf.one_loc, V3.sub_x, V3.sub_y, V3.sub_z, V3.zero_x, V3.zero_y, V3.zero_z]
  rw [if_pos (by norm_num)]
  have hv : (-1 : ℝ) • ((⟨cos a, sin a, -√3⟩ : V3 ℝ) - 0) = ⟨-cos a, -sin a, √3⟩ := by ext <;> simp
  rw [hv]
  simp only [hr]
  ext <;> simp <;> ring

/-- tests/test_paraboloid_gm.py: TestInterface.test_find_intersections -/
example (angles : List ℝ) : (paraboloidGM 5 5).find 1 (fromCircle angles) = angles.map fun _ => ((96 / 100 : ℝ) : WithTop ℝ) := by
  show quadricFind _ defaultSelect _ = _
  rw [quadricFind_map _ defaultSelect_eq]
  simp only [fromCircle, List.map_map]
  apply List.map_congr_left
  intro a _
  have := sin_sq_add_cos_sq a
  have hC : 1 / (5 : ℝ) ^ 2 * cos a ^ 2 + 1 / 5 ^ 2 * sin a ^ 2 - 1 = -(24 / 25) := by linear_combination 1 / 25 * this
  simp only [Function.comp, paraboloidABC, one_inv_point, one_localDir, candidate, hC]
  norm_num [planarTol, chosenParam, defaultPick, pick, Cand.choose]

/-- tests/test_paraboloid_gm.py: TestInterface.test_get_normals (up to the length of the normal) and test_inters_points_global -/
example (a : ℝ) : (⟨⟨cos a, sin a, 1⟩, ⟨0, 0, -1⟩, 1, 0, none, ()⟩ : Ray ℝ Unit).at (96 / 100) = ⟨cos a, sin a, 4 / 100⟩ ∧
    ∃ k : ℝ, 0 < k ∧ (paraboloidGM (E := Unit) 5 5).normal 1 ⟨cos a, sin a, 4 / 100⟩ ⟨0, 0, -1⟩ = ⟨-(k * cos a), -(k * sin a), 25 / 2 * k⟩ := by
  have := sin_sq_add_cos_sq a
  refine ⟨by ext <;> norm_num [Ray.at], 2 / 25 / √(629 / 625), by positivity, ?_⟩
  have hr : (-(2 * cos a * (1 / 5 ^ 2))) ^ 2 + (-(2 * sin a * (1 / 5 ^ 2))) ^ 2 + 1 ^ 2 = (629 / 625 : ℝ) := by
    linear_combination 4 / 625 * this
  simp only [paraboloidGM, paraboloidNormal, one_inv_point, one_localDir, hr]
  have hp : 0 < √(629 / 625 : ℝ) := by positivity
  generalize √(629 / 625 : ℝ) = s at hp
  rw [if_neg (by simp; positivity)]
  ext <;> simp [M3.mulVec] <;> ring

/-- A ray straight down onto a dish: the solution is doubled. -/
theorem cand_down (a x y z : ℝ) : candidate (paraboloidABC a a 1 ⟨x, y, z⟩ ⟨0, 0, -1⟩) ⟨x, y, z⟩ ⟨0, 0, -1⟩ =
    some ⟨z - a * (x ^ 2 + y ^ 2), z - a * (x ^ 2 + y ^ 2), ⟨x, y, a * (x ^ 2 + y ^ 2)⟩, ⟨x, y, a * (x ^ 2 + y ^ 2)⟩⟩ := by
  have h : paraboloidABC a a 1 ⟨x, y, z⟩ ⟨0, 0, -1⟩ = (0, 1, a * (x ^ 2 + y ^ 2) - z) := by
    simp only [paraboloidABC, one_inv_point, one_localDir]
    ext <;> simp <;> ring
  have ht : (0 : ℝ) ≤ planarTol := planarTol_pos.le
  rw [h]
  simp only [candidate, ht, if_true]
  norm_num
  ext <;> simp <;> ring

/-- The dish of diameter 2 and focal length 1: its coefficient. -/
theorem unit_dish : (1 : ℝ) / (2 * √1) ^ 2 = 1 / 4 := by norm_num

/-- tests/test_parab_dish.py: TestParabolicDish.test_selection_at_origin -/
example : (((parabolicDishGM 2 1).find 1 ([0, 1 / 2, 2, -2].map fun x : ℝ => (⟨⟨x, 0, 2⟩, ⟨0, 0, -1⟩, 1, 0, none, ()⟩ : Ray ℝ Unit))).map
    fun t => decide (t = ⊤)) = [false, false, true, true] := by
  have h : (parabolicDishGM 2 1 : Geometry ℝ Unit).find 1 ([0, 1 / 2, 2, -2].map fun x : ℝ => (⟨⟨x, 0, 2⟩, ⟨0, 0, -1⟩, 1, 0, none, ()⟩ : Ray ℝ Unit)) =
      [((2 : ℝ) : WithTop ℝ), ((31 / 16 : ℝ) : WithTop ℝ), ⊤, ⊤] := by
    show quadricFind _ (trimSelect nonzeroT _) _ = _
    rw [quadricFind_map _ (trimSelect_eq _)]
    simp only [List.map_cons, List.map_nil, unit_dish, cand_down]
    norm_num [chosenParam, trimPick, pick, Cand.choose, dishTest, one_inv_point]
  rw [h]
  simp

/-- tests/test_parab_dish.py: TestHexDish -/
example : (((hexagonalDishGM 2 1).find 1 ([(0, 3 / 2), (0, -(3 / 2)), (1, 0), (-1, 0), (1 / 10, 1 / 10), (-(1 / 10), 6 / 10)].map fun p : ℝ × ℝ =>
      (⟨⟨p.1, p.2, 1⟩, ⟨0, 0, -1⟩, 1, 0, none, ()⟩ : Ray ℝ Unit))).map fun t => decide (t = ⊤)) =
    [true, true, true, true, false, false] := by
  have h3 : √3 ^ 2 = 3 := Real.sq_sqrt (by norm_num)
  have h0 : 0 < √3 := by positivity
  have hlt : √3 / 2 < 1 := by nlinarith
  have hgt : 1 < √3 := by nlinarith
  have ht : tan (π / 6) = √3 / 3 := by
    rw [tan_eq_sin_div_cos, sin_pi_div_six, cos_pi_div_six]; field_simp; exact h3.symm
  have hex : ∀ x y : ℝ, hexagonTest 1 1 ⟨x, y, 1 / 4 * (x ^ 2 + y ^ 2)⟩ = (decide (|x| ≤ √3 / 2) && decide (|y| ≤ 1 - √3 / 3 * |x|)) := by
    intro x y
    simp only [hexagonTest, one_inv_point, ht, mul_one]
    by_cases h1 : √3 / 2 < |x| <;> by_cases h2 : 1 - √3 / 3 * |x| < |y| <;> simp [h1, h2, not_le, not_lt.mp]
    all_goals (try simp only [not_lt] at h1 h2)
    all_goals simp [h1, h2]
  have h : (hexagonalDishGM 2 1 : Geometry ℝ Unit).find 1 ([(0, 3 / 2), (0, -(3 / 2)), (1, 0), (-1, 0), (1 / 10, 1 / 10), (-(1 / 10), 6 / 10)].map
      fun p : ℝ × ℝ => (⟨⟨p.1, p.2, 1⟩, ⟨0, 0, -1⟩, 1, 0, none, ()⟩ : Ray ℝ Unit)) =
      [⊤, ⊤, ⊤, ⊤, ((1 - 1 / 4 * ((1 / 10) ^ 2 + (1 / 10) ^ 2) : ℝ) : WithTop ℝ),
        ((1 - 1 / 4 * ((-(1 / 10)) ^ 2 + (6 / 10) ^ 2) : ℝ) : WithTop ℝ)] := by
    show quadricFind _ (trimSelect nonzeroT _) _ = _
    rw [quadricFind_map _ (trimSelect_eq _)]
    simp only [List.map_cons, List.map_nil, unit_dish, cand_down, chosenParam, trimPick]
    rw [show (2 : ℝ) / 2 = 1 by norm_num]
    simp only [hex]
    rw [decide_eq_false (p := |(3 / 2 : ℝ)| ≤ _) (by rw [abs_of_pos (by norm_num)]; norm_num),
      decide_eq_false (p := |(-(3 / 2) : ℝ)| ≤ _) (by rw [abs_of_neg (by norm_num)]; norm_num),
      decide_eq_false (p := |(1 : ℝ)| ≤ _) (by rw [abs_of_pos (by norm_num)]; linarith),
      decide_eq_false (p := |(-1 : ℝ)| ≤ _) (by rw [abs_of_neg (by norm_num)]; linarith),
      decide_eq_true (p := |(1 / 10 : ℝ)| ≤ √3 / 2) (by rw [abs_of_pos (by norm_num)]; linarith),
      decide_eq_true (p := |(1 / 10 : ℝ)| ≤ 1 - √3 / 3 * _) (by rw [abs_of_pos (by norm_num)]; linarith),
      decide_eq_true (p := |(-(1 / 10) : ℝ)| ≤ √3 / 2) (by rw [abs_of_neg (by norm_num)]; linarith),
      decide_eq_true (p := |(6 / 10 : ℝ)| ≤ _) (by rw [abs_of_pos (by norm_num), abs_of_neg (by norm_num)]; linarith)]
    norm_num [pick, Cand.choose]
  rw [h]
  simp only [List.map_cons, List.map_nil, WithTop.coe_ne_top, decide_true, decide_false]

/-- tests/test_paraboloid_gm.py: TestParabolicDishGM.test_circular_aperture, the directions not divided by their lengths -/
example : (parabolicDishGM 10 12).find 1 [(⟨⟨0, 0, 1⟩, ⟨0, 0, -1⟩, 1, 0, none, ()⟩ : Ray ℝ Unit), ⟨⟨0, -1, 1⟩, ⟨0, 1, -1⟩, 1, 0, none, ()⟩,
      ⟨⟨0, -11, 2⟩, ⟨0, 11, -2⟩, 1, 0, none, ()⟩, ⟨⟨0, 1, 1⟩, ⟨0, 1, 0⟩, 1, 0, none, ()⟩] =
    [((1 : ℝ) : WithTop ℝ), ((1 : ℝ) : WithTop ℝ), ((1 : ℝ) : WithTop ℝ), ⊤] := by
  have ha : (1 : ℝ) / (2 * √12) ^ 2 = 1 / 48 := by rw [mul_pow, Real.sq_sqrt (by norm_num)]; norm_num
  have hh : (10 / 2 / (2 * √12)) ^ 2 = (25 / 48 : ℝ) := by rw [div_pow, mul_pow, Real.sq_sqrt (by norm_num)]; norm_num
  have h48 : √48 ^ 2 = 48 := Real.sq_sqrt (by norm_num)
  have h48' : (√48 / 24) ^ 2 = 1 / 12 := by rw [div_pow, h48]; norm_num
  have hlt : √48 < 7 := by nlinarith [Real.sqrt_nonneg 48]
  have hgt : 6 < √48 := by nlinarith [Real.sqrt_nonneg 48]
  show quadricFind _ (trimSelect nonzeroT _) _ = _
  rw [quadricFind_map _ (trimSelect_eq _)]
  simp only [List.map_cons, List.map_nil, ha, hh, cand_down]
  simp only [paraboloidABC, one_inv_point, one_localDir]
  rw [param_second (e := 1) (t := 1) _ _ _ (tol_lt (by norm_num)) (by norm_num) (by norm_num) (by norm_num) (by norm_num) (by norm_num)
      (by norm_num [dishTest, one_inv_point]),
    param_second (e := 2) (t := 1) _ _ _ (tol_lt (by norm_num)) (by norm_num) (by norm_num)
      (by norm_num [dishTest, one_inv_point]) (by norm_num) (by norm_num) (by norm_num [dishTest, one_inv_point]),
    param_none (e := √48 / 24) _ _ _ (tol_lt (by norm_num)) (by rw [h48']; norm_num) (by positivity)
      (.inl (div_nonpos_of_nonpos_of_nonneg (by linarith) (by norm_num)))
      (.inr (by simp only [dishTest, one_inv_point]; norm_num))]
  norm_num [chosenParam, trimPick, pick, Cand.choose, dishTest, one_inv_point]

/-! ### tests/models/test_spherical_lens.py: test_focal_length -/

/-- Biconvex and Biconcave -/
example : (∃ o : SceneObj Unit ℝ Unit, sphericalLens 1 (1 / 10) (some 10) (some (-10)) (3 / 2) 1 = .ok (o, 2 / (2 / 10 - 5 / 100 / 150))) ∧
    ∃ o : SceneObj Unit ℝ Unit, sphericalLens 1 (1 / 10) (some (-10)) (some 10) (3 / 2) 1 = .ok (o, 2 / (-(2 / 10) - 5 / 100 / 150)) := by
  constructor
  · obtain ⟨o, f, _, _, _, _, h, ⟨hf, _⟩, _⟩ := lens_built (E := Unit) (σ := Unit) Tf.Rigid.one (diameter := 1) (depth := 1 / 10) (R1 := 10) (R2 := -10)
      (n := 3 / 2) (by norm_num) (by norm_num) (by norm_num) (by norm_num) (by norm_num) (by norm_num) (by norm_num)
    refine ⟨o, ?_⟩
    rw [h, hf]
    norm_num
  · obtain ⟨o, f, _, _, _, _, h, ⟨hf, _⟩, _⟩ := lens_built (E := Unit) (σ := Unit) Tf.Rigid.one (diameter := 1) (depth := 1 / 10) (R1 := -10) (R2 := 10)
      (n := 3 / 2) (by norm_num) (by norm_num) (by norm_num) (by norm_num) (by norm_num) (by norm_num) (by norm_num)
    refine ⟨o, ?_⟩
    rw [h, hf]
    norm_num

/-- PlanoConvex -/
example : ∃ o : SceneObj Unit ℝ Unit, sphericalLens 1 (5 / 100) (some 10) none (3 / 2) 1 = .ok (o, 20) := by
  obtain ⟨g1, _, hg1⟩ := lensFace_ok (E := Unit) (σ := Unit) (n := 3 / 2) (diameter := 1) (R := 10) (by norm_num) (by norm_num)
  have c1 : curvedRadius (some 10) = some 10 := if_neg (by norm_num)
  have c2 : curvedRadius none = none := rfl
  obtain ⟨g2, hg2⟩ : ∃ g : Geometry ℝ Unit, roundPlateGM (1 / 2 : ℝ) = .ok g := by
    simp only [roundPlateGM]
    norm_num
  have hf : (1 : ℝ) / lensPower (5 / 100) (3 / 2) 10 none = 20 := by norm_num [lensPower]
  have hn : ¬ ((3 / 2 : ℝ) = 0 ∨ lensPower (5 / 100) (3 / 2) 10 none = 0) := by norm_num [lensPower]
  unfold sphericalLens lensFront lensBack
  simp only [c1, c2, hg1, hg2, Option.map_none, hf, hn, if_false]
  exact ⟨_, rfl⟩

/-! ### tests/models/test_tower.py: TestRadialStagger -/

/-- The distances of the heliostats from the tower. -/
example : (radialStagger (-π / 4) (π / 4 + 1 / 10000) (π / 2) 5 10 1).map (fun p => √(p.1 ^ 2 + p.2 ^ 2)) = [5, 5, 7, 7, 9, 9, 6, 8] := by
  have hp : 3 < π := pi_gt_three
  have hrs : mgridAxis 5 10 1 = [5, 6, 7, 8, 9] := by
    have : ⌈((10 : ℝ) - 5) / 1⌉₊ = 5 := by norm_num
    simp only [mgridAxis, this, List.range_succ, List.range_zero, List.map_append, List.map_nil, List.map_cons, List.nil_append, List.cons_append]
    norm_num
  have has : ∃ a b c, mgridAxis (-π / 4) (π / 4 + 1 / 10000) (π / 2 / 2) = [a, b, c] := by
    have : ⌈(π / 4 + 1 / 10000 - -π / 4) / (π / 2 / 2)⌉₊ = 3 := by
      rw [Nat.ceil_eq_iff (by norm_num)]
      constructor
      · rw [lt_div_iff₀ (by positivity)]; push_cast; linarith
      · rw [div_le_iff₀ (by positivity)]; push_cast; linarith
    simp only [mgridAxis, this, List.range_succ, List.range_zero, List.map_append, List.map_nil, List.map_cons, List.nil_append, List.cons_append]
    exact ⟨_, _, _, rfl⟩
  obtain ⟨a, b, c, has⟩ := has
  have hd : ∀ r a : ℝ, 0 ≤ r → √((r * cos a) ^ 2 + (r * sin a) ^ 2) = r := by
    intro r a hr
    rw [show (r * cos a) ^ 2 + (r * sin a) ^ 2 = r ^ 2 by linear_combination r ^ 2 * sin_sq_add_cos_sq a]
    exact Real.sqrt_sq hr
  simp only [radialStagger, hrs, has, evens, odds, List.flatMap_cons, List.flatMap_nil, List.map_cons, List.map_nil, List.append_nil, List.nil_append,
    List.cons_append]
  rw [hd 5 a, hd 5 c, hd 7 a, hd 7 c, hd 9 a, hd 9 c, hd 6 b, hd 8 b] <;> norm_num

end Tracer.Replay
