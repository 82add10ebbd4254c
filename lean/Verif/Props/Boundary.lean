import Verif.Model.Boundary
import Verif.Spec.Boundary
import Verif.Lemmas.Rigid
import Mathlib.Algebra.Order.Field.Rat
import Mathlib.Tactic.NormNum
import Mathlib.Tactic.Linarith
import Mathlib.Tactic.Positivity

/-!
# Boundary shapes (C41, C42)
-/

set_option linter.unusedSectionVars false

namespace Tracer

variable {K : Type _} [Field K] [LinearOrder K] [IsStrictOrderedRing K]

theorem answers_map {α : Type _} {P : α → Prop} {f : α → Bool} (h : ∀ p, f p = true ↔ P p) (pts : List α) :
    Answers P pts (pts.map f) := by
  unfold Answers
  rw [List.forall₂_map_right_iff]
  exact List.forall₂_same.2 fun p _ => h p

theorem inFrame_iff {frame : Tf K} (h : frame.rot.det ≠ 0) {P : V3 K → Prop} {p : V3 K} :
    InFrame frame P p ↔ P (frame.inv.point p) := by
  constructor
  · rintro ⟨q, rfl, hq⟩
    rwa [Tf.inv_point_point h]
  · intro hp
    exact ⟨_, Tf.point_inv_point h p, hp⟩

/-- C41, spheres: membership in the ball around the centre, where the last transform of the containing
object puts it, or around the given location if there was none. -/
theorem C41_sphere (loc : V3 K) (radius : K) (ts : List (Tf K)) (t : Tf K) (pts : List (V3 K)) :
    Answers (InBall loc radius) pts ((BoundarySphere.mk' loc radius).inBounds pts) ∧
    Answers (InBall (t.point loc) radius) pts
      (BoundarySphere.transformFrame t (ts.foldl (fun s t => s.transformFrame t) (BoundarySphere.mk' loc radius))
        |>.inBounds pts) := by
  have key : ∀ s : BoundarySphere K, Answers (InBall s.temp.head s.radius) pts (s.inBounds pts) := by
    intro s
    apply answers_map
    intro p
    simp only [decide_eq_true_eq, InBall, V3.dist2, V3.dot, V3.sub_x, V3.sub_y, V3.sub_z]
    rw [sq, sq, sq]
  have hl : ∀ (ts : List (Tf K)) (s : BoundarySphere K),
      (ts.foldl (fun s t => s.transformFrame t) s).loc = s.loc ∧
      (ts.foldl (fun s t => s.transformFrame t) s).radius = s.radius := by
    intro ts
    induction ts with
    | nil => intro s; exact ⟨rfl, rfl⟩
    | cons t ts ih => intro s; exact ih _
  refine ⟨key (BoundarySphere.mk' loc radius), ?_⟩
  obtain ⟨h1, h2⟩ := hl ts (BoundarySphere.mk' loc radius)
  generalize ts.foldl (fun s t => s.transformFrame t) (BoundarySphere.mk' loc radius) = s at *
  have := key (BoundarySphere.transformFrame t s)
  have e1 : (BoundarySphere.transformFrame t s).temp.head = t.point loc := congrArg t.point h1
  have e2 : (BoundarySphere.transformFrame t s).radius = radius := h2
  rw [e1, e2] at this
  exact this

/-- C41, planes: the side of positive local Z, for every invertible frame, before and after moves of
the containing object. -/
theorem C41_plane (location : V3 K) (rotation : M3 K) (ts : List (Tf K)) (t : Tf K) (pts : List (V3 K))
    (hr : rotation.det ≠ 0) (ht : t.rot.det ≠ 0) :
    (∃ ans, (boundaryPlane location rotation).planeInBounds pts = .ok ans ∧
      Answers (InFrame ⟨rotation, location⟩ AboveXY) pts ans) ∧
    ∃ ans, (BoundaryFrame.transformFrame t (ts.foldl (fun s t => s.transformFrame t)
        (boundaryPlane location rotation))).planeInBounds pts = .ok ans ∧
      Answers (InFrame (t * ⟨rotation, location⟩) AboveXY) pts ans := by
  have key : ∀ f : BoundaryFrame K, f.temp.rot.det ≠ 0 → ∃ ans, f.planeInBounds pts = .ok ans ∧
      Answers (InFrame f.temp AboveXY) pts ans := by
    intro f hf
    refine ⟨_, by unfold BoundaryFrame.planeInBounds; rw [if_neg hf], ?_⟩
    apply answers_map
    intro p
    rw [inFrame_iff hf]
    simp [AboveXY]
  have hl : ∀ (ts : List (Tf K)) (s : BoundaryFrame K),
      (ts.foldl (fun s t => s.transformFrame t) s).own = s.own := by
    intro ts
    induction ts with
    | nil => intro s; rfl
    | cons t ts ih => intro s; exact ih _
  refine ⟨key (boundaryPlane location rotation) hr, ?_⟩
  have h1 := hl ts (boundaryPlane location rotation)
  generalize ts.foldl (fun s t => s.transformFrame t) (boundaryPlane location rotation) = s at *
  have e1 : (BoundaryFrame.transformFrame t s).temp = t * ⟨rotation, location⟩ := congrArg (t * ·) h1
  have := key (BoundaryFrame.transformFrame t s) (by
    rw [e1]
    show (t.rot * rotation).det ≠ 0
    rw [M3.det_mul]
    exact mul_ne_zero ht hr)
  rw [e1] at this
  exact this

/-- C41 is false of cylinders: the point at the centre of a cylinder at (1, 0, 0) is said to be
outside. -/
theorem C41_cylinder_counterexample :
    cylinderInBounds (boundaryCylinder (1 : ℚ) ⟨1, 0, 0⟩ 1) [⟨1, 0, 0⟩, ⟨0, 0, 0⟩, ⟨-1, 0, 0⟩] =
      .ok [false, false, true] ∧
    InFrame (⟨1, ⟨1, 0, 0⟩⟩ : Tf ℚ) (InZCylinder 1) ⟨1, 0, 0⟩ ∧
    ¬ InFrame (⟨1, ⟨1, 0, 0⟩⟩ : Tf ℚ) (InZCylinder 1) ⟨-1, 0, 0⟩ := by
  refine ⟨by decide +kernel, ⟨⟨0, 0, 0⟩, by decide +kernel, by norm_num [InZCylinder]⟩, ?_⟩
  rw [inFrame_iff (by decide +kernel)]
  have h : (⟨1, ⟨1, 0, 0⟩⟩ : Tf ℚ).inv.point ⟨-1, 0, 0⟩ = ⟨-2, 0, 0⟩ := by decide +kernel
  rw [h]
  norm_num [InZCylinder]

/-- C41 is false of cylinders: other than three points are refused, and a rotation given to the
constructor is dropped. -/
theorem C41_cylinder_fails (c : BoundaryFrame K × K) (pts : List (V3 K)) (h : pts.length ≠ 3)
    (d : K) (l : V3 K) (r : M3 K) :
    cylinderInBounds c pts = .error .value ∧ (boundaryCylinder d l r).1.own.rot = 1 := by
  exact ⟨by unfold cylinderInBounds; rw [if_neg h], rfl⟩

example : cylinderInBounds (boundaryCylinder 3 0 1) ([⟨0, 0, 0⟩, ⟨1, 1, 1⟩] : List (V3 ℚ)) = .error .value :=
  (C41_cylinder_fails _ _ (by decide) 3 0 1).1

/-- C41, cylinders, partial: three points are classified rightly if the frame keeps the Z axis where
it is.  Missing: every other frame, and other numbers of points. -/
theorem C41_cylinder_partial {c : BoundaryFrame K × K} {diameter : K} (hc : c.2 = diameter / 2)
    (hrig : c.1.temp.Rigid) (hz : c.1.temp.rot.c3 = ⟨0, 0, 1⟩) (hx : c.1.temp.loc.x = 0) (hy : c.1.temp.loc.y = 0)
    {pts : List (V3 K)} (hpts : pts.length = 3) :
    ∃ ans, cylinderInBounds c pts = .ok ans ∧ Answers (InFrame c.1.temp (InZCylinder diameter)) pts ans := by
  refine ⟨_, by unfold cylinderInBounds; rw [if_pos hpts], ?_⟩
  apply answers_map
  intro p
  have hdet : c.1.temp.rot.det ≠ 0 := M3.IsRotation.det_ne hrig
  rw [inFrame_iff hdet]
  simp only [decide_eq_true_eq, InZCylinder, hc]
  -- both points are as far from the axis as `p`
  have key : ∀ q, (c.1.temp.point q).x ^ 2 + (c.1.temp.point q).y ^ 2 = q.x ^ 2 + q.y ^ 2 := by
    intro q
    have hq := hrig
    unfold Tf.Rigid at hq
    rw [M3.isRotation_iff] at hq
    obtain ⟨⟨h1, h2, h3, h4, h5, h6⟩, _⟩ := hq
    unfold Tf.point M3.mulVec
    simp only [V3.add_x, V3.add_y, hx, hy, hz]
    unfold V3.IsUnit V3.dot at *
    simp only [hz] at h5 h6
    have e1 : c.1.temp.rot.c1.z = 0 := by simpa using h5
    have e2 : c.1.temp.rot.c2.z = 0 := by simpa using h6
    rw [e1] at h1 h4
    rw [e2] at h2 h4
    linear_combination q.x ^ 2 * h1 + q.y ^ 2 * h2 + 2 * q.x * q.y * h4
  have k2 := key (c.1.temp.inv.point p)
  rw [Tf.point_inv_point hdet] at k2
  rw [key, ← k2]

/-- The repository's own test, and a quarter turn about the Z axis with a shift along it. -/
example : cylinderInBounds (boundaryCylinder 3 0 1) ([⟨0, 0, 0⟩, ⟨1, 1, 1⟩, ⟨2, 2, 2⟩] : List (V3 ℚ)) =
    .ok [true, true, false] := by decide +kernel

example : ∃ ans, cylinderInBounds
    ((⟨1, ⟨⟨⟨0, 1, 0⟩, ⟨-1, 0, 0⟩, ⟨0, 0, 1⟩⟩, ⟨0, 0, 7⟩⟩⟩ : BoundaryFrame ℚ), (3/2 : ℚ))
      [⟨0, 0, 0⟩, ⟨1, 1, 1⟩, ⟨2, 2, 2⟩] = .ok ans ∧
    Answers (InFrame (⟨⟨⟨0, 1, 0⟩, ⟨-1, 0, 0⟩, ⟨0, 0, 1⟩⟩, ⟨0, 0, 7⟩⟩ : Tf ℚ) (InZCylinder 3))
      [⟨0, 0, 0⟩, ⟨1, 1, 1⟩, ⟨2, 2, 2⟩] ans :=
  C41_cylinder_partial (c := ((⟨1, ⟨⟨⟨0, 1, 0⟩, ⟨-1, 0, 0⟩, ⟨0, 0, 1⟩⟩, ⟨0, 0, 7⟩⟩⟩ : BoundaryFrame ℚ), (3/2 : ℚ)))
    (diameter := 3) (by norm_num) (by unfold Tf.Rigid M3.IsRotation; decide +kernel) rfl rfl rfl rfl

/-! ### Bounding rectangles -/

theorem dist2_section {t : Tf ℝ} (h : t.Rigid) (p : V3 ℝ) (x y : ℝ) :
    V3.dist2 (t.point ⟨x, y, 0⟩) p =
      (x - (t.inv.point p).x) ^ 2 + (y - (t.inv.point p).y) ^ 2 + (t.inv.point p).z ^ 2 := by
  have e : V3.dist2 (t.point ⟨x, y, 0⟩) (t.point (t.inv.point p)) = V3.dist2 ⟨x, y, 0⟩ (t.inv.point p) :=
    Tf.Rigid.dist h _ _
  rw [Tf.point_inv_point (M3.IsRotation.det_ne h)] at e
  rw [e]
  unfold V3.dist2 V3.dot
  simp only [V3.sub_x, V3.sub_y, V3.sub_z]
  ring

/-- C42: exactly when it holds.  For a sphere that has not been moved, the rectangle covers the section with the
plane, unless the section is not empty and the plane is nearer the centre than the code thinks, which takes the
difference of the global and the local height of the centre for the distance. -/
theorem C42_iff (loc : V3 ℝ) (radius : ℝ) {t : Tf ℝ} (ht : t.Rigid) :
    (∃ x y, InBall loc radius (t.point ⟨x, y, 0⟩)) →
    ((∃ r, (BoundarySphere.mk' loc radius).boundingRect t = .ok r ∧ CoversSection t (InBall loc radius) r) ↔
      (loc.z - (t.inv.point loc).z) ^ 2 ≤ (t.inv.point loc).z ^ 2) := by
  rintro ⟨x0, y0, h0⟩
  have hdet := M3.IsRotation.det_ne ht
  have hsec := dist2_section ht loc
  unfold InBall CoversSection
  unfold InBall at h0
  simp only [hsec] at *
  have hval : (BoundarySphere.mk' loc radius).boundingRect t =
      if radius ^ 2 - (loc.z - (t.inv.point loc).z) ^ 2 < 0 then .error .nonfinite
      else .ok ((t.inv.point loc).x - √(radius ^ 2 - (loc.z - (t.inv.point loc).z) ^ 2),
        (t.inv.point loc).x + √(radius ^ 2 - (loc.z - (t.inv.point loc).z) ^ 2),
        (t.inv.point loc).y - √(radius ^ 2 - (loc.z - (t.inv.point loc).z) ^ 2),
        (t.inv.point loc).y + √(radius ^ 2 - (loc.z - (t.inv.point loc).z) ^ 2)) := by
    unfold BoundarySphere.boundingRect
    rw [if_neg hdet]
    rfl
  rw [hval]
  generalize t.inv.point loc = c at *
  have hc : c.z ^ 2 ≤ radius ^ 2 := by nlinarith [sq_nonneg (x0 - c.x), sq_nonneg (y0 - c.y)]
  generalize hd : (loc.z - c.z) ^ 2 = d at *
  constructor
  · rintro ⟨r, hr, hcov⟩
    split at hr
    · simp at hr
    · rename_i hn
      push Not at hn
      simp only [Except.ok.injEq] at hr
      subst hr
      obtain ⟨_, h2, _⟩ := hcov (c.x + √(radius ^ 2 - c.z ^ 2)) c.y (by
        have := Real.sq_sqrt (show 0 ≤ radius ^ 2 - c.z ^ 2 by linarith)
        nlinarith)
      simp only at h2
      have h3 : √(radius ^ 2 - c.z ^ 2) ≤ √(radius ^ 2 - d) := by linarith
      have := (Real.sqrt_le_sqrt_iff hn).1 h3
      linarith
  · intro hle
    rw [if_neg (by linarith)]
    refine ⟨_, rfl, ?_⟩
    intro x y hxy
    have hs := Real.sq_sqrt (show 0 ≤ radius ^ 2 - d by linarith)
    have hs0 := Real.sqrt_nonneg (radius ^ 2 - d)
    generalize √(radius ^ 2 - d) = s at *
    have hx : (x - c.x) ^ 2 ≤ s ^ 2 := by nlinarith [sq_nonneg (y - c.y)]
    have hy : (y - c.y) ^ 2 ≤ s ^ 2 := by nlinarith [sq_nonneg (x - c.x)]
    have hx' := abs_le_of_sq_le_sq' hx hs0
    have hy' := abs_le_of_sq_le_sq' hy hs0
    refine ⟨by linarith [hx'.1], by linarith [hx'.2], by linarith [hy'.1], by linarith [hy'.2]⟩

/-- A ball with its middle at height three, and the parallel plane at height two: not covered. -/
example : ¬ ∃ r, (BoundarySphere.mk' ⟨0, 0, 3⟩ 2).boundingRect ⟨1, ⟨0, 0, 2⟩⟩ = .ok r ∧
      CoversSection ⟨1, ⟨0, 0, 2⟩⟩ (InBall ⟨0, 0, 3⟩ 2) r := by
  have hr : (⟨1, ⟨0, 0, 2⟩⟩ : Tf ℝ).Rigid := ⟨by apply M3.ext <;> apply V3.ext <;> simp [M3.mulVec, M3.transpose],
    by norm_num [M3.det, V3.dot, V3.cross]⟩
  have hp : (⟨1, ⟨0, 0, 2⟩⟩ : Tf ℝ).inv.point ⟨0, 0, 3⟩ = ⟨0, 0, 1⟩ := by
    have e : (⟨0, 0, 3⟩ : V3 ℝ) = (⟨1, ⟨0, 0, 2⟩⟩ : Tf ℝ).point ⟨0, 0, 1⟩ := by
      apply V3.ext <;> norm_num [Tf.point, M3.mulVec]
    rw [e, Tf.inv_point_point (M3.IsRotation.det_ne hr)]
  rw [C42_iff ⟨0, 0, 3⟩ 2 hr ⟨0, 0, by norm_num [InBall, V3.dist2, V3.dot, Tf.point, M3.mulVec]⟩, hp]
  norm_num

/-- C42, partial: it holds for spheres centred at height zero that have not been moved.  Missing: other heights,
and moved spheres, for which the call raises. -/
theorem C42_partial (loc : V3 ℝ) (radius : ℝ) {t : Tf ℝ} (ht : t.Rigid) (hz : loc.z = 0)
    (hsec : ∃ x y, InBall loc radius (t.point ⟨x, y, 0⟩)) :
    ∃ r, (BoundarySphere.mk' loc radius).boundingRect t = .ok r ∧ CoversSection t (InBall loc radius) r := by
  rw [C42_iff loc radius ht hsec, hz]
  nlinarith

/-- C42 is false: the sphere of radius 1 around (0, 0, 3/4) is cut by the plane z = 3/4 in the unit
disk, but the rectangle is nearly a third too small. -/
theorem C42_counterexample : ∃ (loc : V3 ℝ) (radius : ℝ) (t : Tf ℝ), t.Rigid ∧
    InBall loc radius (t.point ⟨1, 0, 0⟩) ∧
    (BoundarySphere.mk' loc radius).boundingRect t = .ok (-√(7/16), √(7/16), -√(7/16), √(7/16)) ∧
    √(7/16) < (1 : ℝ) := by
  have hrig : (⟨1, ⟨0, 0, 3/4⟩⟩ : Tf ℝ).Rigid := by
    constructor
    · apply M3.ext <;> apply V3.ext <;> simp [M3.mulVec, M3.transpose]
    · norm_num [M3.det, V3.dot, V3.cross]
  refine ⟨⟨0, 0, 3/4⟩, 1, ⟨1, ⟨0, 0, 3/4⟩⟩, hrig, ?_, ?_, ?_⟩
  · norm_num [InBall, V3.dist2, V3.dot, Tf.point, M3.mulVec]
  · have hinv : (⟨1, ⟨0, 0, 3/4⟩⟩ : Tf ℝ).inv.point ⟨0, 0, 3/4⟩ = 0 := by
      apply V3.ext <;> norm_num [Tf.inv, Tf.point, M3.inv, M3.mulVec, M3.det, V3.dot, V3.cross]
    unfold BoundarySphere.boundingRect
    rw [if_neg (M3.IsRotation.det_ne hrig)]
    simp only [BoundarySphere.mk', hinv, V3.zero_x, V3.zero_y, V3.zero_z]
    norm_num
  · rw [show (1 : ℝ) = √1 by simp]
    exact Real.sqrt_lt_sqrt (by norm_num) (by norm_num)

/-- C42 is false: after the containing object has moved, the call raises. -/
theorem C42_moved_fails (s : BoundarySphere ℝ) (m t : Tf ℝ) (ht : t.rot.det ≠ 0) :
    (s.transformFrame m).boundingRect t = .error .value := by
  unfold BoundarySphere.boundingRect
  rw [if_neg ht]
  rfl

example : ((BoundarySphere.mk' ⟨1, 0, 0⟩ 2).transformFrame ⟨1, ⟨0, 0, 5⟩⟩).boundingRect ⟨1, ⟨0, 0, 1⟩⟩ = .error .value :=
  C42_moved_fails _ _ _ (by norm_num [M3.det, V3.dot, V3.cross])

/-- The repository's own case: a unit-high parallel plane. -/
example : ∃ r, (BoundarySphere.mk' ⟨1, 0, 0⟩ 2).boundingRect ⟨1, ⟨0, 0, 1⟩⟩ = .ok r ∧
    CoversSection ⟨1, ⟨0, 0, 1⟩⟩ (InBall ⟨1, 0, 0⟩ 2) r := by
  refine C42_partial _ _ ?_ rfl ⟨1, 0, ?_⟩
  · constructor
    · apply M3.ext <;> apply V3.ext <;> simp [M3.mulVec, M3.transpose]
    · norm_num [M3.det, V3.dot, V3.cross]
  · norm_num [InBall, V3.dist2, V3.dot, Tf.point, M3.mulVec]

example : Answers (InFrame (⟨⟨⟨1, 0, 0⟩, ⟨0, 0, 1⟩, ⟨0, -1, 0⟩⟩, ⟨0, 1, 0⟩⟩ : Tf ℚ) AboveXY)
    [⟨0, 0, 0⟩, ⟨1, 1, 1⟩, ⟨2, 2, 2⟩] [true, true, false] := by
  obtain ⟨⟨ans, h1, h2⟩, _⟩ := C41_plane (⟨0, 1, 0⟩ : V3 ℚ) ⟨⟨1, 0, 0⟩, ⟨0, 0, 1⟩, ⟨0, -1, 0⟩⟩ [] 1
    [⟨0, 0, 0⟩, ⟨1, 1, 1⟩, ⟨2, 2, 2⟩] (by decide +kernel) (by decide +kernel)
  have h3 : (boundaryPlane (⟨0, 1, 0⟩ : V3 ℚ) ⟨⟨1, 0, 0⟩, ⟨0, 0, 1⟩, ⟨0, -1, 0⟩⟩).planeInBounds
    [⟨0, 0, 0⟩, ⟨1, 1, 1⟩, ⟨2, 2, 2⟩] = .ok [true, true, false] := by decide +kernel
  rw [h3] at h1
  cases h1
  exact h2

end Tracer
