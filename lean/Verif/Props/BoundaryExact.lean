import Verif.Props.Boundary

/-!
# Exactly when a bounding cylinder answers rightly (C41)
-/

set_option linter.unusedSectionVars false

namespace Tracer

/-- A rigid motion whose Z axis stays upright changes the distance from its own axis by nothing. -/
theorem upright_dist {K : Type _} [Field K] {s : Tf K} (h : s.Rigid) (hx : s.rot.c3.x = 0) (hy : s.rot.c3.y = 0)
    (q : V3 K) :
    ((s.point q).x - s.loc.x) ^ 2 + ((s.point q).y - s.loc.y) ^ 2 = q.x ^ 2 + q.y ^ 2 := by
  unfold Tf.Rigid at h
  rw [M3.isRotation_iff] at h
  obtain ⟨⟨h1, h2, h3, h4, h5, h6⟩, _⟩ := h
  unfold Tf.point M3.mulVec
  simp only [V3.add_x, V3.add_y, hx, hy]
  unfold V3.dot at *
  simp only [hx, hy] at h3 h5 h6
  have hz : s.rot.c3.z ≠ 0 := by
    intro h
    rw [h] at h3
    simp at h3
  have e1 : s.rot.c1.z = 0 := by simpa [hz] using h5
  have e2 : s.rot.c2.z = 0 := by simpa [hz] using h6
  rw [e1] at h1 h4
  rw [e2] at h2 h4
  linear_combination q.x ^ 2 * h1 + q.y ^ 2 * h2 + 2 * q.x * q.y * h4

theorem answers_triple {P : V3 ℝ → Prop} {f : V3 ℝ → Bool} :
    (∀ pts : List (V3 ℝ), pts.length = 3 → Answers P pts (pts.map f)) ↔ ∀ p, f p = true ↔ P p := by
  constructor
  · intro h p
    have := h [p, p, p] rfl
    unfold Answers at this
    rw [List.forall₂_map_right_iff] at this
    cases this with
    | cons h _ => exact h
  · intro h pts _
    exact answers_map h pts

/-- C41, cylinders: exactly when it holds.  Three points are always classified rightly if and only if the frame,
applied twice, brings the Z axis onto itself. -/
theorem C41_cylinder_iff {c : BoundaryFrame ℝ × ℝ} {diameter : ℝ} (hc : c.2 = diameter / 2)
    (hrig : c.1.temp.Rigid) :
    (∀ pts : List (V3 ℝ), pts.length = 3 →
      ∃ ans, cylinderInBounds c pts = .ok ans ∧ Answers (InFrame c.1.temp (InZCylinder diameter)) pts ans) ↔
    ∀ z, ∃ z', c.1.temp.point (c.1.temp.point ⟨0, 0, z⟩) = ⟨0, 0, z'⟩ := by
  obtain ⟨⟨own, t⟩, R⟩ := c
  simp only at hc hrig ⊢
  subst hc
  have hdet : t.rot.det ≠ 0 := M3.IsRotation.det_ne hrig
  have hS : (t * t).Rigid := Tf.Rigid.mul hrig hrig
  have hSd : (t * t).rot.det ≠ 0 := M3.IsRotation.det_ne hS
  have h1 : (∀ pts : List (V3 ℝ), pts.length = 3 →
      ∃ ans, cylinderInBounds (⟨own, t⟩, diameter / 2) pts = .ok ans ∧
        Answers (InFrame t (InZCylinder diameter)) pts ans) ↔
      ∀ p, decide ((t.point p).x ^ 2 + (t.point p).y ^ 2 ≤ (diameter / 2) ^ 2) = true ↔
        InFrame t (InZCylinder diameter) p := by
    rw [← answers_triple]
    refine forall_congr' fun pts => forall_congr' fun hp => ?_
    unfold cylinderInBounds
    rw [if_pos hp]
    constructor
    · rintro ⟨ans, h1, h2⟩
      cases h1
      exact h2
    · intro h
      exact ⟨_, rfl, h⟩
  have h2 : (∀ p, decide ((t.point p).x ^ 2 + (t.point p).y ^ 2 ≤ (diameter / 2) ^ 2) = true ↔
      InFrame t (InZCylinder diameter) p) ↔
      ∀ q, ((t * t).point q).x ^ 2 + ((t * t).point q).y ^ 2 ≤ (diameter / 2) ^ 2 ↔
        q.x ^ 2 + q.y ^ 2 ≤ (diameter / 2) ^ 2 := by
    constructor
    · intro h q
      have := h (t.point q)
      rw [inFrame_iff hdet, Tf.inv_point_point hdet, decide_eq_true_eq] at this
      rw [Tf.mul_point]
      exact this
    · intro h p
      have := h (t.inv.point p)
      rw [Tf.mul_point, Tf.point_inv_point hdet] at this
      rw [inFrame_iff hdet, decide_eq_true_eq]
      exact this
  rw [h1, h2]
  simp only [← Tf.mul_point]
  generalize t * t = s at hS hSd
  constructor
  · intro h
    have hax : ∀ z, (s.rot.c3.x * z + s.loc.x) ^ 2 + (s.rot.c3.y * z + s.loc.y) ^ 2 ≤ (diameter / 2) ^ 2 := by
      intro z
      have := (h ⟨0, 0, z⟩).2 (by simp only; nlinarith [sq_nonneg (diameter / 2)])
      unfold Tf.point M3.mulVec at this
      simp only [V3.add_x, V3.add_y] at this
      ring_nf at this ⊢
      exact this
    have big : ∀ a b : ℝ, (∀ z, (a * z + b) ^ 2 ≤ (diameter / 2) ^ 2) → a = 0 := by
      intro a b hz
      by_contra ha
      have := hz (((diameter / 2) ^ 2 + 1 - b) / a)
      rw [mul_div_cancel₀ _ ha] at this
      nlinarith [sq_nonneg (diameter / 2)]
    have hx : s.rot.c3.x = 0 := big _ s.loc.x fun z => by
      nlinarith [hax z, sq_nonneg (s.rot.c3.y * z + s.loc.y)]
    have hy : s.rot.c3.y = 0 := big _ s.loc.y fun z => by
      nlinarith [hax z, sq_nonneg (s.rot.c3.x * z + s.loc.x)]
    have hl : s.loc.x ^ 2 + s.loc.y ^ 2 = 0 := by
      by_contra hne
      have hpos : 0 < s.loc.x ^ 2 + s.loc.y ^ 2 := by positivity
      set n := √(s.loc.x ^ 2 + s.loc.y ^ 2) with hn
      have hn0 : 0 < n := Real.sqrt_pos.2 hpos
      have hn2 : n ^ 2 = s.loc.x ^ 2 + s.loc.y ^ 2 := Real.sq_sqrt hpos.le
      -- the point of the cylinder farthest in the direction of the shift
      set k := |diameter / 2| / n with hk
      have hkn : k ^ 2 * n ^ 2 = (diameter / 2) ^ 2 := by
        rw [hk, div_pow, sq_abs, div_mul_cancel₀ _ (pow_ne_zero 2 hn0.ne')]
      have hk0 : 0 ≤ k := by positivity
      have hd := upright_dist hS hx hy (s.inv.point ⟨(1 + k) * s.loc.x, (1 + k) * s.loc.y, 0⟩)
      have hh := h (s.inv.point ⟨(1 + k) * s.loc.x, (1 + k) * s.loc.y, 0⟩)
      rw [Tf.point_inv_point hSd] at hd hh
      rw [← hd] at hh
      simp only at hh
      have := hh.2 (by nlinarith)
      nlinarith
    have hlx : s.loc.x = 0 := by nlinarith [sq_nonneg s.loc.x, sq_nonneg s.loc.y]
    have hly : s.loc.y = 0 := by nlinarith [sq_nonneg s.loc.x, sq_nonneg s.loc.y]
    intro z
    refine ⟨_, V3.ext ?_ ?_ rfl⟩
    · unfold Tf.point M3.mulVec
      simp [hx, hlx]
    · unfold Tf.point M3.mulVec
      simp [hy, hly]
  · intro h q
    obtain ⟨z0, h0⟩ := h 0
    obtain ⟨z1, h1⟩ := h 1
    unfold Tf.point M3.mulVec at h0 h1
    have ax := congrArg V3.x h0
    have ay := congrArg V3.y h0
    have bx := congrArg V3.x h1
    have by' := congrArg V3.y h1
    simp only [V3.add_x, V3.add_y, mul_zero, mul_one, zero_add, add_zero] at ax ay bx by'
    rw [ax] at bx
    rw [ay] at by'
    have := upright_dist hS (by simpa using bx) (by simpa using by') q
    rw [ax, ay, sub_zero, sub_zero] at this
    rw [this]

/-- A half turn about a slanted line, here the line x = z, y = 0: not one that keeps the Z axis, and yet answered
rightly. -/
example : ∀ pts : List (V3 ℝ), pts.length = 3 →
    ∃ ans, cylinderInBounds ((⟨1, ⟨⟨⟨0, 0, 1⟩, ⟨0, -1, 0⟩, ⟨1, 0, 0⟩⟩, 0⟩⟩ : BoundaryFrame ℝ), (3/2 : ℝ)) pts = .ok ans ∧
      Answers (InFrame (⟨⟨⟨0, 0, 1⟩, ⟨0, -1, 0⟩, ⟨1, 0, 0⟩⟩, 0⟩ : Tf ℝ) (InZCylinder 3)) pts ans :=
  (C41_cylinder_iff (c := ((⟨1, ⟨⟨⟨0, 0, 1⟩, ⟨0, -1, 0⟩, ⟨1, 0, 0⟩⟩, 0⟩⟩ : BoundaryFrame ℝ), (3/2 : ℝ)))
    (diameter := 3) rfl (by
      unfold Tf.Rigid
      rw [M3.isRotation_iff]
      unfold M3.det V3.dot V3.cross
      norm_num)).2 fun z => ⟨z, by unfold Tf.point M3.mulVec; ext <;> simp⟩

/-- C41, cylinders, as the constructor makes them: three points are always classified rightly if and only if the
location is on the Z axis. -/
theorem C41_cylinder_location_iff (diameter : ℝ) (location : V3 ℝ) (rotation : M3 ℝ) :
    (∀ pts : List (V3 ℝ), pts.length = 3 →
      ∃ ans, cylinderInBounds (boundaryCylinder diameter location rotation) pts = .ok ans ∧
        Answers (InFrame ⟨1, location⟩ (InZCylinder diameter)) pts ans) ↔
    location.x = 0 ∧ location.y = 0 := by
  have hr : (⟨1, location⟩ : Tf ℝ).Rigid := by
    have : (1 : Tf ℝ).Rigid := Tf.Rigid.one
    exact this
  have hiff := C41_cylinder_iff (c := boundaryCylinder diameter location rotation) (diameter := diameter) rfl hr
  refine hiff.trans ?_
  have hp : ∀ p : V3 ℝ, (boundaryCylinder diameter location rotation).1.temp.point p = p + location := by
    intro p
    show (1 : M3 ℝ).mulVec p + location = _
    rw [M3.one_mulVec]
  simp only [hp]
  constructor
  · intro h
    obtain ⟨z, hz⟩ := h 0
    have ax := congrArg V3.x hz
    have ay := congrArg V3.y hz
    simp only [V3.add_x, V3.add_y] at ax ay
    exact ⟨by linarith, by linarith⟩
  · rintro ⟨hx, hy⟩ z
    exact ⟨_, V3.ext (by simp [hx]) (by simp [hy]) rfl⟩

/-- A cylinder beside the Z axis is answered wrongly for some three points, one up the axis never. -/
example : ¬ (∀ pts : List (V3 ℝ), pts.length = 3 →
    ∃ ans, cylinderInBounds (boundaryCylinder 3 ⟨1, 0, 0⟩ 1) pts = .ok ans ∧
      Answers (InFrame ⟨1, ⟨1, 0, 0⟩⟩ (InZCylinder (3 : ℝ))) pts ans) := by
  rw [C41_cylinder_location_iff]
  norm_num

end Tracer
