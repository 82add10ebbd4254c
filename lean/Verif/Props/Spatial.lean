import Verif.Model.Spatial
import Verif.Model.Surface
import Verif.Lemmas.Rigid
import Mathlib.Tactic.Linarith
import Mathlib.Tactic.NormNum

/-! # Rotation helpers and frames of surfaces (C26, C27, C29) -/

namespace Tracer

open Real

/-! ### C26 -/

/-- C26: the matrix is a proper rotation. -/
theorem C26_rotation {a : V3 ℝ} (ha : a.IsUnit) (θ : ℝ) : (generalAxisRotation a θ).IsRotation := by
  unfold V3.IsUnit V3.dot at ha
  have hsc := sin_sq_add_cos_sq θ
  generalize hs : sin θ = s at hsc
  generalize hc : cos θ = c at hsc
  rw [M3.isRotation_iff]
  unfold generalAxisRotation V3.dot M3.det V3.dot V3.cross
  simp only [hs, hc]
  have hx : a.x * a.x = 1 - a.y * a.y - a.z * a.z := by linarith
  have hss : s ^ 2 = 1 - c ^ 2 := by linarith
  refine ⟨⟨?_, ?_, ?_, ?_, ?_, ?_⟩, ?_⟩
  · linear_combination (a.x^2*(1-c)^2 + s^2) * ha + (1 - a.x^2) * hsc
  · linear_combination (a.y^2*(1-c)^2 + s^2) * ha + (1 - a.y^2) * hsc
  · linear_combination (a.z^2*(1-c)^2 + s^2) * ha + (1 - a.z^2) * hsc
  · linear_combination (a.x*a.y*(1-c)^2) * ha - a.x*a.y * hsc
  · linear_combination (a.x*a.z*(1-c)^2) * ha - a.x*a.z * hsc
  · linear_combination (a.y*a.z*(1-c)^2) * ha - a.y*a.z * hsc
  · have hz : a.x ^ 2 = 1 - a.y ^ 2 - a.z ^ 2 := by linarith
    have h4 : a.x ^ 4 = (1 - a.y ^ 2 - a.z ^ 2) ^ 2 := by rw [← hz]; ring
    have h3 : s ^ 3 = s * (1 - c ^ 2) := by rw [← hss]; ring
    ring_nf
    simp only [hz, h4, hss]
    ring_nf

/-- C26, what the matrix does: the part along the axis is kept, the part across is turned
counterclockwise by the angle, as seen against the axis. -/
theorem C26_turns {a : V3 ℝ} (ha : a.IsUnit) (θ : ℝ) :
    (generalAxisRotation a θ).mulVec a = a ∧
    ∀ u, V3.dot u a = 0 → (generalAxisRotation a θ).mulVec u = cos θ • u + sin θ • V3.cross a u := by
  unfold V3.IsUnit V3.dot at ha
  constructor
  · unfold generalAxisRotation
    apply V3.ext <;> simp only [M3.mulVec_x, M3.mulVec_y, M3.mulVec_z]
    · linear_combination a.x * (1 - cos θ) * ha
    · linear_combination a.y * (1 - cos θ) * ha
    · linear_combination a.z * (1 - cos θ) * ha
  · intro u hu
    unfold V3.dot at hu
    unfold generalAxisRotation V3.cross
    apply V3.ext <;> simp only [M3.mulVec_x, M3.mulVec_y, M3.mulVec_z, V3.add_x, V3.add_y, V3.add_z, V3.smul_x,
      V3.smul_y, V3.smul_z]
    · linear_combination a.x * (1 - cos θ) * hu
    · linear_combination a.y * (1 - cos θ) * hu
    · linear_combination a.z * (1 - cos θ) * hu

/-- Every vector is a multiple of a unit axis plus a vector across it. -/
theorem decompose {a : V3 ℝ} (ha : a.IsUnit) (u : V3 ℝ) :
    ∃ (k : ℝ) (p : V3 ℝ), V3.dot p a = 0 ∧ u = k • a + p := by
  unfold V3.IsUnit at ha
  refine ⟨V3.dot u a, u - V3.dot u a • a, ?_, ?_⟩
  · unfold V3.dot at *
    simp only [V3.sub_x, V3.sub_y, V3.sub_z, V3.smul_x, V3.smul_y, V3.smul_z]
    linear_combination -(u.x * a.x + u.y * a.y + u.z * a.z) * ha
  · apply V3.ext <;> simp

theorem M3.ext_mulVec {m n : M3 ℝ} (h : ∀ v, m.mulVec v = n.mulVec v) : m = n := by
  have h1 := h ⟨1, 0, 0⟩
  have h2 := h ⟨0, 1, 0⟩
  have h3 := h ⟨0, 0, 1⟩
  simp only [V3.ext_iff, M3.mulVec_x, M3.mulVec_y, M3.mulVec_z, mul_one, mul_zero, add_zero, zero_add] at h1 h2 h3
  exact M3.ext (V3.ext h1.1 h1.2.1 h1.2.2) (V3.ext h2.1 h2.2.1 h2.2.2) (V3.ext h3.1 h3.2.1 h3.2.2)

/-- C26: rotations about the same axis add up; angle zero is the identity. -/
theorem C26_additive {a : V3 ℝ} (ha : a.IsUnit) (θ φ : ℝ) :
    generalAxisRotation a θ * generalAxisRotation a φ = generalAxisRotation a (θ + φ) ∧
    generalAxisRotation a 0 = 1 := by
  constructor
  · apply M3.ext_mulVec
    intro u
    obtain ⟨k, p, hp, rfl⟩ := decompose ha u
    rw [M3.mul_mulVec]
    simp only [M3.mulVec_add, M3.mulVec_smul, (C26_turns ha _).1, (C26_turns ha _).2 p hp]
    have hcr : V3.dot (V3.cross a p) a = 0 := by unfold V3.dot V3.cross; ring
    have hcc : V3.cross a (V3.cross a p) = -p := by
      unfold V3.IsUnit V3.dot at ha
      unfold V3.dot at hp
      unfold V3.cross
      apply V3.ext <;> simp only [V3.neg_x, V3.neg_y, V3.neg_z]
      · linear_combination a.x * hp - p.x * ha
      · linear_combination a.y * hp - p.y * ha
      · linear_combination a.z * hp - p.z * ha
    rw [(C26_turns ha _).2 _ hcr, hcc, cos_add, sin_add]
    apply V3.ext <;> simp <;> ring
  · unfold generalAxisRotation
    rw [cos_zero, sin_zero]
    apply M3.ext <;> apply V3.ext <;> simp

/-- C26: about the coordinate axes these are `rotx`, `roty`, `rotz`. -/
theorem C26_coordinate_axes (θ : ℝ) :
    generalAxisRotation ⟨1, 0, 0⟩ θ = (rotx θ).rot ∧ generalAxisRotation ⟨0, 1, 0⟩ θ = (roty θ).rot ∧
    generalAxisRotation ⟨0, 0, 1⟩ θ = (rotz θ).rot := by
  unfold generalAxisRotation rotx roty rotz
  refine ⟨?_, ?_, ?_⟩ <;> apply M3.ext <;> apply V3.ext <;> simp

/-- C26: the homogeneous helpers are rigid, the rotations keep the origin, `translate` adds its
arguments. -/
theorem C26_rigid (θ x y z : ℝ) :
    (rotx θ).Rigid ∧ (roty θ).Rigid ∧ (rotz θ).Rigid ∧ (translate x y z).Rigid ∧
    (rotx θ).point 0 = 0 ∧ (roty θ).point 0 = 0 ∧ (rotz θ).point 0 = 0 ∧
    ∀ p, (translate x y z).point p = ⟨p.x + x, p.y + y, p.z + z⟩ := by
  have hx := C26_coordinate_axes θ
  have u1 : V3.IsUnit (⟨1, 0, 0⟩ : V3 ℝ) := by simp [V3.IsUnit, V3.dot]
  have u2 : V3.IsUnit (⟨0, 1, 0⟩ : V3 ℝ) := by simp [V3.IsUnit, V3.dot]
  have u3 : V3.IsUnit (⟨0, 0, 1⟩ : V3 ℝ) := by simp [V3.IsUnit, V3.dot]
  refine ⟨?_, ?_, ?_, M3.IsRotation.one, ?_, ?_, ?_, ?_⟩
  · unfold Tf.Rigid; rw [← hx.1]; exact C26_rotation u1 θ
  · unfold Tf.Rigid; rw [← hx.2.1]; exact C26_rotation u2 θ
  · unfold Tf.Rigid; rw [← hx.2.2]; exact C26_rotation u3 θ
  · unfold rotx Tf.point; apply V3.ext <;> simp
  · unfold roty Tf.point; apply V3.ext <;> simp
  · unfold rotz Tf.point; apply V3.ext <;> simp
  · intro p; unfold translate Tf.point; apply V3.ext <;> simp

/-- C26: `generate_transform` turns about the axis and then translates. -/
theorem C26_generate {a : V3 ℝ} (ha : a.IsUnit) (θ : ℝ) (d : V3 ℝ) :
    (generateTransform a θ d).Rigid ∧
    ∀ p, (generateTransform a θ d).point p = (generalAxisRotation a θ).mulVec p + d :=
  ⟨C26_rotation ha θ, fun _ => rfl⟩

example : (generalAxisRotation ⟨3/5, 0, 4/5⟩ (π / 2)).IsRotation ∧
    (generalAxisRotation ⟨3/5, 0, 4/5⟩ (π / 2)).mulVec ⟨0, 1, 0⟩ = ⟨-4/5, 0, 3/5⟩ := by
  have hu : V3.IsUnit (⟨3/5, 0, 4/5⟩ : V3 ℝ) := by unfold V3.IsUnit V3.dot; norm_num
  refine ⟨C26_rotation hu _, ?_⟩
  rw [(C26_turns hu _).2 _ (by simp [V3.dot]), cos_pi_div_two, sin_pi_div_two]
  unfold V3.cross
  apply V3.ext <;> simp <;> ring

/-! ### C27 -/

theorem perpXY_ne (v : V3 ℝ) : (perpXY v).x ^ 2 + (perpXY v).y ^ 2 + (perpXY v).z ^ 2 > 0 := by
  unfold perpXY
  split
  · norm_num
  · rename_i h
    simp only
    rw [not_and_or] at h
    rcases h with h | h
    · have := sq_pos_of_ne_zero h
      have := sq_nonneg (-v.x)
      simp; nlinarith
    · have h' : -v.x ≠ 0 := h
      have := pow_pos (abs_pos.2 h') 2
      have h2 := sq_nonneg v.y
      rw [sq_abs] at this
      nlinarith

/-- C27: `rotation_to_z(v)` is a proper rotation with third column `v` and first column in the XY
plane; it does nothing to the Z axis. -/
theorem C27_rotation_to_z {v : V3 ℝ} (hv : v.IsUnit) :
    (rotationToZ v).IsRotation ∧ (rotationToZ v).c3 = v ∧ (rotationToZ v).c1.z = 0 := by
  have hp : V3.dot (perpXY v) v = 0 := by
    unfold perpXY V3.dot
    split
    · rename_i h; simp; linarith [h.2]
    · simp only; ring
  have hpz : (perpXY v).z = 0 := by unfold perpXY; split <;> rfl
  have hpos := perpXY_ne v
  generalize hq : perpXY v = p at *
  have hn : √(p.x ^ 2 + p.y ^ 2 + p.z ^ 2) ^ 2 = p.x ^ 2 + p.y ^ 2 + p.z ^ 2 := sq_sqrt hpos.le
  have hn0 : √(p.x ^ 2 + p.y ^ 2 + p.z ^ 2) ≠ 0 := (sqrt_pos.2 hpos).ne'
  unfold rotationToZ
  simp only [hq]
  generalize √(p.x ^ 2 + p.y ^ 2 + p.z ^ 2) = n at *
  have he : (⟨p.x / n, p.y / n, p.z / n⟩ : V3 ℝ).IsUnit := by
    unfold V3.IsUnit V3.dot
    field_simp
    linarith
  have hd : V3.dot (⟨p.x / n, p.y / n, p.z / n⟩ : V3 ℝ) v = 0 := by
    unfold V3.dot at *
    field_simp
    linarith
  refine ⟨?_, by trivial, by simp [hpz]⟩
  generalize (⟨p.x / n, p.y / n, p.z / n⟩ : V3 ℝ) = e at *
  rw [M3.isRotation_iff]
  unfold V3.IsUnit V3.dot at *
  unfold V3.cross M3.det V3.cross V3.dot
  simp only
  refine ⟨⟨he, ?_, hv, ?_, hd, ?_⟩, ?_⟩
  · linear_combination (e.x*e.x + e.y*e.y + e.z*e.z) * hv + he - (e.x*v.x + e.y*v.y + e.z*v.z) * hd
  · ring
  · ring
  · linear_combination (e.x*e.x + e.y*e.y + e.z*e.z) * hv + he - (e.x*v.x + e.y*v.y + e.z*v.z) * hd

/-- C27: at the poles. -/
theorem C27_poles : rotationToZ ⟨0, 0, 1⟩ = 1 ∧
    rotationToZ ⟨0, 0, -1⟩ = ⟨⟨1, 0, 0⟩, ⟨0, -1, 0⟩, ⟨0, 0, -1⟩⟩ := by
  have hs : √((1 : ℝ) ^ 2 + 0 ^ 2 + 0 ^ 2) = 1 := by norm_num
  unfold rotationToZ perpXY V3.cross
  constructor <;> apply M3.ext <;> apply V3.ext <;> simp

/-- C27 for a list of directions: each gets its own frame, in order. -/
theorem C27_list (vs : List (V3 ℝ)) (hv : ∀ v ∈ vs, v.IsUnit) (i : Nat) (v : V3 ℝ) (hi : vs[i]? = some v) :
    ∃ m, (rotationToZAll vs)[i]? = some m ∧ m.IsRotation ∧ m.c3 = v ∧ m.c1.z = 0 := by
  refine ⟨rotationToZ v, ?_, C27_rotation_to_z (hv v (List.mem_of_getElem? hi))⟩
  unfold rotationToZAll
  rw [List.getElem?_map, hi]
  rfl

example : ∃ m, (rotationToZAll [⟨0, 0, 1⟩, ⟨3/5, 0, 4/5⟩])[1]? = some m ∧ m.IsRotation ∧
    m.c3 = ⟨3/5, 0, 4/5⟩ ∧ m.c1.z = 0 :=
  C27_list _ (by
    intro v hv
    simp only [List.mem_cons, List.not_mem_nil, or_false] at hv
    rcases hv with rfl | rfl <;> unfold V3.IsUnit V3.dot <;> norm_num) 1 _ rfl

/-! ### C29 -/

variable {K : Type _} [Field K] [LinearOrder K]

/-- C29: `global_to_local` undoes the frame, in both directions, for any number of points; the fourth
row is one.  A singular frame raises. -/
theorem C29_global_to_local (frame : Tf K) (pts : List (V3 K)) :
    (frame.rot.det ≠ 0 →
      globalToLocal frame (pts.map frame.point) = .ok (pts.map fun p => (p, 1)) ∧
      ∃ ls, globalToLocal frame pts = .ok ls ∧ ls.map (fun l => frame.point l.1) = pts) ∧
    (frame.rot.det = 0 → globalToLocal frame pts = .error .linalg) := by
  unfold globalToLocal
  constructor
  · intro h
    simp only [if_neg h]
    constructor
    · rw [List.map_map]
      congr 1
      apply List.map_congr_left
      intro p _
      simp only [Function.comp, Tf.inv_point_point h]
    · refine ⟨_, rfl, ?_⟩
      rw [List.map_map]
      conv_rhs => rw [← List.map_id pts]
      apply List.map_congr_left
      intro p _
      exact Tf.point_inv_point h p
  · intro h; rw [if_pos h]

/-- C29: every point of the global mesh is the frame image of the local mesh point of the same
place in the grid. -/
theorem C29_mesh (frame : Tf K) (mesh : List (List (V3 K))) (i j : Nat) (row : List (V3 K)) (p : V3 K)
    (hi : mesh[i]? = some row) (hj : row[j]? = some p) :
    ∃ row', (meshGlobal frame mesh)[i]? = some row' ∧ row'.length = row.length ∧
      row'[j]? = some (frame.point p) := by
  refine ⟨row.map frame.point, ?_, by simp, ?_⟩
  · unfold meshGlobal; rw [List.getElem?_map, hi]; rfl
  · rw [List.getElem?_map, hj]; rfl

example : globalToLocal (⟨⟨⟨0, 1, 0⟩, ⟨-1, 0, 0⟩, ⟨0, 0, 1⟩⟩, ⟨1, 2, 3⟩⟩ : Tf ℚ) [⟨1, 3, 3⟩] = .ok [(⟨1, 0, 0⟩, 1)] := by
  have := ((C29_global_to_local (⟨⟨⟨0, 1, 0⟩, ⟨-1, 0, 0⟩, ⟨0, 0, 1⟩⟩, ⟨1, 2, 3⟩⟩ : Tf ℚ) [⟨1, 0, 0⟩]).1
    (by decide +kernel)).1
  have hp : (⟨⟨⟨0, 1, 0⟩, ⟨-1, 0, 0⟩, ⟨0, 0, 1⟩⟩, ⟨1, 2, 3⟩⟩ : Tf ℚ).point ⟨1, 0, 0⟩ = ⟨1, 3, 3⟩ := by
    unfold Tf.point; apply V3.ext <;> simp <;> norm_num
  simpa [hp] using this

example : generalAxisRotation ⟨3/5, 0, 4/5⟩ 1 * generalAxisRotation ⟨3/5, 0, 4/5⟩ 2 = generalAxisRotation ⟨3/5, 0, 4/5⟩ (1 + 2) ∧
    (generateTransform ⟨3/5, 0, 4/5⟩ 1 ⟨7, 8, 9⟩).Rigid := by
  have hu : V3.IsUnit (⟨3/5, 0, 4/5⟩ : V3 ℝ) := by unfold V3.IsUnit V3.dot; norm_num
  exact ⟨(C26_additive hu 1 2).1, (C26_generate hu 1 _).1⟩

end Tracer
