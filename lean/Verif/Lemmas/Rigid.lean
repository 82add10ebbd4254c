import Verif.Spec.Rigid
import Verif.Lemmas.Vec
import Mathlib.Tactic.FieldSimp

/-! Consequences of being a rotation. -/

namespace Tracer

variable {K : Type _} [Field K]

theorem M3.isRotation_iff (m : M3 K) : m.IsRotation ↔
    (V3.dot m.c1 m.c1 = 1 ∧ V3.dot m.c2 m.c2 = 1 ∧ V3.dot m.c3 m.c3 = 1 ∧
     V3.dot m.c1 m.c2 = 0 ∧ V3.dot m.c1 m.c3 = 0 ∧ V3.dot m.c2 m.c3 = 0) ∧ m.det = 1 := by
  unfold M3.IsRotation
  constructor
  · rintro ⟨h, hd⟩
    refine ⟨?_, hd⟩
    have h1 := congrArg M3.c1 h
    have h2 := congrArg M3.c2 h
    have h3 := congrArg M3.c3 h
    simp only [M3.mul_c1, M3.mul_c2, M3.mul_c3, M3.one_c1, M3.one_c2, M3.one_c3, V3.ext_iff,
      M3.mulVec_x, M3.mulVec_y, M3.mulVec_z, M3.transpose] at h1 h2 h3
    unfold V3.dot
    exact ⟨h1.1, h2.2.1, h3.2.2, h2.1, h3.1, h3.2.1⟩
  · rintro ⟨⟨a, b, c, d, e, f⟩, hd⟩
    refine ⟨?_, hd⟩
    unfold V3.dot at a b c d e f
    apply M3.ext
    all_goals
      simp only [M3.mul_c1, M3.mul_c2, M3.mul_c3, M3.one_c1, M3.one_c2, M3.one_c3, V3.ext_iff,
        M3.mulVec_x, M3.mulVec_y, M3.mulVec_z, M3.transpose]
      refine ⟨?_, ?_, ?_⟩ <;> first | assumption | (linear_combination d) | (linear_combination e) | (linear_combination f)

namespace M3.IsRotation

variable {m n : M3 K}

theorem det_ne (h : m.IsRotation) : m.det ≠ 0 := by rw [h.2]; exact one_ne_zero

theorem dot (h : m.IsRotation) (u v : V3 K) : V3.dot (m.mulVec u) (m.mulVec v) = V3.dot u v := by
  obtain ⟨⟨a, b, c, d, e, f⟩, _⟩ := (M3.isRotation_iff m).1 h
  unfold V3.dot at *
  simp only [M3.mulVec_x, M3.mulVec_y, M3.mulVec_z]
  linear_combination u.x * v.x * a + u.y * v.y * b + u.z * v.z * c +
    (u.x * v.y + u.y * v.x) * d + (u.x * v.z + u.z * v.x) * e + (u.y * v.z + u.z * v.y) * f

theorem inv_eq (h : m.IsRotation) : m.inv = m.transpose := by
  have h1 : m.inv = m.transpose * (m * m.inv) := by
    rw [← M3.mul_assoc', h.1, M3.one_mul']
  rw [h1, M3.mul_inv h.det_ne, M3.mul_one']

theorem mul_transpose (h : m.IsRotation) : m * m.transpose = 1 := by
  rw [← h.inv_eq, M3.mul_inv h.det_ne]

theorem one : (1 : M3 K).IsRotation := by
  rw [M3.isRotation_iff]
  simp [V3.dot, M3.det, V3.cross]

theorem mul (hm : m.IsRotation) (hn : n.IsRotation) : (m * n).IsRotation := by
  rw [M3.isRotation_iff]
  refine ⟨⟨?_, ?_, ?_, ?_, ?_, ?_⟩, ?_⟩
  · rw [M3.mul_c1, hm.dot]; exact ((M3.isRotation_iff n).1 hn).1.1
  · rw [M3.mul_c2, hm.dot]; exact ((M3.isRotation_iff n).1 hn).1.2.1
  · rw [M3.mul_c3, hm.dot]; exact ((M3.isRotation_iff n).1 hn).1.2.2.1
  · rw [M3.mul_c1, M3.mul_c2, hm.dot]; exact ((M3.isRotation_iff n).1 hn).1.2.2.2.1
  · rw [M3.mul_c1, M3.mul_c3, hm.dot]; exact ((M3.isRotation_iff n).1 hn).1.2.2.2.2.1
  · rw [M3.mul_c2, M3.mul_c3, hm.dot]; exact ((M3.isRotation_iff n).1 hn).1.2.2.2.2.2
  · rw [M3.det_mul, hm.2, hn.2, one_mul]

theorem det_transpose (m : M3 K) : m.transpose.det = m.det := by
  unfold M3.det M3.transpose V3.dot V3.cross
  ring

theorem transpose (h : m.IsRotation) : m.transpose.IsRotation := by
  refine ⟨?_, ?_⟩
  · have : m.transpose.transpose = m := rfl
    rw [this, h.mul_transpose]
  · rw [det_transpose, h.2]

theorem inv (h : m.IsRotation) : m.inv.IsRotation := by rw [h.inv_eq]; exact h.transpose

/-- A rotation commutes with the cross product. -/
theorem cross (h : m.IsRotation) (u v : V3 K) : m.mulVec (V3.cross u v) = V3.cross (m.mulVec u) (m.mulVec v) := by
  -- det m * transpose⁻¹ = cofactor matrix
  have hc : ∀ u v w : V3 K, V3.dot (m.mulVec w) (V3.cross (m.mulVec u) (m.mulVec v)) =
      m.det * V3.dot w (V3.cross u v) := by
    intro u v w
    unfold V3.dot V3.cross M3.det V3.dot V3.cross
    simp only [M3.mulVec_x, M3.mulVec_y, M3.mulVec_z]
    ring
  have key : ∀ w : V3 K, V3.dot w (V3.cross (m.mulVec u) (m.mulVec v)) = V3.dot w (m.mulVec (V3.cross u v)) := by
    intro w
    have hw : w = m.mulVec (m.inv.mulVec w) := (M3.mulVec_inv_mulVec h.det_ne w).symm
    rw [hw, hc, h.2, one_mul, h.dot]
  have kx := key ⟨1, 0, 0⟩
  have ky := key ⟨0, 1, 0⟩
  have kz := key ⟨0, 0, 1⟩
  simp only [V3.dot, one_mul, zero_mul, add_zero, zero_add] at kx ky kz
  exact V3.ext kx.symm ky.symm kz.symm

theorem unit (h : m.IsRotation) {v : V3 K} (hv : v.IsUnit) : (m.mulVec v).IsUnit := by
  unfold V3.IsUnit at *
  rw [h.dot, hv]

theorem unit_inv (h : m.IsRotation) {v : V3 K} (hv : v.IsUnit) : (m.inv.mulVec v).IsUnit := h.inv.unit hv

end M3.IsRotation

namespace Tf.Rigid

variable {s t : Tf K}

theorem one : (1 : Tf K).Rigid := M3.IsRotation.one

theorem mul (hs : s.Rigid) (ht : t.Rigid) : (s * t).Rigid := M3.IsRotation.mul hs ht

theorem inv (h : t.Rigid) : t.inv.Rigid := M3.IsRotation.inv h

theorem point_sub (t : Tf K) (p q : V3 K) : t.point p - t.point q = t.rot.mulVec (p - q) := by
  unfold Tf.point
  apply V3.ext <;> simp <;> ring

theorem dist (h : t.Rigid) (p q : V3 K) : V3.dist2 (t.point p) (t.point q) = V3.dist2 p q := by
  unfold V3.dist2
  rw [point_sub, M3.IsRotation.dot h]

end Tf.Rigid

end Tracer
