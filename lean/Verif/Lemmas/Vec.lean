import Verif.Model.Vec
import Mathlib.Tactic.LinearCombination
import Mathlib.Tactic.FieldSimp
import Mathlib.Tactic.Linarith

/-! Algebra of vectors, matrices and transforms. -/

namespace Tracer

variable {K : Type _} [Field K]

namespace M3

@[simp] theorem mulVec_x (m : M3 K) (v : V3 K) :
    (m.mulVec v).x = m.c1.x * v.x + m.c2.x * v.y + m.c3.x * v.z := rfl
@[simp] theorem mulVec_y (m : M3 K) (v : V3 K) :
    (m.mulVec v).y = m.c1.y * v.x + m.c2.y * v.y + m.c3.y * v.z := rfl
@[simp] theorem mulVec_z (m : M3 K) (v : V3 K) :
    (m.mulVec v).z = m.c1.z * v.x + m.c2.z * v.y + m.c3.z * v.z := rfl

theorem mul_mulVec (a b : M3 K) (v : V3 K) : (a * b).mulVec v = a.mulVec (b.mulVec v) := by
  ext <;> simp <;> ring

theorem mul_assoc' (a b c : M3 K) : a * b * c = a * (b * c) := by
  ext <;> simp <;> ring

theorem one_mulVec (v : V3 K) : (1 : M3 K).mulVec v = v := by
  ext <;> simp

theorem one_mul' (a : M3 K) : 1 * a = a := by
  ext <;> simp

theorem mul_one' (a : M3 K) : a * 1 = a := by
  ext <;> simp

theorem mulVec_add (m : M3 K) (v w : V3 K) : m.mulVec (v + w) = m.mulVec v + m.mulVec w := by
  ext <;> simp <;> ring

theorem mulVec_sub (m : M3 K) (v w : V3 K) : m.mulVec (v - w) = m.mulVec v - m.mulVec w := by
  ext <;> simp <;> ring

theorem mulVec_neg (m : M3 K) (v : V3 K) : m.mulVec (-v) = -m.mulVec v := by
  ext <;> simp <;> ring

theorem mulVec_smul (m : M3 K) (c : K) (v : V3 K) : m.mulVec (c • v) = c • m.mulVec v := by
  ext <;> simp <;> ring

theorem mulVec_zero (m : M3 K) : m.mulVec 0 = 0 := by
  ext <;> simp

theorem inv_mul {m : M3 K} (h : m.det ≠ 0) : m.inv * m = 1 := by
  have hd : m.det⁻¹ * m.det = 1 := inv_mul_cancel₀ h
  simp only [det, V3.dot, V3.cross] at hd
  ext <;> simp only [mul_c1, mul_c2, mul_c3, mulVec_x, mulVec_y, mulVec_z, inv, V3.cross, det, V3.dot,
    one_c1, one_c2, one_c3] <;> first | linear_combination hd | ring

theorem mul_inv {m : M3 K} (h : m.det ≠ 0) : m * m.inv = 1 := by
  have hd : m.det⁻¹ * m.det = 1 := inv_mul_cancel₀ h
  simp only [det, V3.dot, V3.cross] at hd
  ext <;> simp only [mul_c1, mul_c2, mul_c3, mulVec_x, mulVec_y, mulVec_z, inv, V3.cross, det, V3.dot,
    one_c1, one_c2, one_c3] <;> first | linear_combination hd | ring

theorem inv_mulVec_mulVec {m : M3 K} (h : m.det ≠ 0) (v : V3 K) : m.inv.mulVec (m.mulVec v) = v := by
  rw [← mul_mulVec, inv_mul h, one_mulVec]

theorem mulVec_inv_mulVec {m : M3 K} (h : m.det ≠ 0) (v : V3 K) : m.mulVec (m.inv.mulVec v) = v := by
  rw [← mul_mulVec, mul_inv h, one_mulVec]

theorem det_mul (a b : M3 K) : (a * b).det = a.det * b.det := by
  simp only [det, V3.dot, V3.cross, mul_c1, mul_c2, mul_c3, mulVec_x, mulVec_y, mulVec_z]; ring

theorem det_one : (1 : M3 K).det = 1 := by
  simp [det, V3.dot, V3.cross]

end M3

namespace Tf

theorem mul_assoc' (a b c : Tf K) : a * b * c = a * (b * c) := by
  ext <;> simp [M3.mul_assoc'] <;> ring

theorem one_mul' (a : Tf K) : 1 * a = a := by
  ext <;> simp

theorem mul_one' (a : Tf K) : a * 1 = a := by
  ext <;> simp

theorem mul_point (a b : Tf K) (p : V3 K) : (a * b).point p = a.point (b.point p) := by
  ext <;> simp [point] <;> ring

theorem mul_dir (a b : Tf K) (d : V3 K) : (a * b).dir d = a.dir (b.dir d) := M3.mul_mulVec _ _ _

theorem one_point (p : V3 K) : (1 : Tf K).point p = p := by
  ext <;> simp [point]

theorem one_dir (p : V3 K) : (1 : Tf K).dir p = p := M3.one_mulVec _

theorem inv_mul {t : Tf K} (h : t.rot.det ≠ 0) : t.inv * t = 1 := by
  have h1 : (t.inv * t).rot = 1 := M3.inv_mul h
  have h2 : (t.inv * t).loc = 0 := by
    show t.rot.inv.mulVec t.loc + -t.rot.inv.mulVec t.loc = 0
    ext <;> simp
  exact Tf.ext h1 h2

theorem mul_inv {t : Tf K} (h : t.rot.det ≠ 0) : t * t.inv = 1 := by
  have h1 : (t * t.inv).rot = 1 := M3.mul_inv h
  have h2 : (t * t.inv).loc = 0 := by
    show t.rot.mulVec (-t.rot.inv.mulVec t.loc) + t.loc = 0
    rw [M3.mulVec_neg, M3.mulVec_inv_mulVec h]
    ext <;> simp
  exact Tf.ext h1 h2

theorem inv_point_point {t : Tf K} (h : t.rot.det ≠ 0) (p : V3 K) : t.inv.point (t.point p) = p := by
  rw [← mul_point, inv_mul h, one_point]

theorem point_inv_point {t : Tf K} (h : t.rot.det ≠ 0) (p : V3 K) : t.point (t.inv.point p) = p := by
  rw [← mul_point, mul_inv h, one_point]

theorem point_add_smul (t : Tf K) (p d : V3 K) (c : K) : t.point (p + c • d) = t.point p + c • t.dir d := by
  ext <;> simp [point, dir] <;> ring

end Tf
end Tracer
