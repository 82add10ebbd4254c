import Mathlib.Algebra.Order.Field.Basic
import Mathlib.Tactic.Ring
import Mathlib.Tactic.LinearCombination

/-!
Three-component vectors, 3x3 matrices and homogeneous transforms.

NumPy arrays of shape (3,), (3,3) and (4,4) are modelled with explicit
components; a 3-by-n array is a list of vectors.
-/

namespace Tracer

variable {K : Type _}

/-- A 3-component array (e.g. has_frame.py:26, 45). -/
@[ext] structure V3 (K : Type _) where
  x : K
  y : K
  z : K
  deriving DecidableEq, Repr

namespace V3
variable [Field K]

/-- `N.zeros(3)` (has_frame.py:26) -/
instance : Zero (V3 K) := ⟨⟨0, 0, 0⟩⟩
/-- `a + b` (e.g. flat_surface.py:76) -/
instance : Add (V3 K) := ⟨fun a b => ⟨a.x + b.x, a.y + b.y, a.z + b.z⟩⟩
/-- `a - b` (e.g. optics.py:51) -/
instance : Sub (V3 K) := ⟨fun a b => ⟨a.x - b.x, a.y - b.y, a.z - b.z⟩⟩
/-- `-a` (e.g. flat_surface.py:84) -/
instance : Neg (V3 K) := ⟨fun a => ⟨-a.x, -a.y, -a.z⟩⟩
/-- scalar times vector (e.g. flat_surface.py:76) -/
instance : HSMul K (V3 K) (V3 K) := ⟨fun c a => ⟨c * a.x, c * a.y, c * a.z⟩⟩

/-- `N.sum(a*b)` / `N.dot(a, b)` (e.g. flat_surface.py:38, 45, optics.py:50) -/
def dot (a b : V3 K) : K := a.x * b.x + a.y * b.y + a.z * b.z

/-- `N.cross(a, b)` (spatial_geometry.py:46, models/triangulated_surface.py:35, 40) -/
def cross (a b : V3 K) : V3 K :=
  ⟨a.y * b.z - a.z * b.y, a.z * b.x - a.x * b.z, a.x * b.y - a.y * b.x⟩

@[simp] theorem zero_x : (0 : V3 K).x = 0 := rfl
@[simp] theorem zero_y : (0 : V3 K).y = 0 := rfl
@[simp] theorem zero_z : (0 : V3 K).z = 0 := rfl
@[simp] theorem add_x (a b : V3 K) : (a + b).x = a.x + b.x := rfl
@[simp] theorem add_y (a b : V3 K) : (a + b).y = a.y + b.y := rfl
@[simp] theorem add_z (a b : V3 K) : (a + b).z = a.z + b.z := rfl
@[simp] theorem sub_x (a b : V3 K) : (a - b).x = a.x - b.x := rfl
@[simp] theorem sub_y (a b : V3 K) : (a - b).y = a.y - b.y := rfl
@[simp] theorem sub_z (a b : V3 K) : (a - b).z = a.z - b.z := rfl
@[simp] theorem neg_x (a : V3 K) : (-a).x = -a.x := rfl
@[simp] theorem neg_y (a : V3 K) : (-a).y = -a.y := rfl
@[simp] theorem neg_z (a : V3 K) : (-a).z = -a.z := rfl
@[simp] theorem smul_x (c : K) (a : V3 K) : (c • a).x = c * a.x := rfl
@[simp] theorem smul_y (c : K) (a : V3 K) : (c • a).y = c * a.y := rfl
@[simp] theorem smul_z (c : K) (a : V3 K) : (c • a).z = c * a.z := rfl

end V3

/-- A 3x3 array, by its columns ("the columns are the basis of the local
coordinates", has_frame.py:15). -/
@[ext] structure M3 (K : Type _) where
  c1 : V3 K
  c2 : V3 K
  c3 : V3 K
  deriving DecidableEq, Repr

namespace M3
variable [Field K]

/-- `N.eye(3)` (has_frame.py:28) -/
instance : One (M3 K) := ⟨⟨⟨1, 0, 0⟩, ⟨0, 1, 0⟩, ⟨0, 0, 1⟩⟩⟩

/-- `N.dot(m, v)` (e.g. cylinder.py:58) -/
def mulVec (m : M3 K) (v : V3 K) : V3 K :=
  ⟨m.c1.x * v.x + m.c2.x * v.y + m.c3.x * v.z,
   m.c1.y * v.x + m.c2.y * v.y + m.c3.y * v.z,
   m.c1.z * v.x + m.c2.z * v.y + m.c3.z * v.z⟩

/-- `N.dot(a, b)` (the rotation part of has_frame.py:74) -/
instance : Mul (M3 K) := ⟨fun a b => ⟨a.mulVec b.c1, a.mulVec b.c2, a.mulVec b.c3⟩⟩

/-- `m.T` (e.g. cylinder.py:34) -/
def transpose (m : M3 K) : M3 K :=
  ⟨⟨m.c1.x, m.c2.x, m.c3.x⟩, ⟨m.c1.y, m.c2.y, m.c3.y⟩, ⟨m.c1.z, m.c2.z, m.c3.z⟩⟩

/-- determinant (of the inverse, e.g. surface.py:106) -/
def det (m : M3 K) : K := V3.dot m.c1 (V3.cross m.c2 m.c3)

/-- 3x3 block of `N.linalg.inv`, by the adjugate formula.  Simplification: for a
singular matrix NumPy raises `LinAlgError`; theorems assume `det ≠ 0` (the rotation part of e.g. surface.py:106). -/
def inv (m : M3 K) : M3 K :=
  let d := m.det⁻¹
  let r1 := V3.cross m.c2 m.c3
  let r2 := V3.cross m.c3 m.c1
  let r3 := V3.cross m.c1 m.c2
  ⟨⟨d * r1.x, d * r2.x, d * r3.x⟩, ⟨d * r1.y, d * r2.y, d * r3.y⟩,
   ⟨d * r1.z, d * r2.z, d * r3.z⟩⟩

@[simp] theorem one_c1 : (1 : M3 K).c1 = ⟨1, 0, 0⟩ := rfl
@[simp] theorem one_c2 : (1 : M3 K).c2 = ⟨0, 1, 0⟩ := rfl
@[simp] theorem one_c3 : (1 : M3 K).c3 = ⟨0, 0, 1⟩ := rfl
@[simp] theorem mul_c1 (a b : M3 K) : (a * b).c1 = a.mulVec b.c1 := rfl
@[simp] theorem mul_c2 (a b : M3 K) : (a * b).c2 = a.mulVec b.c2 := rfl
@[simp] theorem mul_c3 (a b : M3 K) : (a * b).c3 = a.mulVec b.c3 := rfl

end M3

/-- A homogeneous 4x4 transform `[[rot, loc], [0 0 0 1]]` (has_frame.py:23-34,
spatial_geometry.py:50-98).  Simplification: the last row is fixed, as in every
transform the package builds. -/
@[ext] structure Tf (K : Type _) where
  rot : M3 K
  loc : V3 K
  deriving DecidableEq, Repr

namespace Tf
variable [Field K]

/-- `N.eye(4)` (assembly.py:76, 90, 123) -/
instance : One (Tf K) := ⟨⟨1, 0⟩⟩

/-- `N.dot(a, b)` of two homogeneous transforms (has_frame.py:74, assembly.py:133, object.py:65). -/
instance : Mul (Tf K) := ⟨fun a b => ⟨a.rot * b.rot, a.rot.mulVec b.loc + a.loc⟩⟩

/-- `N.dot(t, [p, 1])[:3]`: image of a point (e.g. surface.py:106-107). -/
def point (t : Tf K) (p : V3 K) : V3 K := t.rot.mulVec p + t.loc

/-- `N.dot(t[:3,:3], d)`: image of a direction (e.g. cylinder.py:58). -/
def dir (t : Tf K) (d : V3 K) : V3 K := t.rot.mulVec d

/-- `N.linalg.inv(t)` (e.g. surface.py:106, flat_surface.py:147) -/
def inv (t : Tf K) : Tf K := ⟨t.rot.inv, -(t.rot.inv.mulVec t.loc)⟩

@[simp] theorem one_rot : (1 : Tf K).rot = 1 := rfl
@[simp] theorem one_loc : (1 : Tf K).loc = 0 := rfl
@[simp] theorem mul_rot (a b : Tf K) : (a * b).rot = a.rot * b.rot := rfl
@[simp] theorem mul_loc (a b : Tf K) : (a * b).loc = a.rot.mulVec b.loc + a.loc := rfl

end Tf
end Tracer
