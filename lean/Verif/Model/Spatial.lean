import Verif.Model.Vec
import Mathlib.Analysis.Real.Sqrt
import Mathlib.Analysis.SpecialFunctions.Trigonometric.Basic

/-! # Rotation helpers (spatial_geometry.py), over the reals -/

namespace Tracer

open Real

/-- `general_axis_rotation(axis, angle)` (spatial_geometry.py:8-22), by columns: entry `(i, j)` is
`axis[i]*axis[j]*v + eye[i,j]*c + add[i,j]*s`. -/
noncomputable def generalAxisRotation (a : V3 ℝ) (angle : ℝ) : M3 ℝ :=
  let s := sin angle
  let c := cos angle
  let v := 1 - c
  ⟨⟨a.x * a.x * v + 1 * c + 0 * s, a.y * a.x * v + 0 * c + a.z * s, a.z * a.x * v + 0 * c + -a.y * s⟩,
   ⟨a.x * a.y * v + 0 * c + -a.z * s, a.y * a.y * v + 1 * c + 0 * s, a.z * a.y * v + 0 * c + a.x * s⟩,
   ⟨a.x * a.z * v + 0 * c + a.y * s, a.y * a.z * v + 0 * c + -a.x * s, a.z * a.z * v + 1 * c + 0 * s⟩⟩

/-- The first two lines of `rotation_to_z` for one vector (spatial_geometry.py:41-43): a vector in
the XY plane perpendicular to `v`, (1, 0, 0) if that is zero. -/
noncomputable def perpXY (v : V3 ℝ) : V3 ℝ :=
  if v.y = 0 ∧ -v.x = 0 then ⟨1, 0, 0⟩ else ⟨v.y, -v.x, 0⟩

/-- `rotation_to_z` for one vector (spatial_geometry.py:24-48). -/
noncomputable def rotationToZ (v : V3 ℝ) : M3 ℝ :=
  let p := perpXY v
  let n := √(p.x ^ 2 + p.y ^ 2 + p.z ^ 2)
  let perp : V3 ℝ := ⟨p.x / n, p.y / n, p.z / n⟩
  ⟨perp, V3.cross v perp, v⟩

/-- `rotation_to_z` for a list of vectors: the code works on each row of `vecs` separately
(spatial_geometry.py:40-48). -/
noncomputable def rotationToZAll (vs : List (V3 ℝ)) : List (M3 ℝ) := vs.map rotationToZ

/-- `generate_transform(axis, angle, translation)` (spatial_geometry.py:50-59) -/
noncomputable def generateTransform (axis : V3 ℝ) (angle : ℝ) (translation : V3 ℝ) : Tf ℝ :=
  ⟨generalAxisRotation axis angle, translation⟩

/-- `rotx(ang)` (spatial_geometry.py:61-69) -/
noncomputable def rotx (ang : ℝ) : Tf ℝ :=
  ⟨⟨⟨1, 0, 0⟩, ⟨0, cos ang, sin ang⟩, ⟨0, -sin ang, cos ang⟩⟩, 0⟩

/-- `roty(ang)` (spatial_geometry.py:71-79) -/
noncomputable def roty (ang : ℝ) : Tf ℝ :=
  ⟨⟨⟨cos ang, 0, -sin ang⟩, ⟨0, 1, 0⟩, ⟨sin ang, 0, cos ang⟩⟩, 0⟩

/-- `rotz(ang)` (spatial_geometry.py:81-89) -/
noncomputable def rotz (ang : ℝ) : Tf ℝ :=
  ⟨⟨⟨cos ang, sin ang, 0⟩, ⟨-sin ang, cos ang, 0⟩, ⟨0, 0, 1⟩⟩, 0⟩

/-- `translate(x, y, z)` (spatial_geometry.py:91-98) -/
def translate {K : Type _} [Field K] (x y z : K) : Tf K := ⟨1, ⟨x, y, z⟩⟩

end Tracer
