import Verif.Spec.Rigid
import Mathlib.Analysis.SpecialFunctions.Trigonometric.Inverse

/-!
What is asked of light sources: cones of directions, disks and squares of starting points.
-/

namespace Tracer

open Real

/-- The angle between two unit vectors. -/
noncomputable def deviation (u v : V3 ℝ) : ℝ := arccos (V3.dot u v)

/-- The point lies in the disk with the given centre and radius, perpendicular to the axis. -/
def OnDisk (center axis : V3 ℝ) (radius : ℝ) (p : V3 ℝ) : Prop :=
  V3.dot (p - center) axis = 0 ∧ V3.dot (p - center) (p - center) ≤ radius ^ 2

/-- The point lies in a square of the given side around the centre, perpendicular to the axis; `u` and
`v` are the directions of its sides. -/
def OnSquare (center axis u v : V3 ℝ) (side : ℝ) (p : V3 ℝ) : Prop :=
  V3.dot (p - center) axis = 0 ∧ |V3.dot (p - center) u| ≤ side / 2 ∧ |V3.dot (p - center) v| ≤ side / 2

/-- Three perpendicular unit vectors. -/
def Orthonormal3 (u v w : V3 ℝ) : Prop :=
  V3.dot u u = 1 ∧ V3.dot v v = 1 ∧ V3.dot w w = 1 ∧ V3.dot u v = 0 ∧ V3.dot u w = 0 ∧ V3.dot v w = 0

end Tracer
