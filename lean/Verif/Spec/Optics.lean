import Verif.Model.Ray
import Verif.Spec.Rigid
import Mathlib.Analysis.Real.Sqrt
import Mathlib.Analysis.SpecialFunctions.Trigonometric.Inverse

/-! The laws of geometrical optics, for a direction `d` arriving at a point with normal `m` and a
direction `e` leaving it. -/

namespace Tracer

open Real

/-- Law of reflection: the component along the normal is reversed, the rest is kept. -/
structure Mirrored {K : Type _} [Field K] (d m e : V3 K) : Prop where
  normal : V3.dot e m = -V3.dot d m
  tangent : V3.cross e m = V3.cross d m

/-- Angle between a unit direction and the line of a unit normal. -/
noncomputable def incidence (d m : V3 ℝ) : ℝ := arccos |V3.dot d m|

/-- Snell's law in vector form: `e` is a unit direction in the plane of incidence, its sine of the angle
with the normal is `n1/n2` times that of `d`, on the same side of the normal, and `e` goes on through the
surface. -/
structure Snell (n1 n2 : ℝ) (d m e : V3 ℝ) : Prop where
  unit : e.IsUnit
  law : n1 • V3.cross d m = n2 • V3.cross e m
  through : 0 ≤ V3.dot d m * V3.dot e m

/-- A ray is totally reflected if Snell's law has no solution. -/
def TotallyReflected (n1 n2 : ℝ) (d m : V3 ℝ) : Prop := ¬ ∃ e, Snell n1 n2 d m e

end Tracer
