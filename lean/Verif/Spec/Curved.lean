import Verif.Spec.Geometry
import Mathlib.Analysis.SpecialFunctions.Trigonometric.Basic
import Mathlib.Analysis.Calculus.Deriv.Basic

/-! Specification of curved surfaces over the reals. -/

namespace Tracer

open Real

/-- The regular hexagon with circumscribed radius `R` and two sides parallel to the Y axis, extruded along
Z: the points on the inner side of its six sides, which are at distance `R cos 30°` from the centre
and whose outward normals point in the directions 0°, 60°, … of the XY plane. -/
def hexagon (R : ℝ) (q : V3 ℝ) : Prop :=
  ∀ k : Fin 6, q.x * cos (k * (π / 3)) + q.y * sin (k * (π / 3)) ≤ R * cos (π / 6)

/-- Squared length of the component of `d` across the frame's Z axis. -/
noncomputable def offAxis (frame : Tf ℝ) (d : V3 ℝ) : ℝ :=
  V3.dot (V3.cross d frame.rot.c3) (V3.cross d frame.rot.c3)

/-- `u` is the velocity at `p` of some curve inside the surface `S`. -/
def Tangent (S : V3 ℝ → Prop) (p u : V3 ℝ) : Prop :=
  ∃ x y z : ℝ → ℝ, (∀ t, S ⟨x t, y t, z t⟩) ∧ (⟨x 0, y 0, z 0⟩ : V3 ℝ) = p ∧
    HasDerivAt x u.x 0 ∧ HasDerivAt y u.y 0 ∧ HasDerivAt z u.z 0

/-- `n` is a unit normal of `S` at `p`, on the side a ray of direction `d` comes from. -/
structure FacingNormal (S : V3 ℝ → Prop) (p d n : V3 ℝ) : Prop where
  unit : n.IsUnit
  orthogonal : ∀ u, Tangent S p u → V3.dot u n = 0
  faces : V3.dot d n ≤ 0

/-- The lower half of the sphere. -/
def hemisphereSet (R : ℝ) (q : V3 ℝ) : Prop := sphereSet R q ∧ q.z ≤ 0

/-- The ray crosses the closed surface `full` twice, and only the far crossing is ahead of the ray and in the
kept part `S`. -/
def OnlyFar (full S : V3 ℝ → Prop) (v d : V3 ℝ) : Prop :=
  ∃ t0 t1 : ℝ, t0 < t1 ∧ full (v + t0 • d) ∧ full (v + t1 • d) ∧ ¬ (0 < t0 ∧ S (v + t0 • d)) ∧ 0 < t1 ∧ S (v + t1 • d)

/-- The same, only the near crossing being kept. -/
def OnlyNear (full S : V3 ℝ → Prop) (v d : V3 ℝ) : Prop :=
  ∃ t0 t1 : ℝ, t0 < t1 ∧ full (v + t0 • d) ∧ full (v + t1 • d) ∧ 0 < t0 ∧ S (v + t0 • d) ∧ ¬ (0 < t1 ∧ S (v + t1 • d))

end Tracer
