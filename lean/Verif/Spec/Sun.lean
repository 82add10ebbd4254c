import Verif.Spec.Rigid
import Verif.Spec.Geometry
import Mathlib.Analysis.SpecialFunctions.Trigonometric.Basic

/-! A plate under a sun that is not a point. -/

namespace Tracer

open Real

/-- The directions that make at most the angle `ang` with the axis. -/
def InCone (axis : V3 ℝ) (ang : ℝ) (u : V3 ℝ) : Prop := u.IsUnit ∧ cos ang ≤ V3.dot u axis

/-- Seen back along any direction of the cone, the points `A` of the plate lie on the disk from which the rays start, and more than 1e-6 away. -/
def SeenFromDisk (center direction : V3 ℝ) (radius ang : ℝ) (F : Tf ℝ) (A : Set (ℝ × ℝ)) : Prop :=
  ∀ q ∈ A, ∀ u, InCone direction ang u → ∃ s : ℝ, 1 / 10 ^ 6 < s ∧ V3.dot (F.point ⟨q.1, q.2, 0⟩ - s • u - center) direction = 0 ∧
    V3.dist2 (F.point ⟨q.1, q.2, 0⟩ - s • u) center < radius ^ 2

/-- All directions of the cone fall on the same side of the plate, and not too flat. -/
def OneSide (direction : V3 ℝ) (ang : ℝ) (F : Tf ℝ) : Prop :=
  (∀ u, InCone direction ang u → 1 / 10 ^ 10 < V3.dot u F.rot.c3) ∨ ∀ u, InCone direction ang u → V3.dot u F.rot.c3 < -(1 / 10 ^ 10)

end Tracer
