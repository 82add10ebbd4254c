import Verif.Spec.Distribution
import Verif.Spec.Geometry
import Verif.Model.Flat

/-!
What part of the light of a diffuse surface falls on a receiver: Nusselt's construction.
-/

namespace Tracer

open Real

variable {E : Type _}

/-- The flat geometry managers of the package, and the parts of the XY plane that they stand for. -/
inductive FlatShape : Geometry ℝ E → (V3 ℝ → Prop) → Prop
  | plane : FlatShape flatGM planeXY
  | rect (width height : ℝ) (g) : rectPlateGM width height = .ok g → FlatShape g (rectXY width height)
  | round (R : ℝ) (g) : roundPlateGM R = .ok g → FlatShape g (diskXY R)
  | triangle (a b : V3 ℝ) : a.z = 0 → b.z = 0 → V3.cross a b ≠ 0 → FlatShape (triangularFace a b) (triangle a b)

/-- The set `S` is seen from the place `p`, where the normal is `n` and `e1`, `e2` are tangents: the part of the unit disk that is below the part
of the unit hemisphere that `S` covers. -/
def nusselt (S : V3 ℝ → Prop) (p e1 e2 n : V3 ℝ) : Set (ℝ × ℝ) :=
  {q | ∃ t : ℝ, 0 < t ∧ S (p + t • (q.1 • e1 + q.2 • e2 + √(1 - q.1 ^ 2 - q.2 ^ 2) • n))}

/-- The ray arrives at the place `p` of a surface from the side of the normal `n`, not within 1e-6, and not along the surface, and does not meet
`S`. -/
structure ArrivesAt (p n : V3 ℝ) (S : V3 ℝ → Prop) (r : Ray ℝ E) : Prop where
  there : ∃ t : ℝ, 1 / 10 ^ 6 < t ∧ r.at t = p
  above : V3.dot r.dir n < -(1 / 10 ^ 10)
  free : ∀ t : ℝ, 0 ≤ t → ¬ S (r.at t)

end Tracer
