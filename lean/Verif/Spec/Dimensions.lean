import Verif.Spec.Mirrors
import Verif.Spec.Curved

/-! The points of a scene, and cylinders around them. -/

namespace Tracer

variable {E σ : Type _}

/-- A point at which some ray, traced in some bundle, meets the surface.  Directions that are nearly but not exactly along the axis
of a paraboloid of focal length `f`, for which its equation is solved only approximately, are excluded. -/
def SurfNode.Meets (f : ℝ) (s : SceneSurf σ ℝ E) (p : V3 ℝ) : Prop :=
  ∃ (rays : Bundle ℝ E) (i : Nat) (r : Ray ℝ E) (t : ℝ), rays[i]? = some r ∧ r.dir ≠ 0 ∧
    (1 / 10 ^ 10 < offAxis 1 r.dir / (4 * f) ∨ offAxis 1 r.dir = 0) ∧
    (s.surf.register rays)[i]? = some (t : WithTop ℝ) ∧ p = r.vertex + t • r.dir

/-- The upright cylinder of the given diameter around the Z axis, between the given heights. -/
def cylinderXYZ (diameter lo hi : ℝ) (p : V3 ℝ) : Prop := p.x ^ 2 + p.y ^ 2 ≤ (diameter / 2) ^ 2 ∧ lo ≤ p.z ∧ p.z ≤ hi

end Tracer
