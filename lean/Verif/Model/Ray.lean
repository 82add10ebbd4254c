import Verif.Model.Np
import Verif.Model.Vec

/-!
Typed view of ray bundles: a bundle is the list of its rays (ray_bundle.py:6-33:
"equal-length arrays, the length of which correspond to the number of rays").
`Verif/Model/RayBundle.lean` has the dictionary view, and `Verif/Props/Bundle.lean`
relates the two.
-/

namespace Tracer

/-- One ray, i.e. one column of all the arrays of a bundle (ray_bundle.py:25-33).
* `ref` is `none` if the bundle's `ref_index` is not set.
* `parent` is meaningless for source rays (their bundle has no parents set).
* `extra` stands for all user-defined properties (ray_bundle.py:51-60). -/
structure Ray (K E : Type _) where
  vertex : V3 K
  dir : V3 K
  energy : K
  parent : Nat
  ref : Option K
  extra : E
  deriving DecidableEq, Repr

/-- A ray bundle with all of vertices, directions, energy and parents set (ray_bundle.py:25-33). -/
abbrev Bundle (K E : Type _) := List (Ray K E)

/-- The point at parameter `t` along a ray (flat_surface.py:76, quadric.py:78). -/
def Ray.at {K E : Type _} [Field K] (r : Ray K E) (t : K) : V3 K := r.vertex + t • r.dir

end Tracer
