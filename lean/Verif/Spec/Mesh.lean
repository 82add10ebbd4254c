import Verif.Model.Mesh
import Verif.Spec.Geometry

/-! What it means for a mesh to lie on a surface. -/

namespace Tracer

/-- All points of the mesh are in `S`. -/
def Mesh.LiesOn (m : Mesh) (S : V3 ℝ → Prop) : Prop := ∀ row ∈ m, ∀ p ∈ row, S p

/-- `p` is a point of the mesh. -/
def Mesh.Has (m : Mesh) (p : V3 ℝ) : Prop := ∃ row ∈ m, p ∈ row

/-- Every point of `S` has a point of the mesh within distance √2 / resolution, i.e. the diagonal of a square cell whose side is
the documented distance between points. -/
def Mesh.Covers (m : Mesh) (S : V3 ℝ → Prop) (resolution : ℝ) : Prop :=
  ∀ p, S p → ∃ q, m.Has q ∧ V3.dot (p - q) (p - q) ≤ 2 * (1 / resolution) ^ 2

/-- The same seen from above, i.e. for distances between the projections to the XY plane. -/
def Mesh.CoversXY (m : Mesh) (S : V3 ℝ → Prop) (resolution : ℝ) : Prop :=
  ∀ p, S p → ∃ q, m.Has q ∧ (p.x - q.x) ^ 2 + (p.y - q.y) ^ 2 ≤ 2 * (1 / resolution) ^ 2

/-- The part of the paraboloid with focus (0, 0, f) within the given diameter. -/
def dishWithin (diameter f : ℝ) (p : V3 ℝ) : Prop := dishSet f p ∧ p.x ^ 2 + p.y ^ 2 ≤ (diameter / 2) ^ 2

/-- The lower half of the sphere of radius `R`. -/
def lowerHalf (R : ℝ) (p : V3 ℝ) : Prop := sphereSet R p ∧ p.z ≤ 0

end Tracer
