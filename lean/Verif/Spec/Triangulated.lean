import Verif.Model.Triangulated
import Verif.Spec.Geometry

/-! What a face of a triangulated surface is. -/

namespace Tracer

variable {E σ : Type _}

/-- The triangle with the given vertices. -/
def triangleOf (a b c : V3 ℝ) (p : V3 ℝ) : Prop :=
  ∃ s t u : ℝ, 0 ≤ s ∧ 0 ≤ t ∧ 0 ≤ u ∧ s + t + u = 1 ∧ p = s • a + (t • b + u • c)

/-- The edges from the first vertex are longer than 1e-8, and the vertices are not on a line. -/
def ProperFace (f : V3 ℝ × V3 ℝ × V3 ℝ) : Prop :=
  (1 / 10 ^ 8) ^ 2 < V3.dist2 f.2.1 f.1 ∧ (1 / 10 ^ 8) ^ 2 < V3.dist2 f.2.2 f.1 ∧
    V3.cross (f.2.1 - f.1) (f.2.2 - f.1) ≠ 0

/-- The face with the numbers `idx` has these corners. -/
def HasCorners (vertices : List (V3 ℝ)) (idx : Nat × Nat × Nat) (f : V3 ℝ × V3 ℝ × V3 ℝ) : Prop :=
  vertices[idx.1]? = some f.1 ∧ vertices[idx.2.1]? = some f.2.1 ∧ vertices[idx.2.2]? = some f.2.2

/-- The surface is the triangle `a b c`, with its upper side where the vertices go around counterclockwise:
rays not (nearly) parallel to it meet it at the first point of the triangle at or after their start, other rays
miss it. -/
structure SurfNode.IsTriangle (s : SceneSurf σ ℝ E) (a b c : V3 ℝ) : Prop where
  rigid : s.temp.Rigid
  orthogonal : V3.dot s.temp.rot.c3 (b - a) = 0 ∧ V3.dot s.temp.rot.c3 (c - a) = 0
  upper : 0 < V3.dot s.temp.rot.c3 (V3.cross (b - a) (c - a))
  meets : ∀ (rays : Bundle ℝ E) (i : Nat) (r : Ray ℝ E), rays[i]? = some r →
    ∃ p, (s.surf.register rays)[i]? = some p ∧
      (1 / 10 ^ 10 < |V3.dot r.dir s.temp.rot.c3| → FirstAmong (0 ≤ ·) (triangleOf a b c) r.vertex r.dir p) ∧
      (|V3.dot r.dir s.temp.rot.c3| ≤ 1 / 10 ^ 10 → p = ⊤)

end Tracer
