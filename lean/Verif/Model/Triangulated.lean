import Verif.Model.Scene
import Verif.Model.Flat
import Mathlib.Analysis.Real.Sqrt

/-! `TriangulatedSurface` (models/triangulated_surface.py), over the reals. -/

namespace Tracer

open Real

variable {E σ : Type _}

/-- `vertices[i]`: negative indices count from the end, others out of range raise `IndexError` (models/triangulated_surface.py:27-28). -/
def vertexAt (vertices : List (V3 ℝ)) (i : Int) : Except Err (V3 ℝ) :=
  match vertices[(if i < 0 then i + vertices.length else i).toNat]? with
  | none => .error .index
  | some v => if i + vertices.length < 0 then .error .index else .ok v

/-- `vertices[faces[:,0]]` and `vertices[faces[:,1:],:]` (models/triangulated_surface.py:27-28), row by
row. -/
def faceCorners (vertices : List (V3 ℝ)) : List (Int × Int × Int) → Except Err (List (V3 ℝ × V3 ℝ × V3 ℝ))
  | [] => .ok []
  | (i, j, k) :: faces =>
    match vertexAt vertices i, vertexAt vertices j, vertexAt vertices k, faceCorners vertices faces with
    | .ok a, .ok b, .ok c, .ok l => .ok ((a, b, c) :: l)
    | _, _, _, _ => .error .index

/-- `np.sqrt(np.sum(v**2))` (models/triangulated_surface.py:29,36) -/
noncomputable def rowNorm (v : V3 ℝ) : ℝ := √(v.x ^ 2 + v.y ^ 2 + v.z ^ 2)

/-- `non_degenerate` for one face (models/triangulated_surface.py:30). -/
noncomputable def longEdges (e : V3 ℝ × V3 ℝ) : Bool :=
  decide (1 / 10 ^ 8 < |rowNorm e.1|) && decide (1 / 10 ^ 8 < |rowNorm e.2|)

/-- The local axes of one face (models/triangulated_surface.py:34-43); `none` if the face is dropped there.
A zero cross product is divided by zero, the resulting NaNs compare as False. -/
noncomputable def faceAxes (e : V3 ℝ × V3 ℝ) : Option (M3 ℝ) :=
  let x : V3 ℝ := ⟨e.1.x / rowNorm e.1, e.1.y / rowNorm e.1, e.1.z / rowNorm e.1⟩
  let z := V3.cross x e.2
  let n := rowNorm z
  if n = 0 then none
  else
    let z : V3 ℝ := ⟨z.x / n, z.y / n, z.z / n⟩
    if 1 / 10 ^ 6 < |z.x| ∨ 1 / 10 ^ 6 < |z.y| ∨ 1 / 10 ^ 6 < |z.z| then
      some ⟨x, V3.cross z x, z⟩
    else none

/-- The faces that are kept, with their axes (models/triangulated_surface.py:30-40). -/
noncomputable def keptFaces (edges : List (V3 ℝ × V3 ℝ)) : List (M3 ℝ × V3 ℝ × V3 ℝ) :=
  (edges.filter longEdges).filterMap fun e => (faceAxes e).map fun m => (m, e)

/-- One surface (models/triangulated_surface.py:43-50): the edges in local coordinates make the triangle, placed
at a position from `pos`. -/
noncomputable def faceSurface (optics : Optics σ ℝ E) (pos : V3 ℝ) (f : M3 ℝ × V3 ℝ × V3 ℝ) : SceneSurf σ ℝ E :=
  Surface.new (triangularFace (f.1.transpose.mulVec f.2.1) (f.1.transpose.mulVec f.2.2)) optics ⟨f.1, pos⟩

/-- `TriangulatedSurface(vertices, faces, optics, transform)` (models/triangulated_surface.py:12-52): `pos` keeps
the rows of the dropped faces, so surface number `ix` is placed at row `ix` of all faces. -/
noncomputable def triangulatedSurface (vertices : List (V3 ℝ)) (faces : List (Int × Int × Int))
    (optics : Optics σ ℝ E) (transform : Tf ℝ) : Except Err (SceneObj σ ℝ E) :=
  match faceCorners vertices faces with
  | .error e => .error e
  | .ok corners =>
    let pos := corners.map fun c => c.1
    let edges := corners.map fun c => (c.2.1 - c.1, c.2.2 - c.1)
    let kept := keptFaces edges
    .ok (ObjNode.new (List.zipWith (faceSurface optics) pos kept) transform
      (Obj.defaultOwn, Obj.defaultNext kept.length))

end Tracer
