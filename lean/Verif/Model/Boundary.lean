import Verif.Model.Vec
import Verif.Model.Np
import Mathlib.Analysis.Real.Sqrt

/-!
# Boundary shapes (boundary_shape.py)

Simplification: a shape's own transform is given at construction and not changed later; changing it,
and the sharing of arrays between frames, is modelled in `Model/Frames.lean`.
-/

namespace Tracer

variable {K : Type _} [Field K] [LinearOrder K]

/-- The attribute `_temp_loc` of a `BoundarySphere`: an array of 3 components after construction
(boundary_shape.py:67), of 4 components after `transform_frame` (boundary_shape.py:83). -/
inductive TempLoc (K : Type _) where
  | three (p : V3 K)
  | four (p : V3 K) (w : K)

/-- `_temp_loc[:3]` (boundary_shape.py:76) -/
def TempLoc.head : TempLoc K → V3 K
  | .three p => p
  | .four p _ => p

/-- A `BoundarySphere` (boundary_shape.py:55-68): `_loc`, `_radius`, `_temp_loc`. -/
structure BoundarySphere (K : Type _) where
  loc : V3 K
  radius : K
  temp : TempLoc K

/-- `BoundarySphere(location, radius)` (boundary_shape.py:56-68) -/
def BoundarySphere.mk' (loc : V3 K) (radius : K) : BoundarySphere K := ⟨loc, radius, .three loc⟩

/-- `BoundarySphere.transform_frame(transform)` (boundary_shape.py:78-83) -/
def BoundarySphere.transformFrame (t : Tf K) (s : BoundarySphere K) : BoundarySphere K :=
  { s with temp := .four (t.point s.loc) 1 }

/-- `BoundarySphere.in_bounds(bund_vertices)` (boundary_shape.py:70-76) -/
def BoundarySphere.inBounds (s : BoundarySphere K) (pts : List (V3 K)) : List Bool :=
  pts.map fun p => decide
    ((p.x - s.temp.head.x) ^ 2 + (p.y - s.temp.head.y) ^ 2 + (p.z - s.temp.head.z) ^ 2 ≤ s.radius ^ 2)

/-- `BoundarySphere.bounding_rect_for_plane(transform)` (boundary_shape.py:85-101), over the reals.
`ValueError` when `_temp_loc` has four components (`N.dot` of shapes (4,4) and (5,)); the square root of a
negative number is nan, modelled by `Err.nonfinite`, which is not an exception of the code. -/
noncomputable def BoundarySphere.boundingRect (s : BoundarySphere ℝ) (t : Tf ℝ) :
    Except Err (ℝ × ℝ × ℝ × ℝ) :=
  if t.rot.det = 0 then .error .linalg
  else match s.temp with
  | .four _ _ => .error .value
  | .three p =>
    let c := t.inv.point p
    let r2 := s.radius ^ 2 - (p.z - c.z) ^ 2
    if r2 < 0 then .error .nonfinite
    else .ok (c.x - √r2, c.x + √r2, c.y - √r2, c.y + √r2)

/-- A shape whose state is its frame: `_transform` and `_temp_frame` (has_frame.py:23-34). -/
structure BoundaryFrame (K : Type _) where
  own : Tf K
  temp : Tf K

/-- `HasFrame.transform_frame` (has_frame.py:68-73) -/
def BoundaryFrame.transformFrame (t : Tf K) (f : BoundaryFrame K) : BoundaryFrame K :=
  { f with temp := t * f.own }

/-- `BoundaryPlane(location, rotation)` (boundary_shape.py:16-23, 124) -/
def boundaryPlane (location : V3 K) (rotation : M3 K) : BoundaryFrame K :=
  ⟨⟨rotation, location⟩, ⟨rotation, location⟩⟩

/-- `BoundaryPlane.in_bounds(vertices)` (boundary_shape.py:125-135) -/
def BoundaryFrame.planeInBounds (f : BoundaryFrame K) (pts : List (V3 K)) : Except Err (List Bool) :=
  if f.temp.rot.det = 0 then .error .linalg
  else .ok (pts.map fun p => decide (0 ≤ (f.temp.inv.point p).z))

/-- `BoundaryCylinder(diameter, location, rotation)` (boundary_shape.py:104-110): the rotation is not
used.  Returns the frame and `_R`. -/
def boundaryCylinder (diameter : K) (location : V3 K) (_rotation : M3 K) : BoundaryFrame K × K :=
  (⟨⟨1, location⟩, ⟨1, location⟩⟩, diameter / 2)

/-- `BoundaryCylinder.in_bounds(vertices)` (boundary_shape.py:112-122).  The array of ones has
`vertices.shape[1]` = 3 entries, so `N.vstack` raises unless there are three points; the frame is
applied forwards. -/
def cylinderInBounds (c : BoundaryFrame K × K) (pts : List (V3 K)) : Except Err (List Bool) :=
  if pts.length = 3 then
    .ok (pts.map fun p =>
      let q := c.1.temp.point p
      decide (q.x ^ 2 + q.y ^ 2 ≤ c.2 ^ 2))
  else .error .value

end Tracer
