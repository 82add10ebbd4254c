import Verif.Model.Engine

/-!
Surfaces as a geometry manager plus an optics callable (surface.py).
-/

namespace Tracer

variable {K E σ : Type _} [Field K] [LinearOrder K]

/-- A geometry manager (geometry_manager.py), as the functions of the working frame it offers:
* `find frame rays` is `find_intersections(frame, rays)`;
* `normal frame hit dir` is the normal reported by `get_normals()` for a selected ray of
  direction `dir` whose hit point is `hit`.

In all managers of the package the hit point of a selected ray is
`vertex + param*direction` with the parameter returned by `find_intersections`
(flat_surface.py:76,142,163; quadric.py:78,86-87,139), see `hitRecs`. -/
structure Geometry (K E : Type _) where
  find : Tf K → Bundle K E → List (WithTop K)
  normal : Tf K → V3 K → V3 K → V3 K

/-- What an optics callable can see of one selected ray: its index in the bundle, the ray,
`get_intersection_points_global()` and `get_normals()` (surface.py:83, geometry_manager.py:50-62). -/
structure HitRec (K E : Type _) where
  idx : Nat
  ray : Ray K E
  point : V3 K
  normal : V3 K

/-- An optics callable (optics_callables.py): called with the geometry manager's data for the
selected rays and its `up()` direction.  `σ` is the state it may read and change. -/
abbrev Optics (σ K E : Type _) := σ → V3 K → List (HitRec K E) → Except Err (Bundle K E × σ)

/-- The data of the selected rays (surface.py:61-71, flat_surface.py:58-94,
quadric.py:128-160).  Selecting a ray that missed would put inf/nan into the
computation; the model reports that as `Err.nonfinite`. -/
def hitRecs (g : Geometry K E) (frame : Tf K) (rays : Bundle K E) :
    List Nat → Except Err (List (HitRec K E))
  | [] => .ok []
  | i :: sel =>
    match rays[i]?, (g.find frame rays)[i]? with
    | some r, some (some t) =>
      match hitRecs g frame rays sel with
      | .error e => .error e
      | .ok recs => .ok (⟨i, r, r.at t, g.normal frame (r.at t) r.dir⟩ :: recs)
    | some _, some none => .error .nonfinite
    | _, _ => .error .index

/-- A `Surface` placed at the global frame `frame` (its `_temp_frame`), as the engine sees it
(surface.py:44-83; `up()` is geometry_manager.py:28-33). -/
def mkSurf (g : Geometry K E) (opt : Optics σ K E) (frame : Tf K) : Surf σ K E where
  register rays := g.find frame rays
  outgoing w rays sel :=
    match hitRecs g frame rays sel with
    | .error e => .error e
    | .ok recs => opt w frame.rot.c3 recs

/-- `Surface.global_to_local(points)` (surface.py:95-107).  The documentation promises a 3 x n array,
the code returns the homogeneous 4 x n one; the pair's second component is the fourth row. -/
def globalToLocal (frame : Tf K) (pts : List (V3 K)) : Except Err (List (V3 K × K)) :=
  if frame.rot.det = 0 then .error .linalg else .ok (pts.map fun p => (frame.inv.point p, 1))

/-- `Surface.mesh(resolution)` (surface.py:109-126) for the local mesh of the geometry manager, a
grid of points. -/
def meshGlobal (frame : Tf K) (mesh : List (List (V3 K))) : List (List (V3 K)) :=
  mesh.map fun row => row.map frame.point

end Tracer
