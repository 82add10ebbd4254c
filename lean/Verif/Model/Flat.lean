import Verif.Model.Surface

/-! Model of `flat_surface.py` and `triangular_face.py`. -/

namespace Tracer

variable {K E : Type _} [Field K] [LinearOrder K]

/-- 1e-10 (flat_surface.py:39) -/
def parallelTol : K := 1 / 10 ^ 10

/-- `FlatGeometryManager.find_intersections` for one ray (flat_surface.py:31-56). -/
def flatParam (frame : Tf K) (v d : V3 K) : WithTop K :=
  let dt := V3.dot d frame.rot.c3
  if parallelTol < |dt| then
    let t := -(V3.dot frame.rot.c3 (v - frame.loc)) / dt
    if t < 0 then ⊤ else (t : WithTop K)
  else ⊤

/-- `FlatGeometryManager.get_normals` for one ray (flat_surface.py:54,68,78-85). -/
def flatNormal (frame : Tf K) (_hit dir : V3 K) : V3 K :=
  if 0 < V3.dot dir frame.rot.c3 then -frame.rot.c3 else frame.rot.c3

/-- `FlatGeometryManager` (flat_surface.py:11-105): NumPy's operations here act on each ray
separately, so the result is a map. -/
def flatGM : Geometry K E where
  find frame rays := rays.map fun r => flatParam frame r.vertex r.dir
  normal := flatNormal

/-- `FiniteFlatGM` with an aperture (flat_surface.py:107-163 and the subclasses): parameters whose
local hit point is outside are set to infinity.  Missed rays have inf/nan hit points,
whatever the comparison gives their parameter stays infinite. -/
def finiteParam (outside : Tf K → V3 K → Bool) (frame : Tf K) (v d : V3 K) : WithTop K :=
  match flatParam frame v d with
  | none => ⊤
  | some t => if outside frame (v + t • d) then ⊤ else (t : WithTop K)

/-- A flat geometry manager trimmed by an aperture (flat_surface.py:107-163). -/
def finiteFlatGM (outside : Tf K → V3 K → Bool) : Geometry K E where
  find frame rays := rays.map fun r => finiteParam outside frame r.vertex r.dir
  normal := flatNormal

/-- The local coordinates of a hit point (flat_surface.py:147-148). -/
def toLocal (frame : Tf K) (p : V3 K) : V3 K := frame.inv.point p

/-- `RectPlateGM.find_intersections`' test (flat_surface.py:181,190). -/
def rectOutside (width height : K) (frame : Tf K) (hit : V3 K) : Bool :=
  let l := toLocal frame hit
  decide (width / 2 < |l.x|) || decide (height / 2 < |l.y|)

/-- `RectPlateGM(width, height)` (flat_surface.py:165-192). -/
def rectPlateGM (width height : K) : Except Err (Geometry K E) :=
  if width ≤ 0 then .error .value
  else if height ≤ 0 then .error .value
  else .ok (finiteFlatGM (rectOutside width height))

/-- `RoundPlateGM.find_intersections`' test (flat_surface.py:237). -/
def roundOutside (R : K) (frame : Tf K) (hit : V3 K) : Bool :=
  let l := toLocal frame hit
  decide (R ^ 2 < l.x ^ 2 + l.y ^ 2)

/-- `RoundPlateGM(R)` (flat_surface.py:215-239). -/
def roundPlateGM (R : K) : Except Err (Geometry K E) :=
  if R ≤ 0 then .error .value else .ok (finiteFlatGM (roundOutside R))

/-- `TriangularFace.find_intersections`' test (triangular_face.py:56-71) for the local vertices
`a`, `b` (the columns of `_verts`): barycentric coordinates by projection.  Simplification: a
degenerate triangle makes NumPy divide by zero (nan, never outside, or inf); theorems assume the
triangle is not degenerate. -/
def triOutside (a b : V3 K) (frame : Tf K) (hit : V3 K) : Bool :=
  let w := hit - frame.loc
  let ga := frame.point a - frame.loc
  let gb := frame.point b - frame.loc
  let uv := V3.dot a b
  let wa := V3.dot w ga
  let wb := V3.dot w gb
  let na := V3.dot a a
  let nb := V3.dot b b
  let den := uv ^ 2 - na * nb
  let s := (uv * wb - nb * wa) / den
  let t := (uv * wa - na * wb) / den
  decide (s < 0) || decide (t < 0) || decide (1 < s + t)

/-- `TriangularFace` (triangular_face.py:12-74). -/
def triangularFace (a b : V3 K) : Geometry K E := finiteFlatGM (triOutside a b)

end Tracer
