import Verif.Model.Flat
import Verif.Model.Optics
import Mathlib.Data.Real.Basic
import Mathlib.Data.Real.Archimedean
import Mathlib.Data.Int.Log
import Mathlib.Algebra.Order.Round

/-!
A flat mirror as floating-point arithmetic computes it: the operations of `Model/Flat.lean` and `Model/Optics.lean` in the order of the
code, each followed by a rounding function.  Overflow, underflow and nan are not modelled.
-/

namespace Tracer

variable {E σ : Type _}

/-- The distance of neighbouring numbers with 53 significant bits, at `x` (NumPy's `float64`, in which ray_bundle.py and has_frame.py keep their arrays). -/
noncomputable def ulp (x : ℝ) : ℝ := (2 : ℝ) ^ (Int.log 2 |x| - 52)

/-- Rounding to the nearest number with 53 significant bits: the arithmetic of NumPy's `float64`, in which ray_bundle.py and has_frame.py keep
their arrays.  Ties go up here, to even there; the exponent is not bounded here. -/
noncomputable def binary64 (x : ℝ) : ℝ := round (x / ulp x) * ulp x

/-- Componentwise rounding (of 3-component arrays in flat_surface.py:34, 76 and optics.py:50-51). -/
def V3.rounded (fl : ℝ → ℝ) (v : V3 ℝ) : V3 ℝ := ⟨fl v.x, fl v.y, fl v.z⟩

/-- A dot product of three terms, added from the left (`N.dot` in flat_surface.py:38,45 and `N.sum(ray_dirs*normals, axis=0)` in
optics.py:50). -/
def flDot (fl : ℝ → ℝ) (a b : V3 ℝ) : ℝ := fl (fl (fl (a.x * b.x) + fl (a.y * b.y)) + fl (a.z * b.z))

/-- `dt = N.dot(d.T, frame[:3,2])` (flat_surface.py:38) -/
def flDt (fl : ℝ → ℝ) (frame : Tf ℝ) (d : V3 ℝ) : ℝ := flDot fl d frame.rot.c3

/-- `FlatGeometryManager.find_intersections` for one ray (flat_surface.py:33-51). -/
noncomputable def flFlatParam (fl : ℝ → ℝ) (frame : Tf ℝ) (v d : V3 ℝ) : WithTop ℝ :=
  let vx := (v - frame.loc).rounded fl
  let dt := flDt fl frame d
  if parallelTol < |dt| then
    let vt := flDot fl frame.rot.c3 vx
    let t := fl (-vt / dt)
    if t < 0 then ⊤ else (t : WithTop ℝ)
  else ⊤

/-- `self._global = v + p[None,:]*d` (flat_surface.py:76) -/
noncomputable def flHit (fl : ℝ → ℝ) (v d : V3 ℝ) (t : ℝ) : V3 ℝ := (v + (t • d).rounded fl).rounded fl

/-- `get_normals` for one ray (flat_surface.py:54,68,78-85); changing the sign is exact. -/
noncomputable def flNormal (fl : ℝ → ℝ) (frame : Tf ℝ) (d : V3 ℝ) : V3 ℝ :=
  if 0 < flDt fl frame d then -frame.rot.c3 else frame.rot.c3

/-- `optics.reflections` for one ray (optics.py:50-51). -/
noncomputable def flReflection (fl : ℝ → ℝ) (d n : V3 ℝ) : V3 ℝ :=
  let vertical := (flDot fl d n • n).rounded fl
  (d - ((2 : ℝ) • vertical).rounded fl).rounded fl

/-- `Reflective.__call__` for one selected ray (optics_callables.py:24-29). -/
noncomputable def flReflectOne (fl : ℝ → ℝ) (absorptivity : ℝ) (frame : Tf ℝ) (i : Nat) (r : Ray ℝ E) (t : ℝ) : Ray ℝ E :=
  { r with
    vertex := flHit fl r.vertex r.dir t
    dir := flReflection fl r.dir (flNormal fl frame r.dir)
    energy := fl (r.energy * fl (1 - absorptivity))
    parent := i }

/-- The children of the selected rays (flat_surface.py:58-76, optics_callables.py:24-29). -/
noncomputable def flChildren (fl : ℝ → ℝ) (absorptivity : ℝ) (frame : Tf ℝ) (rays : Bundle ℝ E) : List Nat → Except Err (Bundle ℝ E)
  | [] => .ok []
  | i :: sel =>
    match rays[i]? with
    | none => .error .index
    | some r =>
      match flFlatParam fl frame r.vertex r.dir with
      | ⊤ => .error .nonfinite
      | (t : ℝ) =>
        match flChildren fl absorptivity frame rays sel with
        | .error e => .error e
        | .ok out => .ok (flReflectOne fl absorptivity frame i r t :: out)

/-- A `Surface` with `FlatGeometryManager` and `Reflective(absorptivity)` placed at `frame`, computed with rounding (surface.py:44-83). -/
noncomputable def flMirror (fl : ℝ → ℝ) (absorptivity : ℝ) (frame : Tf ℝ) : Surf σ ℝ E where
  register rays := rays.map fun r => flFlatParam fl frame r.vertex r.dir
  outgoing w rays sel :=
    match flChildren fl absorptivity frame rays sel with
    | .error e => .error e
    | .ok out => .ok (out, w)

end Tracer
