import Verif.Model.Rounded
import Verif.Model.Quadric

/-! A spherical mirror as floating-point arithmetic computes it, in the manner of `Model/Rounded.lean`. -/

namespace Tracer

open Real

variable {E σ : Type _}

/-- `SphericalGM.get_ABC` for one ray (sphere_surface.py:53-68); the sums are added from the left. -/
noncomputable def flSphereABC (fl : ℝ → ℝ) (R : ℝ) (frame : Tf ℝ) (v d : V3 ℝ) : ℝ × ℝ × ℝ :=
  let w := (v - frame.loc).rounded fl
  (flDot fl d d, fl (2 * flDot fl d w), fl (flDot fl w w - fl (R ^ 2)))

/-- The two solutions of one ray (quadric.py:57-78), as `candidate`. -/
noncomputable def flCandidate (fl : ℝ → ℝ) (abc : ℝ × ℝ × ℝ) (v d : V3 ℝ) : Option Cand :=
  let A := abc.1
  let B := abc.2.1
  let C := abc.2.2
  let delta := fl (fl (B ^ 2) - fl (fl (4 * A) * C))
  if 0 ≤ delta then
    if A ≤ planarTol then
      if B = 0 then none
      else
        let t := fl (-C / B)
        some ⟨t, t, flHit fl v d t, flHit fl v d t⟩
    else
      let s := fl √delta
      let t0 := fl (fl (-B + -1 * s) / fl (2 * A))
      let t1 := fl (fl (-B + 1 * s) / fl (2 * A))
      some ⟨t0, t1, flHit fl v d t0, flHit fl v d t1⟩
  else none

/-- The selected solution of one ray and its point (quadric.py:82-90, 94-126).  Simplification: the selection is written ray by ray;
`defaultSelect_eq` shows of the exact model that NumPy's operations on all columns amount to that. -/
noncomputable def flSphereHit (fl : ℝ → ℝ) (R : ℝ) (frame : Tf ℝ) (v d : V3 ℝ) : Option (ℝ × V3 ℝ) :=
  match flCandidate fl (flSphereABC fl R frame v d) v d with
  | none => none
  | some c => if 0 < c.t0 then some (c.t0, c.p0) else if 0 < c.t1 then some (c.t1, c.p1) else none

/-- `SphericalGM._normals` for one hit (sphere_surface.py:35-50); changing the sign is exact. -/
noncomputable def flSphereNormal (fl : ℝ → ℝ) (frame : Tf ℝ) (hit d : V3 ℝ) : V3 ℝ :=
  let side := flDot fl ((frame.loc - hit).rounded fl) d
  let n := (hit - frame.loc).rounded fl
  let n := if side < 0 then (-1 : ℝ) • n else n
  let len := fl √(flDot fl n n)
  ⟨fl (n.x / len), fl (n.y / len), fl (n.z / len)⟩

/-- `Reflective.__call__` for one selected ray (optics_callables.py:24-29). -/
noncomputable def flSphereOne (fl : ℝ → ℝ) (absorptivity : ℝ) (frame : Tf ℝ) (i : Nat) (r : Ray ℝ E) (p : V3 ℝ) : Ray ℝ E :=
  { r with
    vertex := p
    dir := flReflection fl r.dir (flSphereNormal fl frame p r.dir)
    energy := fl (r.energy * fl (1 - absorptivity))
    parent := i }

/-- The children of the selected rays (quadric.py:128-163, optics_callables.py:24-29). -/
noncomputable def flSphereChildren (fl : ℝ → ℝ) (R absorptivity : ℝ) (frame : Tf ℝ) (rays : Bundle ℝ E) :
    List Nat → Except Err (Bundle ℝ E)
  | [] => .ok []
  | i :: sel =>
    match rays[i]? with
    | none => .error .index
    | some r =>
      match flSphereHit fl R frame r.vertex r.dir with
      | none => .error .nonfinite
      | some (_, p) =>
        match flSphereChildren fl R absorptivity frame rays sel with
        | .error e => .error e
        | .ok out => .ok (flSphereOne fl absorptivity frame i r p :: out)

/-- A `Surface` with `SphericalGM(R)` and `Reflective(absorptivity)` placed at `frame`, computed with rounding (surface.py:44-83). -/
noncomputable def flSphere (fl : ℝ → ℝ) (R absorptivity : ℝ) (frame : Tf ℝ) : Surf σ ℝ E where
  register rays := rays.map fun r =>
    match flSphereHit fl R frame r.vertex r.dir with
    | none => ⊤
    | some (t, _) => (t : WithTop ℝ)
  outgoing w rays sel :=
    match flSphereChildren fl R absorptivity frame rays sel with
    | .error e => .error e
    | .ok out => .ok (out, w)

end Tracer
