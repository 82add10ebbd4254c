import Verif.Spec.Pipe
import Verif.Spec.Drop

/-!
Light inside a round rod of glass.  Inside it goes as in a round pipe (Spec/Pipe).  At each place where it meets the wall it makes the same angle with the normal, so that either it is totally
reflected every time, or the same share of it gets out every time.
-/

namespace Tracer

variable {E : Type _}

/-- The cosine of the angle between light in a rod of radius `R` and the normal of the wall, wherever it meets the wall. -/
noncomputable def rodCos (R : ℝ) (e c : V3 ℝ) (r : Ray ℝ E) : ℝ := crossSpeed e r * halfChord R c (shadow e c r) / R

/-- The light is not beyond the critical angle of a rod of index `nb` in a medium of index `na`. -/
def Escapes (R : ℝ) (e c : V3 ℝ) (na nb : ℝ) (r : Ray ℝ E) : Prop := nb ^ 2 * (1 - rodCos R e c r ^ 2) ≤ na ^ 2

/-- The cosine of the angle with the normal of the light that gets out. -/
noncomputable def rodCosOut (R : ℝ) (e c : V3 ℝ) (na nb : ℝ) (r : Ray ℝ E) : ℝ := √(1 - (nb / na) ^ 2 * (1 - rodCos R e c r ^ 2))

open Classical in
/-- The share of the light that stays in the rod at each reflection. -/
noncomputable def rodShare (R : ℝ) (e c : V3 ℝ) (na nb : ℝ) (r : Ray ℝ E) : ℝ :=
  if Escapes R e c na nb r then reflectance nb na (rodCos R e c r) (rodCosOut R e c na nb r) else 1

/-- The normal of the wall, outwards, where the light meets it for the (k+1)-th time. -/
noncomputable def rodNormal (R : ℝ) (e c : V3 ℝ) (r : Ray ℝ E) (k : Nat) : V3 ℝ := (1 / R) • bouncePoint R c (shadow e c r) k

/-- What gets out there: the part of the direction along the wall is changed in the proportion of the indices. -/
noncomputable def rodExit (R : ℝ) (e c : V3 ℝ) (na nb : ℝ) (r : Ray ℝ E) (k : Nat) : Ray ℝ E :=
  { r with
    vertex := pipePoint R e c r k
    dir := (nb / na) • ((pipeRay R e c 0 r k).dir - rodCos R e c r • rodNormal R e c r k) + rodCosOut R e c na nb r • rodNormal R e c r k
    energy := r.energy * rodShare R e c na nb r ^ k * (1 - rodShare R e c na nb r)
    parent := 0
    ref := some na }

/-- A ray that begins inside the rod, as for `InPipe`, in the medium of the rod; what gets out of it is not within the tolerance of 1e-10 of being parallel to the axis. -/
structure InRod (R : ℝ) (e c : V3 ℝ) (na nb : ℝ) (r : Ray ℝ E) : Prop extends InPipe R e c r where
  medium : r.ref = some nb
  steepOut : Escapes R e c na nb r → 1 / 10 ^ 10 < 1 - (nb / na * V3.dot r.dir e) ^ 2

/-- The light is still traced after `k` reflections: what was left of it in the rod was above the threshold after each. -/
noncomputable def tracedInRod (R : ℝ) (e c : V3 ℝ) (na nb minE : ℝ) (k : Nat) (r : Ray ℝ E) : Bool :=
  (List.range k).all fun j => decide (minE < r.energy * rodShare R e c na nb r ^ (j + 1))

end Tracer
