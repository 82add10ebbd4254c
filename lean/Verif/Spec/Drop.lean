import Verif.Spec.Cavity

/-!
Light and a ball of glass or water.  About the centre of the ball, light has a moment, the cross product of place and direction, and the moment
times the refractive index is not changed by refraction or reflection at the ball.  That and the side to which it goes give all directions.
-/

namespace Tracer

variable {E : Type _}

/-- The direction at the place `q` (seen from the centre, at the distance `R` from it) of light with the moment `L` about the centre and the part `h/R`
along the radius. -/
noncomputable def withMoment (R : ℝ) (q L : V3 ℝ) (h : ℝ) : V3 ℝ := (1 / R ^ 2) • (V3.cross L q + h • q)

/-- The moment of a ray about `c`. -/
noncomputable def moment (c : V3 ℝ) (r : Ray ℝ E) : V3 ℝ := V3.cross (r.vertex - c) r.dir

/-- Half of the chord on the line to which the light of the ray, in a medium of index `na`, is refracted in one of index `nb`. -/
noncomputable def bentHalf (R : ℝ) (c : V3 ℝ) (na nb : ℝ) (r : Ray ℝ E) : ℝ := √(R ^ 2 - (na / nb) ^ 2 * missSq c r)

/-- The light can be refracted: it is not beyond the critical angle. -/
def Bends (R : ℝ) (c : V3 ℝ) (na nb : ℝ) (r : Ray ℝ E) : Prop := na ^ 2 * missSq c r ≤ nb ^ 2 * R ^ 2

/-- Fresnel's reflectance for unpolarized light; `ha` and `hb` are in the proportion of the cosines of the angles with the normal. -/
noncomputable def reflectance (na nb ha hb : ℝ) : ℝ :=
  (((na * ha - nb * hb) / (na * ha + nb * hb)) ^ 2 + ((na * hb - nb * ha) / (na * hb + nb * ha)) ^ 2) / 2

open Classical in
/-- The share of the light that the surface of the ball reflects. -/
noncomputable def ballShare (R : ℝ) (c : V3 ℝ) (na nb : ℝ) (r : Ray ℝ E) : ℝ :=
  if Bends R c na nb r then reflectance na nb (halfChord R c r) (bentHalf R c na nb r) else 1

/-- What gets out of a ball of index `nb` in a medium of index `na` where a ray inside it meets the surface for the (k+1)-th time. -/
noncomputable def exitRay (R : ℝ) (c : V3 ℝ) (na nb : ℝ) (r : Ray ℝ E) (k : Nat) : Ray ℝ E :=
  { r with
    vertex := c + bouncePoint R c r k
    dir := withMoment R (bouncePoint R c r k) ((nb / na) • moment c r) (bentHalf R c nb na r)
    energy := r.energy * ballShare R c nb na r ^ k * (1 - ballShare R c nb na r)
    parent := 0
    ref := some na }

/-- The way from the beginning of a ray outside the ball to where it meets it. -/
noncomputable def wayIn (R : ℝ) (c : V3 ℝ) (r : Ray ℝ E) : ℝ := -V3.dot (r.vertex - c) r.dir - halfChord R c r

/-- The ray falls on a ball of index `nb` from a medium of index `na`, and enters it: it meets the ball after a way of more than 1e-6, at less than
the critical angle, and has more than 1e-6 to go inside. -/
structure FallsOn (R : ℝ) (c : V3 ℝ) (na nb : ℝ) (r : Ray ℝ E) : Prop where
  unit : r.dir.IsUnit
  medium : r.ref = some na
  meets : missSq c r < R ^ 2
  far : 1 / 10 ^ 6 < wayIn R c r
  chord : 1 / 10 ^ 6 < 2 * bentHalf R c na nb r

/-- The part of the light that the ball throws off. -/
noncomputable def thrownOff (R : ℝ) (c : V3 ℝ) (na nb : ℝ) (r : Ray ℝ E) : Ray ℝ E :=
  { r with
    vertex := r.at (wayIn R c r)
    dir := withMoment R (r.at (wayIn R c r) - c) (moment c r) (halfChord R c r)
    energy := r.energy * ballShare R c na nb r
    parent := 0 }

/-- The part of the light that enters the ball. -/
noncomputable def entering (R : ℝ) (c : V3 ℝ) (na nb : ℝ) (r : Ray ℝ E) : Ray ℝ E :=
  { r with
    vertex := r.at (wayIn R c r)
    dir := withMoment R (r.at (wayIn R c r) - c) ((na / nb) • moment c r) (-bentHalf R c na nb r)
    energy := r.energy * (1 - ballShare R c na nb r)
    parent := 0
    ref := some nb }

/-- The light of the ray that is inside the ball after `k` reflections there is still traced: what was left of it was above the threshold after each. -/
noncomputable def tracedInBall (R : ℝ) (c : V3 ℝ) (na nb minE : ℝ) (k : Nat) (r : Ray ℝ E) : Bool :=
  (List.range (k + 1)).all fun j => decide (minE < r.energy * (1 - ballShare R c na nb r) * ballShare R c na nb r ^ j)

/-- The angle between the ray and the radius where it meets the ball. -/
noncomputable def angleIn (R : ℝ) (c : V3 ℝ) (r : Ray ℝ E) : ℝ := Real.arcsin (missDistance c r / R)

/-- ... and that of the refracted ray. -/
noncomputable def angleBent (R : ℝ) (c : V3 ℝ) (na nb : ℝ) (r : Ray ℝ E) : ℝ := Real.arcsin (na / nb * missDistance c r / R)

/-- The unit vector at right angles to the ray, from its line towards the centre.  (Zero if the ray goes through the centre.) -/
noncomputable def towardsCentre (c : V3 ℝ) (r : Ray ℝ E) : V3 ℝ :=
  (1 / missDistance c r) • (V3.dot (r.vertex - c) r.dir • r.dir - (r.vertex - c))

/-- The direction at the angle `θ` from the ray, towards the centre. -/
noncomputable def bent (c : V3 ℝ) (r : Ray ℝ E) (θ : ℝ) : V3 ℝ := Real.cos θ • r.dir + Real.sin θ • towardsCentre c r

end Tracer
