import Verif.Spec.Cavity

/-!
Light inside a round pipe with a mirror on its inner side.  Seen along the axis it goes round on equal chords, as in a hollow sphere (Spec/Cavity);
along the axis it moves on evenly.
-/

namespace Tracer

variable {E : Type _}

/-- The part of a vector at right angles to the unit vector `e`. -/
noncomputable def crosswise (e v : V3 ℝ) : V3 ℝ := v - V3.dot v e • e

/-- How fast a ray moves at right angles to the axis. -/
noncomputable def crossSpeed (e : V3 ℝ) (r : Ray ℝ E) : ℝ := √(V3.dot (crosswise e r.dir) (crosswise e r.dir))

/-- The ray seen along the axis through `c`: in the plane through `c` at right angles to the axis, with unit direction. -/
noncomputable def shadow (e c : V3 ℝ) (r : Ray ℝ E) : Ray ℝ E :=
  { r with vertex := c + crosswise e (r.vertex - c), dir := (1 / crossSpeed e r) • crosswise e r.dir }

/-- The way along the light from its source to the (k+1)-th reflection. -/
noncomputable def pipeWay (R : ℝ) (e c : V3 ℝ) (r : Ray ℝ E) (k : Nat) : ℝ :=
  (wayToWall R c (shadow e c r) + 2 * k * halfChord R c (shadow e c r)) / crossSpeed e r

/-- How far along the axis from `c` that reflection is. -/
noncomputable def pipeHeight (R : ℝ) (e c : V3 ℝ) (r : Ray ℝ E) (k : Nat) : ℝ :=
  V3.dot (r.vertex - c) e + pipeWay R e c r k * V3.dot r.dir e

/-- Where it is. -/
noncomputable def pipePoint (R : ℝ) (e c : V3 ℝ) (r : Ray ℝ E) (k : Nat) : V3 ℝ :=
  c + bouncePoint R c (shadow e c r) k + pipeHeight R e c r k • e

/-- What a ray has become after `k` reflections in a pipe that absorbs the fraction `a` of the light: it goes from one of these places to the
next, with the energy left. -/
noncomputable def pipeRay (R : ℝ) (e c : V3 ℝ) (a : ℝ) (r : Ray ℝ E) : Nat → Ray ℝ E
  | 0 => r
  | k + 1 => { r with
      vertex := pipePoint R e c r k
      dir := (1 / (pipeWay R e c r (k + 1) - pipeWay R e c r k)) • (pipePoint R e c r (k + 1) - pipePoint R e c r k)
      energy := r.energy * (1 - a) ^ (k + 1)
      parent := 0 }

/-- A ray of unit direction that begins inside the pipe of radius `R` about the axis through `c` along `e`, is not within the tolerance of 1e-10
of being parallel to the axis, and meets the wall after more than 1e-6. -/
structure InPipe (R : ℝ) (e c : V3 ℝ) (r : Ray ℝ E) : Prop where
  unit : r.dir.IsUnit
  inside : V3.dot (crosswise e (r.vertex - c)) (crosswise e (r.vertex - c)) ≤ R ^ 2
  steep : 1 / 10 ^ 10 < V3.dot (crosswise e r.dir) (crosswise e r.dir)
  far : 1 / 10 ^ 6 < pipeWay R e c r 0

end Tracer
