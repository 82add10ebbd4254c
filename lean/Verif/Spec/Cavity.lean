import Verif.Model.Ray
import Mathlib.Analysis.SpecialFunctions.Trigonometric.Inverse
import Verif.Spec.Rigid

/-!
Light inside a hollow sphere with a mirror on its inner side.  The line of a ray and the centre span a plane; in it the ray goes round on
chords of the same length, and every chord is the one before it turned about the centre by the same angle.
-/

namespace Tracer

variable {E : Type _}

/-- The squared distance from `c` of the line on which a ray of unit direction goes. -/
noncomputable def missSq (c : V3 ℝ) (r : Ray ℝ E) : ℝ := V3.dot (V3.cross (r.vertex - c) r.dir) (V3.cross (r.vertex - c) r.dir)

/-- The distance from `c` of the line on which a ray of unit direction goes. -/
noncomputable def missDistance (c : V3 ℝ) (r : Ray ℝ E) : ℝ := √(missSq c r)

/-- Half of the chord that the line of the ray cuts out of the ball of radius `R` about `c`. -/
noncomputable def halfChord (R : ℝ) (c : V3 ℝ) (r : Ray ℝ E) : ℝ := √(R ^ 2 - missSq c r)

/-- The way from the beginning of a ray inside the ball to the wall. -/
noncomputable def wayToWall (R : ℝ) (c : V3 ℝ) (r : Ray ℝ E) : ℝ := halfChord R c r - V3.dot (r.vertex - c) r.dir

/-- Where the ray meets the wall first, seen from the centre. -/
noncomputable def wallPoint (R : ℝ) (c : V3 ℝ) (r : Ray ℝ E) : V3 ℝ := r.at (wayToWall R c r) - c

/-- The vector of length `R` in the plane of the ray and the centre that is at right angles to the one above, on the side to which the ray
goes on.  (Zero if the ray goes through the centre.) -/
noncomputable def sideways (R : ℝ) (c : V3 ℝ) (r : Ray ℝ E) : V3 ℝ :=
  (1 / missDistance c r) • (R ^ 2 • r.dir - halfChord R c r • wallPoint R c r)

/-- The angle at the centre over one chord. -/
noncomputable def chordAngle (R : ℝ) (c : V3 ℝ) (r : Ray ℝ E) : ℝ := 2 * Real.arcsin (halfChord R c r / R)

/-- The place of the (k+1)-th reflection, seen from the centre: that of the first, turned `k` times by the angle over a chord. -/
noncomputable def bouncePoint (R : ℝ) (c : V3 ℝ) (r : Ray ℝ E) (k : Nat) : V3 ℝ :=
  Real.cos (k * chordAngle R c r) • wallPoint R c r + Real.sin (k * chordAngle R c r) • sideways R c r

/-- What a ray has become after `k` reflections in a cavity that absorbs the fraction `a` of the light: it goes from one of the places above
to the next, with the energy left. -/
noncomputable def cavityRay (R : ℝ) (c : V3 ℝ) (a : ℝ) (r : Ray ℝ E) : Nat → Ray ℝ E
  | 0 => r
  | k + 1 => { r with
      vertex := c + bouncePoint R c r k
      dir := (1 / (2 * halfChord R c r)) • (bouncePoint R c r (k + 1) - bouncePoint R c r k)
      energy := r.energy * (1 - a) ^ (k + 1)
      parent := 0 }

/-- The ray is still traced after `k` reflections: what was left of it was above the threshold after each. -/
noncomputable def stillTraced (a minE : ℝ) (k : Nat) (r : Ray ℝ E) : Bool :=
  (List.range k).all fun j => decide (minE < r.energy * (1 - a) ^ (j + 1))

/-- A ray of unit direction that begins in the closed ball, further than `δ` (which is not negative) from where it meets the wall. -/
structure InCavity (δ R : ℝ) (c : V3 ℝ) (r : Ray ℝ E) : Prop where
  unit : r.dir.IsUnit
  inside : V3.dist2 r.vertex c ≤ R ^ 2
  far : δ < wayToWall R c r
  nonneg : 0 ≤ δ

end Tracer
