import Verif.Model.Scene
import Verif.Model.Refraction
import Verif.Spec.Curved

/-! The shape of a spherical lens, and what it means for it to focus light. -/

namespace Tracer

open Real

variable {E σ : Type _}

/-- Height of a spherical face that crosses the Z axis at the height `apex`, at a point whose squared
distance from the axis is `rr`.  A positive radius means that the centre is below the apex. -/
noncomputable def faceHeight (apex R rr : ℝ) : ℝ :=
  if 0 < R then apex - R + √(R ^ 2 - rr) else apex - R - √(R ^ 2 - rr)

/-- The part of that face inside the aperture. -/
def lensFaceSet (diameter apex R : ℝ) (q : V3 ℝ) : Prop :=
  q.x ^ 2 + q.y ^ 2 ≤ (diameter / 2) ^ 2 ∧ q.z = faceHeight apex R (q.x ^ 2 + q.y ^ 2)

/-- The side of the aperture's cylinder between two heights. -/
def lensWallSet (diameter lo hi : ℝ) (q : V3 ℝ) : Prop :=
  q.x ^ 2 + q.y ^ 2 = (diameter / 2) ^ 2 ∧ lo ≤ q.z ∧ q.z ≤ hi

/-- The inside of a lens: strictly inside the aperture, strictly between the faces.  `lo` and `hi` are the heights
of the back and the front face at a given squared distance from the axis. -/
def lensInside (diameter : ℝ) (lo hi : ℝ → ℝ) (q : V3 ℝ) : Prop :=
  q.x ^ 2 + q.y ^ 2 < (diameter / 2) ^ 2 ∧ lo (q.x ^ 2 + q.y ^ 2) < q.z ∧ q.z < hi (q.x ^ 2 + q.y ^ 2)

/-- The surface is where the set `S` is: a ray meets it at the first point of `S` ahead. -/
def SurfNode.LiesOn (s : SceneSurf σ ℝ E) (S : V3 ℝ → Prop) (r : Ray ℝ E) : Prop :=
  ∃ p, s.surf.register [r] = [p] ∧ FirstAmong (0 < ·) S r.vertex r.dir p

/-- The surface stops the ray. -/
def SurfNode.Stops (s : SceneSurf σ ℝ E) (r : Ray ℝ E) : Prop :=
  ∃ t : ℝ, 0 ≤ t ∧ s.surf.register [r] = [(t : WithTop ℝ)]


/-- The surface is a spherical lens face that crosses the axis of the frame `T` at the height `apex`. -/
structure SurfNode.IsLensFace (s : SceneSurf σ ℝ E) (T : Tf ℝ) (diameter n apex R : ℝ) : Prop where
  lies : ∀ r : Ray ℝ E, r.dir.IsUnit → s.LiesOn (Placed T (lensFaceSet diameter apex R)) r
  optics : s.data.2 = refractiveHomogenous 1 n
  /-- the normal is the unit vector along the line to the centre, on the side the ray comes from -/
  normal : ∀ p d : V3 ℝ, Placed T (lensFaceSet diameter apex R) p → ∃ c : ℝ, (c = 1 / R ∨ c = -(1 / R)) ∧
    s.data.1.normal s.temp p d = c • (p - T.point ⟨0, 0, apex - R⟩) ∧ V3.dot d (s.data.1.normal s.temp p d) ≤ 0

/-- The surfaces are what it takes to close the gap between the rims of the faces, at the heights `lo` and `hi`:
a cylinder if there is a gap, nothing otherwise. -/
structure IsLensWall (l : List (SceneSurf σ ℝ E)) (T : Tf ℝ) (diameter n lo hi : ℝ) : Prop where
  gap : lo < hi → ∃ s, l = [s] ∧ s.data.2 = refractiveHomogenous n 1 ∧
    ∀ r : Ray ℝ E, 1 / 10 ^ 10 < offAxis T r.dir → s.LiesOn (Placed T (lensWallSet diameter lo hi)) r
  noGap : hi ≤ lo → l = []

/-- The ray `r` is refracted into the ray `out` by the surface, into a medium of index `n`; the other ray is the
reflected one. -/
def SurfNode.Refracts (s : SceneSurf σ ℝ E) (r out : Ray ℝ E) (n : ℝ) : Prop :=
  out.ref = some n ∧ ∀ w : σ, ∃ reflected, s.surf.outgoing w [r] [0] = .ok ([reflected, out], w)

/-- A ray at the distance `h` from the axis of the frame `T`, coming down parallel to it from the height `z`. -/
noncomputable def downRay (T : Tf ℝ) (h z energy : ℝ) (extra : E) : Ray ℝ E :=
  ⟨T.point ⟨h, 0, z⟩, T.dir ⟨0, 0, -1⟩, energy, 0, some 1, extra⟩

/-- The line of the ray crosses the axis of the frame `T` at the height `z`, and is not parallel to it. -/
def Ray.CrossesAxis (r : Ray ℝ E) (T : Tf ℝ) (z : ℝ) : Prop :=
  offAxis T r.dir ≠ 0 ∧ ∃ s : ℝ, r.vertex + s • r.dir = T.point ⟨0, 0, z⟩

/-- Two surfaces bring parallel paraxial light coming down the axis of the frame `T`, from the height `start`, to
the height `focus`: a ray close to the axis is refracted by the first surface, then by the second one, and then
crosses the axis at a height that tends to `focus` as the distance from the axis tends to 0. -/
def Focuses (front back : SceneSurf σ ℝ E) (T : Tf ℝ) (n start focus : ℝ) : Prop :=
  ∀ (energy : ℝ) (extra : E), ∃ z : ℝ → ℝ, Filter.Tendsto z (nhdsWithin 0 {0}ᶜ) (nhds focus) ∧
    ∀ᶠ h in nhdsWithin (0 : ℝ) {0}ᶜ, ∃ inside out : Ray ℝ E,
      front.Refracts (downRay T h start energy extra) inside n ∧ back.Refracts inside out 1 ∧
      out.CrossesAxis T (z h)

end Tracer
