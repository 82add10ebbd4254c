import Verif.Spec.Specular
import Verif.Spec.Optics
import Verif.Model.Scene

/-!
A pane of glass: what a user builds, and the rays light is split into between two parallel faces, by the textbook.
-/

namespace Tracer

variable {E σ : Type _}

/-- `Assembly(objects=[AssembledObject(surfs=[Surface(RectPlateGM(..), RefractiveHomogenous(n1, n2)),
Surface(RectPlateGM(..), RefractiveHomogenous(n1, n2), location=(0, 0, -h))], transform=T)])`: two plates, the second one `h` below the
first along the Z axis of the object; `g` are the geometry managers of the plates. -/
noncomputable def windowAsm (g : Geometry ℝ E) (n1 n2 h : ℝ) (T : Tf ℝ) (junk : M3 ℝ) : SceneAsm σ ℝ E :=
  Asm.new [ObjNode.new [Surface.new g (refractiveHomogenous n1 n2) 1, Surface.new g (refractiveHomogenous n1 n2) ⟨1, ⟨0, 0, -h⟩⟩] T
    (Obj.defaultOwn, Obj.defaultNext 2)] [] 0 1 junk

/-- The reflectance of unpolarized light by Fresnel's formulas, for the cosines `c` and `c'` of the angles on the two sides. -/
noncomputable def fresnelMean (n1 n2 c c' : ℝ) : ℝ :=
  (((n1 * c - n2 * c') / (n1 * c + n2 * c')) ^ 2 + ((n1 * c' - n2 * c) / (n1 * c' + n2 * c)) ^ 2) / 2

/-- The reflectance of the faces for the light of a source ray `r` that goes on in the direction `e`. -/
noncomputable def paneR (n1 n2 : ℝ) (m e : V3 ℝ) (r : Ray ℝ E) : ℝ := fresnelMean n1 n2 |V3.dot r.dir m| |V3.dot e m|

/-- The direction with the component along the unit vector `m` reversed. -/
noncomputable def flipAlong (m v : V3 ℝ) : V3 ℝ := v - (2 * V3.dot v m) • m

/-- The point is above or below the plate: its local coordinates are within the half widths. -/
def OverPlate (T : Tf ℝ) (width height : ℝ) (p : V3 ℝ) : Prop :=
  |V3.dot (p - T.loc) T.rot.c1| ≤ width / 2 ∧ |V3.dot (p - T.loc) T.rot.c2| ≤ height / 2

/-- Where light that enters at `p` in the direction `e` meets the faces of a pane of thickness `h` with the upward normal `m`: on each
of its passes it advances sideways by the same step, and it is at the lower face after every odd number of passes. -/
noncomputable def panePoint (m p e : V3 ℝ) (h : ℝ) (j : ℕ) : V3 ℝ :=
  p + ((j : ℝ) * (h / |V3.dot e m|)) • (e - V3.dot e m • m) - (if Odd j then h else 0) • m

/-- Light on its `k`-th pass through the pane (`k ≥ 1`), for the source ray `r` that enters at `p` in the direction `e`, where `R` is the
reflectance of the faces. -/
noncomputable def paneInside (n2 h R : ℝ) (m p e : V3 ℝ) (r : Ray ℝ E) (k : ℕ) : Ray ℝ E :=
  { r with
    vertex := panePoint m p e h (k - 1)
    dir := if Odd k then e else flipAlong m e
    energy := r.energy * (1 - R) * R ^ (k - 1)
    ref := some n2
    parent := 0 }

/-- The light that leaves the pane where its `k`-th pass begins: at the upper face, reflected light or light from within, if `k` is odd, at
the lower face if `k` is even. -/
noncomputable def paneOutside (h R : ℝ) (m p e : V3 ℝ) (r : Ray ℝ E) (k : ℕ) : Ray ℝ E :=
  { r with
    vertex := panePoint m p e h (k - 1)
    dir := if Odd k then flipAlong m r.dir else r.dir
    energy := if k = 1 then r.energy * R else r.energy * (1 - R) ^ 2 * R ^ (k - 2)
    parent := 0 }

open Classical in
/-- The energy of the rays of a generation in the medium `n1`, outside the pane, that go to the side of `v`. -/
noncomputable def leavingEnergy (n1 : ℝ) (v : V3 ℝ) (lvl : Bundle ℝ E) : ℝ :=
  ((lvl.filter fun q => decide (q.ref = some n1 ∧ 0 < V3.dot q.dir v)).map Ray.energy).sum

/-- The source ray `r`, in the medium `n1`, comes down on the upper face of the pane, enters it in the direction `e` at the parameter `t`,
and its first `k` crossings of the faces are on the plates. -/
structure EntersPane (T : Tf ℝ) (width height h n1 n2 : ℝ) (r : Ray ℝ E) (t : ℝ) (e : V3 ℝ) (k : ℕ) : Prop where
  unit : r.dir.IsUnit
  medium : r.ref = some n1
  down : V3.dot r.dir T.rot.c3 < -(1 / 10 ^ 10)
  start : 1 / 10 ^ 6 < t
  reach : V3.dot (r.at t - T.loc) T.rot.c3 = 0
  snell : Snell n1 n2 r.dir T.rot.c3 e
  inside : V3.dot e T.rot.c3 < -(1 / 10 ^ 10)
  thick : 1 / 10 ^ 6 < h / |V3.dot e T.rot.c3|
  over : ∀ j < k, OverPlate T width height (panePoint T.rot.c3 (r.at t) e h j)

end Tracer
