import Verif.Model.Engine
import Mathlib.Algebra.Order.Archimedean.Real.Basic
import Mathlib.Algebra.Order.Floor.Ring
import Mathlib.Algebra.Group.Int.Even

/-!
The mirror images in a kaleidoscope: parallel mirrors at `-w/2` and `w/2` tile the line with cells of width `w`, every second one turned
round; light that is reflected to and fro between them goes straight through the tiling.
-/

namespace Tracer

/-- The number of the cell in which a coordinate lies.  Cell 0 is the real one, between `-w/2` and `w/2`; as many mirrors as the number says
(without sign) lie between it and the cell. -/
noncomputable def cellOf (w u : ℝ) : ℤ := ⌊u / w + 1 / 2⌋

/-- The point in the real cell whose mirror image is at the coordinate `u`. -/
noncomputable def foldInto (w u : ℝ) : ℝ := if Even (cellOf w u) then u - cellOf w u * w else cellOf w u * w - u

/-- The coordinate is where two cells meet. -/
def OnEdge (w u : ℝ) : Prop := ∃ k : ℤ, u = (k + 1 / 2) * w

/-- Light that is at the point `p` between the walls of a tube `|X| < x/2`, `|Y| < y/2`, `lo ≤ Z ≤ hi`, on its way up along `d`, would reach the
plane `Z = hi` after the parameter `T` if it went straight on.
* It goes along no wall by less than 1e-10, unless it is parallel to it.
* It meets no two walls, and no wall and the plane, within the parameter 1e-6 of each other. -/
structure Enters (x y lo hi : ℝ) (p d : V3 ℝ) (T : ℝ) : Prop where
  insideX : |p.x| < x / 2
  insideY : |p.y| < y / 2
  low : lo ≤ p.z
  up : 1 / 10 ^ 10 < d.z
  reach : p.z + T * d.z = hi
  far : 1 / 10 ^ 6 < T
  steepX : d.x = 0 ∨ 1 / 10 ^ 10 < |d.x|
  steepY : d.y = 0 ∨ 1 / 10 ^ 10 < |d.y|
  slowX : 1 / 10 ^ 6 * |d.x| < x
  slowY : 1 / 10 ^ 6 * |d.y| < y
  endsX : ∀ t : ℝ, 0 < t → t ≤ T → OnEdge x (p.x + t * d.x) → 1 / 10 ^ 6 < t ∧ t + 1 / 10 ^ 6 < T
  endsY : ∀ t : ℝ, 0 < t → t ≤ T → OnEdge y (p.y + t * d.y) → 1 / 10 ^ 6 < t ∧ t + 1 / 10 ^ 6 < T
  apart : ∀ t t' : ℝ, 0 < t → t ≤ T → 0 < t' → t' ≤ T → OnEdge x (p.x + t * d.x) → OnEdge y (p.y + t' * d.y) → 1 / 10 ^ 6 < |t - t'|

/-- The ray begins between the walls of the tube, or comes in at its lower end, and goes on as said above. -/
def GoesIn (x y lo hi : ℝ) (v d : V3 ℝ) : Prop :=
  ∃ s T : ℝ, 0 ≤ s ∧ (s = 0 ∨ (v + s • d).z = lo) ∧ Enters x y lo hi (v + s • d) d T

/-- Where the straight line from `v` along `d` crosses the plane `Z = hi`. -/
noncomputable def crossing (hi : ℝ) (v d : V3 ℝ) : V3 ℝ := v + ((hi - v.z) / d.z) • d

/-- The number of mirrors between the real cell and the image of it in which the point lies. -/
noncomputable def reflections (x y : ℝ) (u : V3 ℝ) : Nat := (cellOf x u.x).natAbs + (cellOf y u.y).natAbs

/-- The point of the real cell whose image is `u`. -/
noncomputable def foldPoint (x y : ℝ) (u : V3 ℝ) : V3 ℝ := ⟨foldInto x u.x, foldInto y u.y, u.z⟩

/-- The ray does not meet the surface, or only where it began. -/
def Surf.MissedBy {σ E : Type _} (s : Surf σ ℝ E) (r : Ray ℝ E) : Prop := ∀ t : ℝ, s.register [r] = [(t : WithTop ℝ)] → t ≤ selfTol

/-- The point of the paraboloid with vertex at the origin and focus (0, 0, `f`) above or below `v`. -/
noncomputable def dishPoint (f : ℝ) (v : V3 ℝ) : V3 ℝ := ⟨v.x, v.y, (v.x ^ 2 + v.y ^ 2) / (4 * f)⟩

/-- The direction from there to the focus; the focus is as far away as the plane `Z = -f`. -/
noncomputable def dishDir (f : ℝ) (v : V3 ℝ) : V3 ℝ := (1 / ((dishPoint f v).z + f)) • ((⟨0, 0, f⟩ : V3 ℝ) - dishPoint f v)

/-- A ray that comes down parallel to the axis, passes beside the receiver (of dimensions `x`, `y`), meets the dish in the part `S` and is sent from there
through the focus into the tube.
* It starts more than 1e-6 above the dish.
* The direction to the focus is off the axis by more than the tolerance of the dish's equation. -/
structure ComesDown (x y lo hi f : ℝ) (S : V3 ℝ → Prop) (v d : V3 ℝ) : Prop where
  down : d = ⟨0, 0, -1⟩
  onDish : S (dishPoint f v)
  high : (dishPoint f v).z + 1 / 10 ^ 6 < v.z
  beside : x / 2 < |v.x| ∨ y / 2 < |v.y|
  slanted : 1 / 10 ^ 10 < ((dishDir f v).x ^ 2 + (dishDir f v).y ^ 2) / (4 * f)
  goesIn : GoesIn x y lo hi (dishPoint f v) (dishDir f v)

end Tracer
