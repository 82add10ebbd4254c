import Verif.Spec.Tower
import Verif.Spec.Sun
import Verif.Spec.Images

/-! Heliostats that nothing shades or blocks (C120). -/

namespace Tracer

/-- `P` is a point of the heliostat at which a ray arrives that starts at `S` on the disk, along a direction `u` of the cone of the sun. -/
def Falls (center direction : V3 ℝ) (radius ang : ℝ) (frame : Tf ℝ) (W L : ℝ) (S u P : V3 ℝ) : Prop :=
  V3.dist2 center S ≤ radius ^ 2 ∧ InCone direction ang u ∧ (∃ t : ℝ, 1 / 10 ^ 6 < t ∧ P = S + t • u) ∧ Placed frame (rectXY W L) P

/-- Heliostats of dimensions `W`, `L` at the positions, aimed at the height `H`, and a receiver of dimensions `x`, `y` put at `F`, under a sun of half angle `ang`.
* The sun falls on the front of every heliostat.
* No other heliostat and neither side of the receiver is in the way of the light to a heliostat.
* The light that is reflected at any point of a heliostat arrives on the receiver, from its front, and no other heliostat is in the way. -/
structure Unobstructed (positions : List (V3 ℝ)) (W L x y az el H : ℝ) (F : Tf ℝ) (center direction : V3 ℝ) (radius ang : ℝ) : Prop where
  front : ∀ p ∈ positions, ∀ u, InCone direction ang u → V3.dot u (aimTransform az el H p).rot.c3 < 0
  before : ∀ (i j : Nat) p q S u P, i ≠ j → positions[i]? = some p → positions[j]? = some q →
    Falls center direction radius ang (aimTransform az el H p) W L S u P → Clear (Placed (aimTransform az el H q) (rectXY W L)) S P
  past : ∀ p ∈ positions, ∀ S u P, Falls center direction radius ang (aimTransform az el H p) W L S u P →
    Clear (Placed F (rectXY x y)) S P ∧ Clear (Placed (F * ⟨1, ⟨0, 0, -(1 / 10 ^ 10)⟩⟩) (rectXY x y)) S P
  after : ∀ (i : Nat) p S u P, positions[i]? = some p → Falls center direction radius ang (aimTransform az el H p) W L S u P →
    ∃ (v : V3 ℝ) (d : ℝ), v = turnedBy (aimTransform az el H p).rot.c3 u ∧ 1 / 10 ^ 6 < d ∧ V3.dot v F.rot.c3 < -(1 / 10 ^ 10) ∧ Placed F (rectXY x y) (P + d • v) ∧
      ∀ (j : Nat) q, i ≠ j → positions[j]? = some q → Clear (Placed (aimTransform az el H q) (rectXY W L)) P (P + d • v)

/-- No heliostat is in the way of the light that goes to the receiver at once. -/
def SunUnblocked (positions : List (V3 ℝ)) (W L x y az el H : ℝ) (F : Tf ℝ) (center direction : V3 ℝ) (radius ang : ℝ) : Prop :=
  ∀ p ∈ positions, ∀ (S u : V3 ℝ) (t : ℝ), V3.dist2 center S ≤ radius ^ 2 → InCone direction ang u → 1 / 10 ^ 6 < t → Placed F (rectXY x y) (S + t • u) →
    Clear (Placed (aimTransform az el H p) (rectXY W L)) S (S + t • u)

end Tracer
