import Verif.Model.Tower
import Verif.Spec.Heliostats
import Verif.Spec.Boundary

/-! Light on its way from the sun to a tower. -/

namespace Tracer

/-- No point of `S` lies on the segment from `p` to `q`. -/
def Clear (S : V3 ℝ → Prop) (p q : V3 ℝ) : Prop := ∀ u : ℝ, 0 ≤ u → u ≤ 1 → ¬ S (p + u • (q - p))

/-- The ray comes from the sun and passes the point `p`, by more than 1e-6 after its start. -/
def Arrives {E : Type _} (sun : V3 ℝ) (r : Ray ℝ E) (p : V3 ℝ) : Prop :=
  r.dir = -sun ∧ ∃ t : ℝ, 1 / 10 ^ 6 < t ∧ r.vertex + t • r.dir = p

/-- Rays `b` of the sun on the centres of heliostats at `positions`, of dimensions `W`, `L`, aimed at the point at height `H` on the tower,
and a receiver of dimensions `x`, `y` put at `F`.
* The receiver's centre is the aim point.
* There is one ray for each heliostat; what the heliostat leaves of its energy is above the threshold of the trace.
* No heliostat is at the aim point or straight between it and the sun, and all of them see the receiver from its front.
* No heliostat and neither side of the receiver (they are 1e-10 apart) is in the way of the rays, before or after they reach their heliostats. -/
structure Delivery {E : Type _} (positions : List (V3 ℝ)) (W L absorpt x y az el H : ℝ) (F : Tf ℝ) (b : Bundle ℝ E) (minE : ℝ) : Prop where
  rigid : F.Rigid
  loc : F.loc = ⟨0, 0, H⟩
  length : b.length = positions.length
  arrive : ∀ (i : Nat) r p, b[i]? = some r → positions[i]? = some p → Arrives (solarVector az el) r p ∧ minE < r.energy * (1 - absorpt)
  place : ∀ p ∈ positions, (1 / 10 ^ 6) ^ 2 < V3.dist2 ⟨0, 0, H⟩ p ∧
    (2 / 10 ^ 10) ^ 2 < V3.dist2 (toward p ⟨0, 0, H⟩) (-solarVector az el) ∧
    1 / 10 ^ 10 < V3.dot (toward ⟨0, 0, H⟩ p) F.rot.c3
  clear : ∀ (i j : Nat) r p q, i ≠ j → b[i]? = some r → positions[i]? = some p → positions[j]? = some q →
    Clear (Placed (aimTransform az el H q) (rectXY W L)) r.vertex p ∧ Clear (Placed (aimTransform az el H q) (rectXY W L)) p ⟨0, 0, H⟩
  past : ∀ (i : Nat) r p, b[i]? = some r → positions[i]? = some p → Clear (Placed F (rectXY x y)) r.vertex p ∧
    Clear (Placed (F * ⟨1, ⟨0, 0, -(1 / 10 ^ 10)⟩⟩) (rectXY x y)) r.vertex p

/-- Heliostats on the ground, in front of a tower of height `H`, no farther from it than `k` times the height, and far enough from each
other: if `ρ` is half the diagonal of a heliostat, none of them reaches the last unit of length before another one's centre, or the way
from there to the top of the tower. -/
structure Spread (positions : List (V3 ℝ)) (H ρ k : ℝ) : Prop where
  ground : ∀ p ∈ positions, p.z = 0 ∧ H / 10 ^ 9 ≤ p.x ∧ p.x ^ 2 + p.y ^ 2 ≤ (k * H) ^ 2
  apart : ∀ (i j : Nat) p q, i ≠ j → positions[i]? = some p → positions[j]? = some q →
    (1 + ρ) ^ 2 < V3.dist2 p q ∧ (ρ * k + ρ) ^ 2 < V3.dist2 p q

end Tracer
