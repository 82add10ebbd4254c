import Mathlib.Data.Real.Basic
import Verif.Spec.Rigid

/-!
# Heliostat fields with room around every plate (C119)
-/

namespace Tracer

/-- Heliostats of half diagonal `ρ` at the positions, a receiver of half diagonal `ρ'` at `loc`, and a source disk at `center`, with so much room
between them that no two heliostats reach each other, no heliostat reaches the receiver, and nothing reaches the disk, however all of them
are turned.  The receiver is a tenth of a nanometre thick (`one_sided_receiver`), and 1e-5 is kept free around the disk. -/
structure OpenField (positions : List (V3 ℝ)) (ρ ρ' : ℝ) (loc center : V3 ℝ) (radius : ℝ) : Prop where
  heliostats : ∀ (i j : Nat) (p q : V3 ℝ), i ≠ j → positions[i]? = some p → positions[j]? = some q → (2 * ρ) ^ 2 < V3.dist2 p q
  receiver : ∀ p ∈ positions, (ρ + ρ' + 1 / 10 ^ 10) ^ 2 < V3.dist2 p loc
  disk : ∀ p ∈ positions, (radius + ρ + 1 / 10 ^ 5) ^ 2 < V3.dist2 center p
  diskReceiver : (radius + ρ' + 1 / 10 ^ 5) ^ 2 < V3.dist2 center loc

end Tracer
