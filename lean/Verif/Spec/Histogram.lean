import Verif.Model.Ray
import Mathlib.Algebra.Order.Field.Basic

/-! Cells of a histogram over an interval. -/

namespace Tracer

variable {K : Type _} [Field K] [LinearOrder K]

/-- `x` is in the `i`-th of `n` equal parts of the interval from `-r` to `r`, each part with its left end only, and the last one with both. -/
def InPart (n : Nat) (r : K) (i : Nat) (x : K) : Prop :=
  -r + i * (2 * r / n) ≤ x ∧ (x < -r + (i + 1) * (2 * r / n) ∨ (i + 1 = n ∧ x = r))

/-- The sum of all cells. -/
def cellTotal (H : List (List K)) : K := (H.map List.sum).sum

end Tracer
