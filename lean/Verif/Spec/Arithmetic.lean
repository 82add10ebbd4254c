import Mathlib.Analysis.Real.Sqrt

/-! What is used of a binary floating-point arithmetic with correct rounding. -/

namespace Tracer

/-- `fl` rounds a real number to one of the arithmetic; the numbers of the arithmetic are those with `fl x = x`. -/
structure Arithmetic (fl : ℝ → ℝ) : Prop where
  mono : ∀ {x y}, x ≤ y → fl x ≤ fl y
  idem : ∀ x, fl (fl x) = fl x
  zero : fl 0 = 0
  neg : ∀ {x}, fl x = x → fl (-x) = -x
  twice : ∀ {x}, fl x = x → fl (2 * x) = 2 * x
  root : ∀ {x}, fl x = x → fl √(fl (x ^ 2)) = |x|

end Tracer
