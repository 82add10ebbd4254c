import Verif.Spec.Distribution
import Verif.Spec.Cavity
import Verif.Model.Refraction

/-!
A hollow sphere that is white inside: places that are spread evenly over a sphere, and a generator of random numbers that is part of the state of
the optics managers.
-/

namespace Tracer

open Real MeasureTheory

/-- A point given by its three coordinates. -/
def V3.ofFin (p : Fin 3 → ℝ) : V3 ℝ := ⟨p 0, p 1, p 2⟩

/-- The ball of radius 1 about the origin. -/
def unitBall : Set (Fin 3 → ℝ) := {p | p 0 ^ 2 + p 1 ^ 2 + p 2 ^ 2 < 1}

/-- The set of points can be measured. -/
def Measured (A : Set (V3 ℝ)) : Prop := MeasurableSet {p | V3.ofFin p ∈ A}

/-- The part of the sphere of radius `R` about `c` that `A` covers: the part of a ball that is seen behind it from the centre. -/
noncomputable def sphereShare (c : V3 ℝ) (R : ℝ) (A : Set (V3 ℝ)) : ENNReal :=
  volume {p | p ∈ unitBall ∧ c + (R / √(p 0 ^ 2 + p 1 ^ 2 + p 2 ^ 2)) • V3.ofFin p ∈ A} / volume unitBall

/-- `draw` takes the next numbers of the sequence `ξ`; how many were taken is read by `taken`.  Drawing numbers does not touch the receiver's memory,
which is read by `get` and written by `set`, nor the other way round. -/
structure DrawsFrom {σ : Type _} (ξ : Nat → ℝ × ℝ) (taken : σ → Nat) (draw : Nat → σ → List (ℝ × ℝ) × σ) (get : σ → Account ℝ)
    (set : Account ℝ → σ → σ) : Prop where
  next : ∀ n w, (draw n w).1 = (List.range n).map fun j => ξ (taken w + j)
  counted : ∀ n w, taken (draw n w).2 = taken w + n
  memory : ∀ n w, get (draw n w).2 = get w
  written : ∀ acc w, get (set acc w) = acc
  position : ∀ acc w, taken (set acc w) = taken w

end Tracer
