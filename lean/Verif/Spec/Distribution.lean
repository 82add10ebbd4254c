import Verif.Spec.Sources
import Mathlib.MeasureTheory.Measure.Lebesgue.Basic

/-! What it means that random numbers are spread evenly. -/

namespace Tracer

open Real MeasureTheory

/-- The part of the area of `whole` that `part` covers: the probability that a point drawn evenly from `whole` is in `part`. -/
noncomputable def fraction (whole part : Set (ℝ × ℝ)) : ENNReal := volume (part ∩ whole) / volume whole

/-- Pairs of a draw from [0, 1) and an angle from [0, 2 pi). -/
def draws : Set (ℝ × ℝ) := {d | (0 ≤ d.1 ∧ d.1 < 1) ∧ 0 ≤ d.2 ∧ d.2 < 2 * π}

/-- The disk of radius `R` in the plane, without its rim. -/
def disk (R : ℝ) : Set (ℝ × ℝ) := {p | p.1 ^ 2 + p.2 ^ 2 < R ^ 2}

/-- The same pairs the other way round: an angle first. -/
def angleDraws : Set (ℝ × ℝ) := {d | (0 ≤ d.1 ∧ d.1 < 2 * π) ∧ 0 ≤ d.2 ∧ d.2 < 1}

/-- Drawn evenly from `whole`, the points `f d` come out evenly spread over `target`: each part of it gets the share of the
draws that is its share of the area. -/
def EvenOver (whole : Set (ℝ × ℝ)) (f : ℝ × ℝ → ℝ × ℝ) (target : Set (ℝ × ℝ)) : Prop :=
  ∀ A, MeasurableSet A → fraction whole (f ⁻¹' A) = fraction target A

end Tracer
