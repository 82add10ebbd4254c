import Mathlib.Probability.Moments.Variance

/-! How far a weighted count of independent events is from what is expected. -/

namespace Tracer

open MeasureTheory ProbabilityTheory

variable {Ω : Type _} [MeasurableSpace Ω] {μ : Measure Ω} [IsProbabilityMeasure μ]

theorem unequal_events {B : Nat → Set Ω} (hB : ∀ i, MeasurableSet (B i)) {s : Nat → ENNReal} (h1 : ∀ i, μ (B i) = s i)
    (h2 : ∀ i j, i ≠ j → μ (B i ∩ B j) = s i * s j) (e : Nat → ℝ) (N : Nat) {ε : ℝ} (hε : 0 < ε) :
    μ {ω | ε ≤ |∑ i ∈ Finset.range N, e i * (B i).indicator (fun _ => 1) ω - ∑ i ∈ Finset.range N, (s i).toReal * e i|} ≤
      ENNReal.ofReal ((∑ i ∈ Finset.range N, (s i).toReal * (1 - (s i).toReal) * e i ^ 2) / ε ^ 2) := by
  have hL : ∀ i, MemLp ((B i).indicator fun _ => (1 : ℝ)) 2 μ := fun i => memLp_indicator_const 2 (hB i) 1 (Or.inr (measure_ne_top μ _))
  have hX : ∀ i, MemLp (fun ω => e i * (B i).indicator (fun _ => (1 : ℝ)) ω) 2 μ := fun i => (hL i).const_mul (e i)
  have hint : ∀ A : Set Ω, MeasurableSet A → ∫ ω, A.indicator (fun _ => (1 : ℝ)) ω ∂μ = (μ A).toReal := by
    intro A hA
    have := integral_indicator_one (μ := μ) hA
    exact this
  have hmean : ∀ i, ∫ ω, (B i).indicator (fun _ => (1 : ℝ)) ω ∂μ = (s i).toReal := fun i => by rw [hint _ (hB i), h1]
  have hmul : ∀ i j, ((B i).indicator fun _ => (1 : ℝ)) * ((B j).indicator fun _ => (1 : ℝ)) = (B i ∩ B j).indicator fun _ => (1 : ℝ) := by
    intro i j
    funext ω
    by_cases hi : ω ∈ B i <;> by_cases hj : ω ∈ B j <;> simp [hi, hj]
  have hcov : ∀ i j, cov[(B i).indicator fun _ => (1 : ℝ), (B j).indicator fun _ => (1 : ℝ); μ] =
      if i = j then (s i).toReal * (1 - (s i).toReal) else 0 := by
    intro i j
    rw [covariance_eq_sub (hL i) (hL j), hmean, hmean, hmul, hint _ ((hB i).inter (hB j))]
    split
    · next h => subst h; rw [Set.inter_self, h1]; ring
    · next h => rw [h2 i j h, ENNReal.toReal_mul]; ring
  have hvar : variance (fun ω => ∑ i ∈ Finset.range N, e i * (B i).indicator (fun _ => (1 : ℝ)) ω) μ =
      ∑ i ∈ Finset.range N, (s i).toReal * (1 - (s i).toReal) * e i ^ 2 := by
    rw [variance_fun_sum' fun i _ => hX i]
    apply Finset.sum_congr rfl
    intro i hi
    simp_rw [covariance_const_mul_left, covariance_const_mul_right, hcov]
    rw [Finset.sum_eq_single_of_mem i hi]
    · rw [if_pos rfl]; ring
    · intro j _ hj
      rw [if_neg (Ne.symm hj)]; ring
  have hexp : ∫ ω, ∑ i ∈ Finset.range N, e i * (B i).indicator (fun _ => (1 : ℝ)) ω ∂μ = ∑ i ∈ Finset.range N, (s i).toReal * e i := by
    rw [integral_finsetSum _ fun i _ => (hX i).integrable (by norm_num)]
    apply Finset.sum_congr rfl
    intro i _
    rw [integral_const_mul, hmean]
    ring
  have h := meas_ge_le_variance_div_sq (memLp_finsetSum _ fun i _ => hX i) hε (μ := μ) (X := fun ω => ∑ i ∈ Finset.range N, e i * (B i).indicator (fun _ => (1 : ℝ)) ω)
  rw [hexp, hvar] at h
  exact h

theorem weighted_events {B : Nat → Set Ω} (hB : ∀ i, MeasurableSet (B i)) {s : ENNReal} (h1 : ∀ i, μ (B i) = s)
    (h2 : ∀ i j, i ≠ j → μ (B i ∩ B j) = s * s) (e : Nat → ℝ) (N : Nat) {ε : ℝ} (hε : 0 < ε) :
    μ {ω | ε ≤ |∑ i ∈ Finset.range N, e i * (B i).indicator (fun _ => 1) ω - s.toReal * ∑ i ∈ Finset.range N, e i|} ≤
      ENNReal.ofReal ((s.toReal * (1 - s.toReal) * ∑ i ∈ Finset.range N, e i ^ 2) / ε ^ 2) := by
  have h := unequal_events hB (s := fun _ => s) h1 h2 e N hε
  rw [← Finset.mul_sum, ← Finset.mul_sum] at h
  exact h

end Tracer
