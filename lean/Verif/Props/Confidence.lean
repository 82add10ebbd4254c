import Verif.Props.Cost
import Verif.Props.SunCone
import Mathlib.Probability.Moments.SubGaussian

/-!
# How many rays are enough (C119)

C113 bounds the probability of an error through the variance of what a single ray brings, which a user does not know.  Here the bound depends
on the power of the source only, and falls exponentially with the number of rays.
-/

namespace Tracer

open MeasureTheory ProbabilityTheory Filter Real

variable {E σ δ Ω ι : Type _}

/-- Hoeffding's inequality for the mean of independent numbers between 0 and `B` with the same distribution. -/
theorem mean_sure [MeasurableSpace Ω] {μ : Measure Ω} [IsProbabilityMeasure μ] {X : Nat → Ω → ℝ} (hm : ∀ i, Measurable (X i))
    (hind : iIndepFun X μ) (hid : ∀ i, ∫ ω, X i ω ∂μ = ∫ ω, X 0 ω ∂μ) {B : ℝ} (hB : ∀ i, ∀ᵐ ω ∂μ, 0 ≤ X i ω ∧ X i ω ≤ B) {n : Nat} (hn : 0 < n)
    {ε : ℝ} (hε : 0 ≤ ε) :
    μ.real {ω | ε ≤ |(∑ i ∈ Finset.range n, X i ω) / n - ∫ ω, X 0 ω ∂μ|} ≤ 2 * Real.exp (-(2 * n * ε ^ 2 / B ^ 2)) := by
  have hn' : (0 : ℝ) < n := by exact_mod_cast hn
  set e := ∫ ω, X 0 ω ∂μ with he
  have sub : ∀ i, HasSubgaussianMGF (fun ω => X i ω - e) ((‖B - 0‖₊ / 2) ^ 2) μ := by
    intro i
    have := hasSubgaussianMGF_of_mem_Icc (X := X i) (a := 0) (b := B) (μ := μ) (hm i).aemeasurable (hB i)
    rwa [hid i] at this
  have hc : (((‖B - 0‖₊ / 2) ^ 2 : NNReal) : ℝ) = B ^ 2 / 4 := by
    push_cast
    rw [sub_zero, div_pow, Real.norm_eq_abs, sq_abs]
    norm_num
  have hi : iIndepFun (fun i ω => X i ω - e) μ := hind.comp (fun _ x => x - e) fun _ => measurable_id.sub_const e
  have hi' : iIndepFun (fun i ω => -(X i ω - e)) μ := hind.comp (fun _ x => -(x - e)) fun _ => (measurable_id.sub_const e).neg
  have h1 := HasSubgaussianMGF.measure_sum_range_ge_le_of_iIndepFun hi (n := n) (fun i _ => sub i) (ε := n * ε) (by positivity)
  have h2 := HasSubgaussianMGF.measure_sum_range_ge_le_of_iIndepFun hi' (n := n) (fun i _ => (sub i).neg) (ε := n * ε) (by positivity)
  rw [hc] at h1 h2
  have ex : -(n * ε) ^ 2 / (2 * n * (B ^ 2 / 4)) = -(2 * n * ε ^ 2 / B ^ 2) := by
    by_cases hB0 : B = 0
    · simp [hB0]
    · field_simp
      ring
  rw [ex] at h1 h2
  have hsub : {ω | ε ≤ |(∑ i ∈ Finset.range n, X i ω) / n - e|} ⊆
      {ω | n * ε ≤ ∑ i ∈ Finset.range n, (X i ω - e)} ∪ {ω | n * ε ≤ ∑ i ∈ Finset.range n, -(X i ω - e)} := by
    intro ω hω
    have hω : ε ≤ |(∑ i ∈ Finset.range n, X i ω) / n - e| := hω
    have es : ∑ i ∈ Finset.range n, (X i ω - e) = n * ((∑ i ∈ Finset.range n, X i ω) / n - e) := by
      rw [Finset.sum_sub_distrib, Finset.sum_const, Finset.card_range, nsmul_eq_mul]
      field_simp
    rcases le_abs.1 hω with h | h
    · left
      show n * ε ≤ ∑ i ∈ Finset.range n, (X i ω - e)
      rw [es]
      exact mul_le_mul_of_nonneg_left h hn'.le
    · right
      show n * ε ≤ ∑ i ∈ Finset.range n, -(X i ω - e)
      rw [Finset.sum_neg_distrib, es, ← mul_neg]
      exact mul_le_mul_of_nonneg_left h hn'.le
  calc _ ≤ _ := measureReal_mono hsub
    _ ≤ _ := measureReal_union_le _ _
    _ ≤ _ := by linarith

section
variable [MeasurableSpace δ] [MeasurableSpace Ω] {μ : Measure Ω} [IsProbabilityMeasure μ]
  {objs : List (Obj σ ℝ E)} {w : σ} {get : σ → Account ℝ} {a ρ B m : ℝ} {reps : Nat}
  (h : CountedScene ρ objs w get a) {ray : δ → Ray ℝ E} (hray : RayM ray) (hB : ∀ d, 0 ≤ (ray d).energy ∧ (ray d).energy ≤ B)
  (hset : ∀ d, GoingsSettled Surf.single (Surf.alone w) (plainPolicy objs) (sites objs) m [ray d] reps)
  {D : Nat → Ω → δ} (hun : ∀ᵐ ω ∂μ, GoingsUntied Surf.single (Surf.alone w) (plainPolicy objs) (sites objs) m [ray (D 0 ω)] reps)
  (hD : ∀ i, Measurable (D i)) (hind : iIndepFun D μ) (hid : ∀ i, IdentDistrib (D i) (D 0) μ μ)
include h hray hB hset hun hD hind hid

/-- C119: the probability that the report with `n` rays is off by `ε` or more falls exponentially with `n`.  `B` is the power of the source; the
bound is the same for all scenes.  Ties need only have probability zero. -/
theorem C119_sure {φ : V3 ℝ → ℝ} (hφ : Weights φ) (hφ1 : ∀ p, 0 ≤ φ p ∧ φ p ≤ 1)
    {power : δ → ℝ} (hpow : ∀ d, Collects objs w get φ [ray d] reps m (power d))
    {n : Nat} (hn : 0 < n) {got : Ω → ℝ} (hgot : ∀ ω, Collects objs w get φ (drawnBundle ray (fun i => D i ω) n) reps (m / n) (got ω))
    {ε : ℝ} (hε : 0 ≤ ε) :
    μ.real {ω | ε ≤ |got ω - ∫ ω, power (D 0 ω) ∂μ|} ≤ 2 * Real.exp (-(2 * n * ε ^ 2 / B ^ 2)) := by
  have hm := power_measurable h.watched hφ hray hset hpow
  have hb : ∀ᵐ ω ∂μ, 0 ≤ power (D 0 ω) ∧ power (D 0 ω) ≤ B := by
    filter_upwards [hun] with ω hω
    have := C114_bounds h hφ1 (b := [ray (D 0 ω)]) (by intro r hr; rw [List.mem_singleton] at hr; rw [hr]; exact (hB _).1)
      (by intro r hr; rw [List.mem_singleton] at hr; rw [hr]; exact hset _) (by intro r hr; rw [List.mem_singleton] at hr; rw [hr]; exact hω) (hpow _)
    simp only [List.map_cons, List.map_nil, List.sum_cons, List.sum_nil, add_zero] at this
    exact ⟨this.1, this.2.trans (hB _).2⟩
  have := mean_sure (X := fun i ω => power (D i ω)) (fun i => hm.comp (hD i)) (hind.comp (fun _ => power) fun _ => hm)
    (fun i => ((hid i).comp hm).integral_eq)
    (fun i => ((hid i).comp hm).symm.ae_snd (p := fun x => 0 ≤ x ∧ x ≤ B) measurableSet_Icc hb) hn hε
  convert this using 5 with ω
  rw [C113_average h.watched ray (fun i => D i ω) hset hpow hn (hgot ω)]

/-- C119: how many rays are enough.  If a map of the flux is made of the cells of `cells`, and there are at least
`B^2/(2 ε^2) log(2 N/η)` rays for `N` cells, then with a probability of at least `1 - η` every cell is right within `ε`. -/
theorem C119_enough (cells : Finset ι) {φ : ι → V3 ℝ → ℝ} (hφ : ∀ c ∈ cells, Weights (φ c)) (hφ1 : ∀ c ∈ cells, ∀ p, 0 ≤ φ c p ∧ φ c p ≤ 1)
    {power : ι → δ → ℝ} (hpow : ∀ c ∈ cells, ∀ d, Collects objs w get (φ c) [ray d] reps m (power c d))
    {n : Nat} (hn : 0 < n) {got : ι → Ω → ℝ}
    (hgot : ∀ c ∈ cells, ∀ ω, Collects objs w get (φ c) (drawnBundle ray (fun i => D i ω) n) reps (m / n) (got c ω))
    {ε η : ℝ} (hε : 0 < ε) (hη : 0 < η) (hBpos : 0 < B) (henough : B ^ 2 / (2 * ε ^ 2) * Real.log (2 * cells.card / η) ≤ n) :
    μ.real {ω | ∃ c ∈ cells, ε ≤ |got c ω - ∫ ω, power c (D 0 ω) ∂μ|} ≤ η := by
  rcases cells.eq_empty_or_nonempty with rfl | hne
  · simp [hη.le]
  have hN : (0 : ℝ) < cells.card := by exact_mod_cast hne.card_pos
  have e : {ω | ∃ c ∈ cells, ε ≤ |got c ω - ∫ ω, power c (D 0 ω) ∂μ|} =
      ⋃ c ∈ cells, {ω | ε ≤ |got c ω - ∫ ω, power c (D 0 ω) ∂μ|} := by
    ext ω
    simp
  rw [e]
  refine (measureReal_biUnion_finset_le cells _).trans ?_
  refine (Finset.sum_le_sum fun c hc => C119_sure h hray hB hset hun hD hind hid (hφ c hc) (hφ1 c hc) (hpow c hc) hn (hgot c hc) hε.le).trans ?_
  rw [Finset.sum_const, nsmul_eq_mul]
  have hl : Real.log (2 * cells.card / η) ≤ 2 * n * ε ^ 2 / B ^ 2 := by
    rw [le_div_iff₀ (by positivity)]
    have := mul_le_mul_of_nonneg_left henough (by positivity : 0 ≤ 2 * ε ^ 2)
    calc _ = 2 * ε ^ 2 * (B ^ 2 / (2 * ε ^ 2) * Real.log (2 * cells.card / η)) := by field_simp
      _ ≤ _ := this
      _ = _ := by ring
  have hx : Real.exp (-(2 * n * ε ^ 2 / B ^ 2)) ≤ η / (2 * cells.card) := by
    rw [← Real.le_log_iff_exp_le (by positivity)]
    have : Real.log (η / (2 * cells.card)) = -Real.log (2 * cells.card / η) := by rw [← Real.log_inv, inv_div]
    rw [this]
    linarith
  calc _ ≤ cells.card * (2 * (η / (2 * cells.card))) := by gcongr
    _ = η := by field_simp
end

/-- C119: a plate under the sun.  The receiver is a rectangular plate of absorptivity `a`, lit as in C113_sun_plate; the probability that the
power reported in the part `S` of it is off by `ε` or more from `a` times the flux times the area times the cosine falls exponentially with the
number of rays. -/
theorem C119_sun_plate [MeasurableSpace Ω] {μ : Measure Ω} [IsProbabilityMeasure μ] {center direction : V3 ℝ} {F : Tf ℝ} {S : Set (ℝ × ℝ)} {ang : ℝ}
    {width height radius flux a minE : ℝ} {g : Geometry ℝ E}
    {get : σ → Account ℝ} {set : Account ℝ → σ → σ} (hgs : ∀ acc w, get (set acc w) = acc) {w : σ} (h0 : get w = Account.reset)
    (hg : rectPlateGM width height = .ok g) (hS : MeasurableSet S) (hF : F.Rigid) (hd : direction.IsUnit) (hR : 0 < radius)
    (hang : 0 ≤ ang ∧ ang < π / 2) (hside : OneSide direction ang F)
    (hcover : SeenFromDisk center direction radius ang F {q | |q.1| ≤ width / 2 ∧ |q.2| ≤ height / 2})
    (extra : E) {reps : Nat} (hreps : 0 < reps) (ha : 0 ≤ a) (hflux : 0 ≤ flux)
    {D : Nat → Ω → angleDraws ×ˢ draws} (hD : ∀ i, Measurable (D i)) (hind : iIndepFun D μ) (hid : ∀ i, IdentDistrib (D i) (D 0) μ μ)
    (heven : ∀ S, MeasurableSet S → μ {ω | (D 0 ω).1 ∈ S} = volume (S ∩ angleDraws ×ˢ draws) / volume (angleDraws ×ˢ draws))
    {got : Nat → Ω → ℝ}
    (hgot : ∀ n ω, 0 < n → ∃ src b, solarDisk center direction radius ang (some flux) ((List.range n).map fun i => (D i ω).1.1)
      ((List.range n).map fun i => (D i ω).1.2) = .ok src ∧ src.rays extra = .ok b ∧
      Collects (lone (mkSurf g (accountant a get set (reflective a)) F)) w get (cell F S) b reps minE (got n ω))
    {n : Nat} (hn : 0 < n) {ε : ℝ} (hε : 0 ≤ ε) :
    μ.real {ω | ε ≤ |got n ω - a * flux * (|V3.dot direction F.rot.c3| *
      (volume (S ∩ {q | |q.1| ≤ width / 2 ∧ |q.2| ≤ height / 2})).toReal)|} ≤ 2 * exp (-(2 * n * ε ^ 2 / (a * (π * radius ^ 2 * flux)) ^ 2)) := by
  obtain ⟨share, h1, h2, h3, h4⟩ := sun_average (A := {q | |q.1| ≤ width / 2 ∧ |q.2| ≤ height / 2}) hgs h0 (rect_eq hg) (.rect _ _ _ hg)
    (fun p => by unfold rectOutside toLocal; simp)
    ((measurableSet_le (absM measurable_fst) measurable_const).inter (measurableSet_le (absM measurable_snd) measurable_const)) hS hF hd hR hang
    hside hcover extra hreps hD heven hgot
  have hpos : 0 ≤ a * (π * radius ^ 2 * flux) := by positivity
  have := mean_sure (X := fun i ω => share (D i ω)) (fun i => h1.comp (hD i)) (hind.comp (fun _ => share) fun _ => h1)
    (fun i => ((hid i).comp h1).integral_eq)
    (B := a * (π * radius ^ 2 * flux)) (fun i => Eventually.of_forall fun ω => by rcases h2 (D i ω) with h | h <;> rw [h] <;> exact ⟨by positivity, by linarith⟩) hn hε
  rw [h4] at this
  simp only [h3 n _ hn]
  exact this

/-! ### Cases that meet the hypotheses -/

/-- Draws that are independent of each other, all from the same distribution. -/
theorem all_draws_exist {X : Type} [MeasurableSpace X] (ν : Measure X) [IsProbabilityMeasure ν] :
    ∃ (μ : Measure (Nat → X)) (_ : IsProbabilityMeasure μ), (∀ i, Measurable fun ω : Nat → X => ω i) ∧
      iIndepFun (fun (i : Nat) (ω : Nat → X) => ω i) μ ∧
      (∀ i, IdentDistrib (fun ω : Nat → X => ω i) (fun ω : Nat → X => ω 0) μ μ) ∧ ∀ S, MeasurableSet S → μ {ω | ω 0 ∈ S} = ν S := by
  refine ⟨Measure.infinitePi fun _ => ν, inferInstance, fun i => measurable_pi_apply i, ?_, fun i => ?_, fun S hS => ?_⟩
  · exact iIndepFun_infinitePi (P := fun _ : Nat => ν) (X := fun _ x => x) (fun _ => measurable_id)
  · refine ⟨(measurable_pi_apply i).aemeasurable, (measurable_pi_apply 0).aemeasurable, ?_⟩
    have h := fun i => (measurePreserving_eval_infinitePi (fun _ : Nat => ν) i).map_eq
    exact (h i).trans (h 0).symm
  · exact (measurePreserving_eval_infinitePi (fun _ : Nat => ν) 0).measure_preimage hS.nullMeasurableSet

namespace Examples

/-- A ray that falls from (`x`, 0, 1). -/
def fallingAt (x : ℝ) : Ray ℝ Unit := ⟨⟨x, 0, 1⟩, ⟨0, 0, -1⟩, 1, 0, none, ()⟩

theorem fallingAt_start (c a x : ℝ) : ∀ o ∈ plates c a, ∀ s ∈ o.surfs, ∀ t : ℝ, s.single (fallingAt x) = (t : WithTop ℝ) → t ≤ 1 / 10 ^ 10 ∨ 1 / 10 ^ 6 < t := by
  intro o ho s hs t ht
  simp only [plates, List.mem_cons, List.not_mem_nil, or_false] at ho
  rcases ho with rfl | rfl <;> rw [List.mem_singleton] at hs <;> subst hs
  · have := flatParam_level (c := 0) (t := t) (v := (fallingAt x).vertex) (d := (fallingAt x).dir) (by rw [← ht]; rfl)
    norm_num [fallingAt] at this
    right
    rw [show t = 1 by linarith]
    norm_num
  · have := flatParam_level (c := 2) (t := t) (v := (fallingAt x).vertex) (d := (fallingAt x).dir) (by rw [← ht]; rfl)
    norm_num [fallingAt] at this
    left
    linarith [show (0 : ℝ) < 1 / 10 ^ 10 by norm_num]

/-- The left and the right half of the receiver. -/
noncomputable def half (c : Bool) (p : V3 ℝ) : ℝ := if (0 ≤ p.x) = (c = true) then 1 else 0

theorem half_weights (c : Bool) : Weights (half c) := by
  refine ⟨?_, 1, fun p => ?_⟩
  · have : MeasurableSet {p : ℝ × ℝ × ℝ | (0 ≤ p.1) = (c = true)} := by
      have h : MeasurableSet {p : ℝ × ℝ × ℝ | 0 ≤ p.1} := measurableSet_le measurable_const measurable_fst
      cases c
      · have e : {p : ℝ × ℝ × ℝ | (0 ≤ p.1) = (false = true)} = {p : ℝ × ℝ × ℝ | 0 ≤ p.1}ᶜ := by ext p; simp
        rw [e]
        exact h.compl
      · have e : {p : ℝ × ℝ × ℝ | (0 ≤ p.1) = (true = true)} = {p : ℝ × ℝ × ℝ | 0 ≤ p.1} := by ext p; simp
        rw [e]
        exact h
    exact Measurable.ite this measurable_const measurable_const
  · unfold half
    split <;> norm_num

/-- Light falls, for a probability `ν` of the starting points, between two plates, goes back and forth for 9 generations, and the receiver tells its left from its
right half: 1000 rays of a source of power 1 give, with a probability of at least 98 percent, both halves right within 1/10. -/
example (ν : Measure ℝ) [IsProbabilityMeasure ν] : ∃ (μ : Measure (Nat → ℝ)) (power : Bool → ℝ → ℝ) (got : Bool → (Nat → ℝ) → ℝ), IsProbabilityMeasure μ ∧
    (∀ c x, Collects (plates (1 / 4) (1 / 2)) Account.reset id (half c) [fallingAt x] 9 0 (power c x)) ∧
    (∀ c ω, Collects (plates (1 / 4) (1 / 2)) Account.reset id (half c) (drawnBundle fallingAt (fun i => ω i) 1000) 9 (0 / (1000 : Nat)) (got c ω)) ∧
    μ.real {ω | ∃ c ∈ (Finset.univ : Finset Bool), 1 / 10 ≤ |got c ω - ∫ ω, power c (ω 0) ∂μ|} ≤ 2 / 100 := by
  have h := plates_counted (c := 1 / 4) (a := 1 / 2) (by norm_num) (by norm_num)
  obtain ⟨μ, hμ, hD, hind, hid, -⟩ := all_draws_exist ν
  choose power hpow using fun c x => C113_exists h.watched (half c) [fallingAt x] 9 0
  choose got hgot using fun c (ω : Nat → ℝ) => C113_exists h.watched (half c) (drawnBundle fallingAt (fun i => ω i) 1000) 9 (0 / (1000 : Nat))
  refine ⟨μ, power, got, hμ, hpow, hgot, C119_enough h (ray := fallingAt) ?_ (B := 1) (fun x => by norm_num [fallingAt])
    (fun x => flat_settled h.plain (plates_flat _ _) (fallingAt_start _ _ x)) (Eventually.of_forall fun ω => disjoint_untied (plates_apart _ _) _) hD hind hid
    Finset.univ (fun c _ => half_weights c) (fun c _ p => by unfold half; split <;> norm_num) (fun c _ => hpow c) (by norm_num) (fun c _ => hgot c)
    (by norm_num) (by norm_num) (by norm_num) ?_⟩
  · exact ⟨⟨measurable_id, measurable_const, measurable_const⟩, ⟨measurable_const, measurable_const, measurable_const⟩, measurable_const⟩
  · have e : (2 * ((Finset.univ : Finset Bool).card : ℝ) / (2 / 100)) = 200 := by
      rw [Finset.card_univ, Fintype.card_bool]
      norm_num
    rw [e]
    have h1 : log 200 ≤ 8 * log 2 := by
      rw [show (8 : ℝ) * log 2 = log (2 ^ 8) by rw [log_pow]; norm_num]
      exact log_le_log (by norm_num) (by norm_num)
    have h2 := log_le_sub_one_of_pos (x := 2) (by norm_num)
    norm_num
    linarith

end Examples

/-- The plate of 2 by 2 of C113_sun_plate, which absorbs half the light, under a sun of radius 5, flux 1000 and half angle 30°: with `n` rays, the
half of the plate where x is not negative reports 1000, off by 100 or more with a probability of at most `2 exp(-2 n 100^2 / (12500 π)^2)`. -/
example (reps : Nat) (hreps : 0 < reps) (minE : ℝ) : ∃ (g : Geometry ℝ Unit) (μ : Measure (Nat → (angleDraws ×ˢ draws : Set ((ℝ × ℝ) × (ℝ × ℝ)))))
    (got : Nat → (Nat → (angleDraws ×ˢ draws : Set ((ℝ × ℝ) × (ℝ × ℝ)))) → ℝ), rectPlateGM 2 2 = .ok g ∧ IsProbabilityMeasure μ ∧
    (∀ n ω, 0 < n → ∃ src b, solarDisk ⟨0, 0, 5⟩ ⟨0, 0, -1⟩ 5 (π / 6) (some 1000) ((List.range n).map fun i => (ω i).1.1)
      ((List.range n).map fun i => (ω i).1.2) = .ok src ∧ src.rays () = .ok b ∧
      Collects (lone (mkSurf g (accountant (1 / 2) id (fun a _ => a) (reflective (1 / 2))) 1)) Account.reset id (cell 1 {q | 0 ≤ q.1}) b reps minE (got n ω)) ∧
    ∀ n : Nat, 0 < n → μ.real {ω | 100 ≤ |got n ω - 1000|} ≤ 2 * exp (-(2 * n * 100 ^ 2 / (1 / 2 * (π * 5 ^ 2 * 1000)) ^ 2)) := by
  obtain ⟨ν, hν, heven⟩ := even_pairs
  obtain ⟨μ, hμ, hD, hind, hid, hlaw⟩ := all_draws_exist ν
  obtain ⟨g, hg⟩ : ∃ g : Geometry ℝ Unit, rectPlateGM 2 2 = .ok g := ⟨_, by unfold rectPlateGM; rw [if_neg (by norm_num), if_neg (by norm_num)]⟩
  set s : Surf (Account ℝ) ℝ Unit := mkSurf g (accountant (1 / 2) id (fun a _ => a) (reflective (1 / 2))) 1 with hs
  have hw : WatchedScene (lone s) Account.reset id (1 / 2) := by
    refine ⟨lone_plain s, lone_mirrors (.rect _ _ _ hg) (.receiver _ _ _ _ (.mirror _)), rfl, ⟨0, 0, s⟩, ?_, g, _, 1, _, rfl, fun _ _ => rfl,
      (C51_reflective _ id).1, ?_⟩
    · rw [lone_sites]; exact List.mem_singleton_self _
    · intro y hy hne
      rw [lone_sites, List.mem_singleton] at hy
      exact absurd ⟨by rw [hy], by rw [hy]⟩ hne
  have hex : ∀ n ω, ∃ e, 0 < n → ∃ src b, solarDisk ⟨0, 0, 5⟩ ⟨0, 0, -1⟩ 5 (π / 6) (some 1000) ((List.range n).map fun i => ((ω : Nat → (angleDraws ×ˢ draws : Set ((ℝ × ℝ) × (ℝ × ℝ)))) i).1.1)
      ((List.range n).map fun i => (ω i).1.2) = .ok src ∧ src.rays () = .ok b ∧ Collects (lone s) Account.reset id (cell 1 {q | 0 ≤ q.1}) b reps minE e := by
    intro n ω
    rcases Nat.eq_zero_or_pos n with rfl | hn
    · exact ⟨0, fun h => absurd h (lt_irrefl _)⟩
    · obtain ⟨src, h1⟩ : ∃ src, solarDisk ⟨0, 0, 5⟩ ⟨0, 0, -1⟩ 5 (π / 6) (some 1000) ((List.range n).map fun i => (ω i).1.1)
          ((List.range n).map fun i => (ω i).1.2) = .ok src := ⟨_, by unfold solarDisk; rw [if_neg (by simp; omega)]⟩
      obtain ⟨b, h2⟩ : ∃ b, src.rays () = .ok b := by
        unfold solarDisk at h1
        rw [if_neg (by simp; omega)] at h1
        cases h1
        exact ⟨_, rfl⟩
      obtain ⟨e, he⟩ := C113_exists hw (cell 1 {q | 0 ≤ q.1}) b reps minE
      exact ⟨e, fun _ => ⟨src, b, h1, h2, he⟩⟩
  choose got hgot using hex
  refine ⟨g, μ, got, hg, hμ, hgot, fun n hn => ?_⟩
  have h := C119_sun_plate (center := ⟨0, 0, 5⟩) (direction := ⟨0, 0, -1⟩) (F := 1) (width := 2) (height := 2) (radius := 5) (flux := 1000)
    (S := {q | 0 ≤ q.1}) (ang := π / 6)
    (get := id) (set := fun a _ => a) (μ := μ) (D := fun i ω => ω i) (got := got) (a := 1 / 2) (minE := minE)
    (fun _ _ => rfl) rfl hg (measurableSet_le measurable_const measurable_fst) Tf.Rigid.one (by unfold V3.IsUnit; norm_num [V3.dot]) (by norm_num)
    ⟨by positivity, by linarith [Real.pi_pos]⟩ zenith_side zenith_seen () hreps (by norm_num) (by norm_num) hD hind hid
    (fun S hS => by rw [← heven S hS]; exact hlaw {d | d.1 ∈ S} (measurable_subtype_coe hS)) hgot hn (ε := 100) (by norm_num)
  have e1 : ({q | 0 ≤ q.1} ∩ {q | |q.1| ≤ 2 / 2 ∧ |q.2| ≤ 2 / 2} : Set (ℝ × ℝ)) = Set.Icc 0 1 ×ˢ Set.Icc (-1) 1 := by
    ext q
    simp only [Set.mem_inter_iff, Set.mem_setOf_eq, Set.mem_prod, Set.mem_Icc, abs_le]
    constructor
    · rintro ⟨h1, ⟨h2, h3⟩, h4, h5⟩
      exact ⟨⟨h1, by linarith⟩, by linarith, by linarith⟩
    · rintro ⟨⟨h1, h2⟩, h3, h4⟩
      exact ⟨h1, ⟨by linarith, by linarith⟩, by linarith, by linarith⟩
  have e : (1 / 2 : ℝ) * 1000 * (|V3.dot (⟨0, 0, -1⟩ : V3 ℝ) (1 : Tf ℝ).rot.c3| *
      (volume ({q | 0 ≤ q.1} ∩ {q | |q.1| ≤ 2 / 2 ∧ |q.2| ≤ 2 / 2} : Set (ℝ × ℝ))).toReal) = 1000 := by
    rw [e1, Measure.volume_eq_prod, Measure.prod_prod, Real.volume_Icc, Real.volume_Icc, ← ENNReal.ofReal_mul (by norm_num),
      ENNReal.toReal_ofReal (by norm_num)]
    norm_num [V3.dot]
  rw [e] at h
  exact h

end Tracer
