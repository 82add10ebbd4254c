import Verif.Model.Sources
import Verif.Spec.Sources
import Verif.Props.Spatial
import Mathlib.Analysis.SpecialFunctions.Complex.Arg
import Mathlib.MeasureTheory.Measure.Lebesgue.Basic
import Mathlib.Algebra.Order.Floor.Semiring

/-!
# Light sources (C55, C56, C57)
-/

namespace Tracer

open Real

/-! ### Pillbox directions -/

theorem pillbox_deviation {ang x1 x2 : ℝ} (h0 : 0 ≤ ang) (h1 : ang ≤ π) (h2 : 0 ≤ x2) :
    deviation (pillboxOne ang x1 x2) ⟨0, 0, 1⟩ = arcsin (sin ang * √x2) := by
  have hs : 0 ≤ arcsin (sin ang * √x2) :=
    arcsin_nonneg.2 (mul_nonneg (sin_nonneg_of_nonneg_of_le_pi h0 h1) (sqrt_nonneg _))
  unfold deviation pillboxOne V3.dot
  simp only [mul_zero, zero_add, mul_one]
  exact arccos_cos hs (by linarith [arcsin_le_pi_div_two (sin ang * √x2), pi_pos])

theorem pillbox_unit (ang x1 x2 : ℝ) : (pillboxOne ang x1 x2).IsUnit := by
  unfold pillboxOne V3.IsUnit V3.dot
  simp only
  generalize arcsin (sin ang * √x2) = θ
  have a := sin_sq_add_cos_sq x1
  have b := sin_sq_add_cos_sq θ
  linear_combination sin θ ^ 2 * a + b

theorem pillbox_le {ang x1 x2 : ℝ} (h0 : 0 ≤ ang) (h1 : ang ≤ π) (h2 : 0 ≤ x2) (h3 : x2 ≤ 1) :
    deviation (pillboxOne ang x1 x2) ⟨0, 0, 1⟩ ≤ ang := by
  rw [pillbox_deviation h0 h1 h2]
  rcases le_total ang (π / 2) with h | h
  · have hs := sin_nonneg_of_nonneg_of_le_pi h0 h1
    have : √x2 ≤ 1 := by rw [sqrt_le_one]; exact h3
    calc arcsin (sin ang * √x2) ≤ arcsin (sin ang) := arcsin_le_arcsin (by nlinarith)
      _ = ang := arcsin_sin (by linarith [pi_pos]) h
  · exact (arcsin_le_pi_div_two _).trans h

/-- C55: as many directions as asked for, each a unit vector at most `ang_range` off the +Z axis. -/
theorem C55_cone {ang : ℝ} (h0 : 0 ≤ ang) (h1 : ang ≤ π) {draws : List (ℝ × ℝ)}
    (hd : ∀ d ∈ draws, 0 ≤ d.2 ∧ d.2 ≤ 1) :
    (pillbox ang draws).length = draws.length ∧
    ∀ v ∈ pillbox ang draws, v.IsUnit ∧ deviation v ⟨0, 0, 1⟩ ≤ ang := by
  refine ⟨by simp [pillbox], ?_⟩
  intro v hv
  obtain ⟨d, hd', rfl⟩ := List.mem_map.1 hv
  exact ⟨pillbox_unit _ _ _, pillbox_le h0 h1 (hd d hd').1 (hd d hd').2⟩

theorem pillbox_le_iff {ang t x1 x2 : ℝ} (h0 : 0 < ang) (h1 : ang ≤ π / 2) (ht0 : 0 ≤ t) (ht : t ≤ ang)
    (h2 : 0 ≤ x2) (h3 : x2 ≤ 1) :
    deviation (pillboxOne ang x1 x2) ⟨0, 0, 1⟩ ≤ t ↔ x2 ≤ (sin t / sin ang) ^ 2 := by
  have hs : 0 < sin ang := sin_pos_of_pos_of_lt_pi h0 (by linarith [pi_pos])
  have hst : 0 ≤ sin t := sin_nonneg_of_nonneg_of_le_pi ht0 (by linarith [pi_pos])
  have hr : √x2 ≤ 1 := by rw [sqrt_le_one]; exact h3
  have hr0 := sqrt_nonneg x2
  have hs1 := sin_le_one ang
  rw [pillbox_deviation h0.le (by linarith [pi_pos]) h2,
    arcsin_le_iff_le_sin ⟨by nlinarith, by nlinarith⟩ ⟨by linarith [pi_pos], by linarith⟩,
    mul_comm, ← le_div_iff₀ hs, sqrt_le_left (div_nonneg hst hs.le)]

/-- C55: the distribution of the directions, "such that the flux distribution comes out right": for
`xi1` uniform in [0, 2 pi) and `xi2` uniform in [0, 1), the rays with azimuth at most `phi` and
deviation at most `t` are the share `phi / (2 pi)` times `(sin t / sin ang_range)^2` of all. -/
theorem C55_distribution {ang t phi : ℝ} (h0 : 0 < ang) (h1 : ang ≤ π / 2) (ht0 : 0 ≤ t) (ht : t ≤ ang)
    (hp0 : 0 ≤ phi) (hp : phi < 2 * π) :
    MeasureTheory.volume {d : ℝ × ℝ | (0 ≤ d.1 ∧ d.1 < 2 * π) ∧ (0 ≤ d.2 ∧ d.2 < 1) ∧ d.1 ≤ phi ∧
      deviation (pillboxOne ang d.1 d.2) ⟨0, 0, 1⟩ ≤ t} =
      ENNReal.ofReal (phi * (sin t / sin ang) ^ 2) := by
  have hs : 0 < sin ang := sin_pos_of_pos_of_lt_pi h0 (by linarith [pi_pos])
  have hst : 0 ≤ sin t := sin_nonneg_of_nonneg_of_le_pi ht0 (by linarith [pi_pos])
  have hle : sin t ≤ sin ang := sin_le_sin_of_le_of_le_pi_div_two (by linarith) h1 ht
  have hq : sin t / sin ang ≤ 1 := (div_le_one hs).2 hle
  have hq0 : 0 ≤ sin t / sin ang := div_nonneg hst hs.le
  have hq1 : (sin t / sin ang) ^ 2 ≤ 1 := by nlinarith
  have hset : {d : ℝ × ℝ | (0 ≤ d.1 ∧ d.1 < 2 * π) ∧ (0 ≤ d.2 ∧ d.2 < 1) ∧ d.1 ≤ phi ∧
      deviation (pillboxOne ang d.1 d.2) ⟨0, 0, 1⟩ ≤ t} =
      Set.Icc 0 phi ×ˢ (Set.Ico 0 1 ∩ Set.Iic ((sin t / sin ang) ^ 2)) := by
    ext ⟨x, y⟩
    simp only [Set.mem_setOf_eq, Set.mem_prod, Set.mem_Icc, Set.mem_inter_iff, Set.mem_Ico, Set.mem_Iic]
    constructor
    · rintro ⟨⟨a, b⟩, ⟨c, d⟩, e, f⟩
      exact ⟨⟨a, e⟩, ⟨c, d⟩, (pillbox_le_iff h0 h1 ht0 ht c d.le).1 f⟩
    · rintro ⟨⟨a, e⟩, ⟨c, d⟩, f⟩
      exact ⟨⟨a, by linarith⟩, ⟨c, d⟩, e, (pillbox_le_iff h0 h1 ht0 ht c d.le).2 f⟩
  rw [hset]
  rw [MeasureTheory.Measure.volume_eq_prod, MeasureTheory.Measure.prod_prod, Real.volume_Icc]
  have hv : MeasureTheory.volume (Set.Ico (0 : ℝ) 1 ∩ Set.Iic ((sin t / sin ang) ^ 2)) =
      ENNReal.ofReal ((sin t / sin ang) ^ 2) := by
    rcases hq1.lt_or_eq with h | h
    · have : Set.Ico (0 : ℝ) 1 ∩ Set.Iic ((sin t / sin ang) ^ 2) = Set.Icc 0 ((sin t / sin ang) ^ 2) := by
        ext y
        simp only [Set.mem_inter_iff, Set.mem_Ico, Set.mem_Iic, Set.mem_Icc]
        constructor
        · rintro ⟨⟨a, _⟩, c⟩; exact ⟨a, c⟩
        · rintro ⟨a, c⟩; exact ⟨⟨a, by linarith⟩, c⟩
      rw [this, Real.volume_Icc, sub_zero]
    · have : Set.Ico (0 : ℝ) 1 ∩ Set.Iic ((sin t / sin ang) ^ 2) = Set.Ico 0 1 := by
        ext y
        simp only [Set.mem_inter_iff, Set.mem_Ico, Set.mem_Iic, h]
        constructor
        · rintro ⟨a, _⟩; exact a
        · rintro a; exact ⟨a, a.2.le⟩
      rw [this, Real.volume_Ico, h, sub_zero]
  rw [hv, ← ENNReal.ofReal_mul (by linarith), sub_zero]

/-- An azimuth for every point of the plane. -/
theorem exists_azimuth (x y : ℝ) : ∃ a, 0 ≤ a ∧ a < 2 * π ∧
    x = cos a * √(x ^ 2 + y ^ 2) ∧ y = sin a * √(x ^ 2 + y ^ 2) := by
  have hn : ‖(⟨x, y⟩ : ℂ)‖ = √(x ^ 2 + y ^ 2) := by
    rw [Complex.norm_eq_sqrt_sq_add_sq]
  have hc := Complex.norm_mul_cos_arg ⟨x, y⟩
  have hs := Complex.norm_mul_sin_arg ⟨x, y⟩
  rw [hn] at hc hs
  simp only at hc hs
  have h1 := Complex.neg_pi_lt_arg ⟨x, y⟩
  have h2 := Complex.arg_le_pi ⟨x, y⟩
  generalize Complex.arg ⟨x, y⟩ = a at *
  rcases le_or_gt 0 a with h | h
  · exact ⟨a, h, by linarith [pi_pos], by linarith, by linarith⟩
  · refine ⟨a + 2 * π, by linarith, by linarith, ?_, ?_⟩
    · rw [cos_add_two_pi]; linarith
    · rw [sin_add_two_pi]; linarith

/-- C55: every direction inside the cone can come out. -/
theorem C55_covers {ang : ℝ} (h1 : ang ≤ π / 2) {v : V3 ℝ} (hv : v.IsUnit)
    (hd : deviation v ⟨0, 0, 1⟩ < ang) :
    ∃ x1 x2 : ℝ, 0 ≤ x1 ∧ x1 < 2 * π ∧ 0 ≤ x2 ∧ x2 < 1 ∧ pillboxOne ang x1 x2 = v := by
  unfold deviation V3.dot at hd
  simp only [mul_zero, zero_add, mul_one] at hd
  unfold V3.IsUnit V3.dot at hv
  have hz1 : v.z ≤ 1 := by nlinarith [mul_self_nonneg v.x, mul_self_nonneg v.y, mul_self_nonneg (v.z - 1)]
  have hz2 : -1 ≤ v.z := by nlinarith [mul_self_nonneg v.x, mul_self_nonneg v.y, mul_self_nonneg (v.z + 1)]
  have ha := arccos_nonneg v.z
  have hang : 0 < ang := by linarith
  have hcos : cos ang < v.z := by
    have := cos_lt_cos_of_nonneg_of_le_pi ha (by linarith [pi_pos]) hd
    rwa [cos_arccos hz2 hz1] at this
  have hc0 : 0 ≤ cos ang := cos_nonneg_of_neg_pi_div_two_le_of_le (by linarith [pi_pos]) h1
  have hs : 0 < sin ang := sin_pos_of_pos_of_lt_pi hang (by linarith [pi_pos])
  obtain ⟨a, ha0, ha1, hx, hy⟩ := exists_azimuth v.x v.y
  have hr0 := sqrt_nonneg (v.x ^ 2 + v.y ^ 2)
  have hr2 : √(v.x ^ 2 + v.y ^ 2) ^ 2 = v.x ^ 2 + v.y ^ 2 := sq_sqrt (by positivity)
  generalize √(v.x ^ 2 + v.y ^ 2) = r at *
  have hsc := sin_sq_add_cos_sq ang
  have hrs : r < sin ang := by
    by_contra hcon
    push Not at hcon
    nlinarith
  have hr1 : r ≤ 1 := hrs.le.trans (sin_le_one _)
  refine ⟨a, (r / sin ang) ^ 2, ha0, ha1, sq_nonneg _, ?_, ?_⟩
  · have : r / sin ang < 1 := (div_lt_one hs).2 hrs
    have : 0 ≤ r / sin ang := div_nonneg hr0 hs.le
    nlinarith
  · unfold pillboxOne
    rw [sqrt_sq (div_nonneg hr0 hs.le), mul_div_cancel₀ _ hs.ne']
    simp only
    rw [sin_arcsin (by linarith) hr1, cos_arcsin]
    apply V3.ext
    · exact hx.symm
    · exact hy.symm
    · show √(1 - r ^ 2) = v.z
      rw [show 1 - r ^ 2 = v.z ^ 2 by linarith]
      exact sqrt_sq (by linarith)

/-- The hypotheses are met by the sun's cone. -/
example : ∀ v ∈ pillbox (1/200) [(0, 0), (3, 1/2), (6, 1)], v.IsUnit ∧ deviation v ⟨0, 0, 1⟩ ≤ 1/200 :=
  (C55_cone (by norm_num) (by linarith [two_le_pi]) (by simp; norm_num)).2

example : ∃ x1 x2 : ℝ, 0 ≤ x1 ∧ x1 < 2 * π ∧ 0 ≤ x2 ∧ x2 < 1 ∧ pillboxOne (π / 2) x1 x2 = ⟨3/5, 0, 4/5⟩ := by
  refine C55_covers le_rfl (by norm_num [V3.IsUnit, V3.dot]) ?_
  unfold deviation
  rw [arccos_lt_pi_div_two]
  norm_num [V3.dot]

/-! ### Solar disk -/

theorem rotationToZ_axis {d : V3 ℝ} (hd : d.IsUnit) : (rotationToZ d).mulVec ⟨0, 0, 1⟩ = d := by
  obtain ⟨_, r2, _⟩ := C27_rotation_to_z hd
  conv_rhs => rw [← r2]
  apply V3.ext <;> simp

theorem rotationToZ_dot_axis {d : V3 ℝ} (hd : d.IsUnit) (v : V3 ℝ) :
    V3.dot ((rotationToZ d).mulVec v) d = v.z := by
  obtain ⟨r1, _, _⟩ := C27_rotation_to_z hd
  calc V3.dot ((rotationToZ d).mulVec v) d
      = V3.dot ((rotationToZ d).mulVec v) ((rotationToZ d).mulVec ⟨0, 0, 1⟩) := by rw [rotationToZ_axis hd]
    _ = v.z := by rw [r1.dot]; simp [V3.dot]

theorem add_sub_self (a b : V3 ℝ) : a + b - b = a := by apply V3.ext <;> simp

/-- C56: every ray starts on the disk and points into the cone; there are as many starts and
directions as rays. -/
theorem C56_disk {center direction : V3 ℝ} (hdir : direction.IsUnit) {radius ang : ℝ} (h0 : 0 ≤ ang) (h1 : ang ≤ π)
    (flux : Option ℝ) {dirDraws posDraws : List (ℝ × ℝ)} (hlen : dirDraws.length = posDraws.length)
    (hd : ∀ d ∈ dirDraws, 0 ≤ d.2 ∧ d.2 ≤ 1) (hp : ∀ d ∈ posDraws, 0 ≤ d.1 ∧ d.1 ≤ 1) :
    let b := solarDiskBundle center direction radius ang flux dirDraws posDraws
    b.vertices.length = posDraws.length ∧ b.directions.length = posDraws.length ∧
    (∀ p ∈ b.vertices, OnDisk center direction radius p) ∧
    ∀ v ∈ b.directions, v.IsUnit ∧ deviation v direction ≤ ang := by
  obtain ⟨r1, _, _⟩ := C27_rotation_to_z hdir
  refine ⟨by simp [solarDiskBundle], by simp [solarDiskBundle, pillbox, hlen], ?_, ?_⟩
  · intro p hpm
    obtain ⟨d, hdm, rfl⟩ := List.mem_map.1 hpm
    simp only
    unfold OnDisk
    rw [add_sub_self, rotationToZ_dot_axis hdir, r1.dot]
    refine ⟨rfl, ?_⟩
    unfold V3.dot
    simp only
    have hs := sq_sqrt (hp d hdm).1
    have ht := sin_sq_add_cos_sq d.2
    have : radius * √d.1 * cos d.2 * (radius * √d.1 * cos d.2) + radius * √d.1 * sin d.2 * (radius * √d.1 * sin d.2)
        + 0 * 0 = radius ^ 2 * d.1 := by
      linear_combination radius ^ 2 * √d.1 ^ 2 * ht + radius ^ 2 * hs
    rw [this]
    nlinarith [(hp d hdm).2, sq_nonneg radius]
  · intro v hv
    obtain ⟨u, hu, rfl⟩ := List.mem_map.1 hv
    obtain ⟨u1, u2⟩ := (C55_cone h0 h1 hd).2 u hu
    constructor
    · unfold V3.IsUnit at *
      rw [r1.dot]; exact u1
    · unfold deviation at *
      rw [rotationToZ_dot_axis hdir]
      simpa [V3.dot] using u2

/-- C56: with a flux, all rays carry the same energy, and together the flux through the disk; without,
no energy is set. -/
theorem C56_power {center direction : V3 ℝ} {radius ang : ℝ} {dirDraws posDraws : List (ℝ × ℝ)}
    (hn : posDraws ≠ []) (f : ℝ) :
    (solarDiskBundle center direction radius ang none dirDraws posDraws).energy = none ∧
    ∃ e, (solarDiskBundle center direction radius ang (some f) dirDraws posDraws).energy = some e ∧
      e.length = posDraws.length ∧ (∀ x ∈ e, ∀ y ∈ e, x = y) ∧ e.sum = f * (π * radius ^ 2) := by
  refine ⟨rfl, _, rfl, by simp, ?_, ?_⟩
  · intro x hx y hy
    rw [(List.mem_replicate.1 hx).2, (List.mem_replicate.1 hy).2]
  · rw [List.sum_replicate]
    have : (posDraws.length : ℝ) ≠ 0 := by
      simpa using hn
    simp only [nsmul_eq_mul]
    field_simp

/-- C56: the starts are spread evenly over the disk: a start is within `r` of the centre exactly when its
draw is below `(r / radius)^2`, the share of the area. -/
theorem C56_even {center direction : V3 ℝ} (hdir : direction.IsUnit) {radius ang r : ℝ} (hR : 0 < radius) (hr : 0 ≤ r)
    (flux : Option ℝ) {dirDraws posDraws : List (ℝ × ℝ)} (hp : ∀ d ∈ posDraws, 0 ≤ d.1 ∧ d.1 ≤ 1) :
    List.Forall₂ (fun d p => OnDisk center direction r p ↔ d.1 ≤ (r / radius) ^ 2) posDraws
      (solarDiskBundle center direction radius ang flux dirDraws posDraws).vertices := by
  obtain ⟨r1, _, _⟩ := C27_rotation_to_z hdir
  unfold solarDiskBundle
  simp only
  rw [List.forall₂_map_right_iff]
  apply List.forall₂_same.2
  intro d hdm
  unfold OnDisk
  rw [add_sub_self, rotationToZ_dot_axis hdir, r1.dot]
  unfold V3.dot
  simp only
  have hs := sq_sqrt (hp d hdm).1
  have ht := sin_sq_add_cos_sq d.2
  have : radius * √d.1 * cos d.2 * (radius * √d.1 * cos d.2) + radius * √d.1 * sin d.2 * (radius * √d.1 * sin d.2)
      + 0 * 0 = radius ^ 2 * d.1 := by
    linear_combination radius ^ 2 * √d.1 ^ 2 * ht + radius ^ 2 * hs
  rw [this, div_pow, le_div_iff₀ (by positivity), mul_comm d.1]
  simp

example : let b := solarDiskBundle ⟨1, 2, 3⟩ ⟨0, 3/5, -4/5⟩ 2 (1/200) (some 1000) [(0, 0), (3, 1/2)] [(1/4, 5), (1, 0)]
    b.vertices.length = 2 ∧ b.directions.length = 2 ∧ (∀ p ∈ b.vertices, OnDisk ⟨1, 2, 3⟩ ⟨0, 3/5, -4/5⟩ 2 p) ∧
    ∀ v ∈ b.directions, v.IsUnit ∧ deviation v ⟨0, 3/5, -4/5⟩ ≤ 1/200 :=
  C56_disk (by norm_num [V3.IsUnit, V3.dot]) (by norm_num) (by linarith [two_le_pi]) _ rfl
    (by simp; norm_num) (by simp; norm_num)

/-! ### Square grids -/

theorem mgridAxis_length {w : ℝ} (hw : 0 < w) (n : Nat) :
    (mgridAxis (-w) w (2 * w / √n)).length = ⌈√(n : ℝ)⌉₊ := by
  unfold mgridAxis
  rw [List.length_map, List.length_range]
  congr 1
  rcases Nat.eq_zero_or_pos n with rfl | hn
  · simp
  · have : 0 < √(n : ℝ) := sqrt_pos.2 (by exact_mod_cast hn)
    field_simp
    ring

theorem square_counts (n : Nat) (center direction : V3 ℝ) {w : ℝ} (hw : 0 < w) :
    (squareBundle n center direction w).vertices.length = ⌈√(n : ℝ)⌉₊ ^ 2 ∧
    (squareBundle n center direction w).directions.length = n := by
  constructor
  · unfold squareBundle
    simp only [List.length_flatMap, List.length_map, mgridAxis_length hw]
    rw [List.map_const', List.sum_replicate, mgridAxis_length hw]
    simp [sq]
  · simp [squareBundle]

/-- C57 holds of the number of rays exactly when it is a perfect square. -/
theorem C57_count_iff (n : Nat) (center direction : V3 ℝ) {w : ℝ} (hw : 0 < w) :
    (squareBundle n center direction w).vertices.length = n ↔ IsSquare n := by
  rw [(square_counts n center direction hw).1]
  constructor
  · intro h; exact ⟨_, by rw [← sq]; exact h.symm⟩
  · rintro ⟨k, rfl⟩
    have : √((k * k : Nat) : ℝ) = k := by
      push_cast
      exact sqrt_mul_self (Nat.cast_nonneg k)
    rw [this, Nat.ceil_natCast, sq]

/-- C57 is false: for two rays there are four starts but two directions. -/
theorem C57_counterexample (center direction : V3 ℝ) {w : ℝ} (hw : 0 < w) :
    (squareBundle 2 center direction w).vertices.length = 4 ∧
    (squareBundle 2 center direction w).directions.length = 2 := by
  obtain ⟨h1, h2⟩ := square_counts 2 center direction hw
  refine ⟨?_, h2⟩
  rw [h1]
  have : ⌈√((2 : Nat) : ℝ)⌉₊ = 2 := by
    rw [Nat.ceil_eq_iff (by norm_num)]
    have h := sq_sqrt (show (0 : ℝ) ≤ 2 by norm_num)
    have h' := sqrt_nonneg (2 : ℝ)
    push_cast
    constructor <;> nlinarith
  rw [this]
  norm_num

/-- C57 is false: the first start lies outside every square of the given width around the centre. -/
theorem C57_width_counterexample {n : Nat} (hn : 0 < n) (center : V3 ℝ) {direction : V3 ℝ} (hdir : direction.IsUnit)
    {w : ℝ} (hw : 0 < w) : ∃ p ∈ (squareBundle n center direction w).vertices,
      ∀ u v, Orthonormal3 u v direction → ¬ OnSquare center direction u v w p := by
  have h0 : -w ∈ mgridAxis (-w) w (2 * w / √n) := by
    have hl := mgridAxis_length hw n
    have : 0 < ⌈√(n : ℝ)⌉₊ := Nat.ceil_pos.2 (sqrt_pos.2 (by exact_mod_cast hn))
    unfold mgridAxis at hl ⊢
    rw [List.length_map, List.length_range] at hl
    exact List.mem_map.2 ⟨0, List.mem_range.2 (by omega), by simp⟩
  refine ⟨(rotationToZ direction).mulVec ⟨-w, -w, 0⟩ + center,
    List.mem_flatMap.2 ⟨-w, h0, List.mem_map.2 ⟨-w, h0, rfl⟩⟩, ?_⟩
  rintro u v ⟨hu, hv, hd, huv, hud, hvd⟩ ⟨h1, h2, h3⟩
  obtain ⟨r1, _, _⟩ := C27_rotation_to_z hdir
  rw [add_sub_self] at h1 h2 h3
  have hnorm : V3.dot ((rotationToZ direction).mulVec ⟨-w, -w, 0⟩) ((rotationToZ direction).mulVec ⟨-w, -w, 0⟩) = 2 * w ^ 2 := by
    rw [r1.dot]; unfold V3.dot; ring
  generalize (rotationToZ direction).mulVec ⟨-w, -w, 0⟩ = q at *
  -- Parseval in the frame of the square
  have hpar : V3.dot q q = V3.dot q u ^ 2 + V3.dot q v ^ 2 + V3.dot q direction ^ 2 := by
    have hm : (⟨u, v, direction⟩ : M3 ℝ).transpose * ⟨u, v, direction⟩ = 1 := by
      unfold V3.dot at *
      apply M3.ext <;> apply V3.ext <;> simp [M3.mulVec, M3.transpose] <;> linarith
    have hdet : (⟨u, v, direction⟩ : M3 ℝ).det ^ 2 = 1 := by
      have e1 : (⟨u, v, direction⟩ : M3 ℝ).det ^ 2 = ((⟨u, v, direction⟩ : M3 ℝ).transpose * ⟨u, v, direction⟩).det := by
        unfold M3.det V3.cross V3.dot
        simp [M3.mulVec, M3.transpose]
        ring
      rw [e1, hm]
      simp [M3.det, V3.cross, V3.dot]
    have hdet0 : (⟨u, v, direction⟩ : M3 ℝ).det ≠ 0 := by
      intro h; rw [h] at hdet; norm_num at hdet
    unfold M3.det V3.cross V3.dot at hdet0
    unfold V3.dot at *
    simp only at hdet0
    -- what is left of `q` after taking off its components
    set α := q.x * u.x + q.y * u.y + q.z * u.z with hα
    set β := q.x * v.x + q.y * v.y + q.z * v.z with hβ
    set γ := q.x * direction.x + q.y * direction.y + q.z * direction.z with hγ
    have k1 : (q.x - α * u.x - β * v.x - γ * direction.x) * u.x + (q.y - α * u.y - β * v.y - γ * direction.y) * u.y
        + (q.z - α * u.z - β * v.z - γ * direction.z) * u.z = 0 := by
      linear_combination -hα - α * hu - β * huv - γ * hud
    have k2 : (q.x - α * u.x - β * v.x - γ * direction.x) * v.x + (q.y - α * u.y - β * v.y - γ * direction.y) * v.y
        + (q.z - α * u.z - β * v.z - γ * direction.z) * v.z = 0 := by
      linear_combination -hβ - β * hv - α * huv - γ * hvd
    have k3 : (q.x - α * u.x - β * v.x - γ * direction.x) * direction.x +
        (q.y - α * u.y - β * v.y - γ * direction.y) * direction.y
        + (q.z - α * u.z - β * v.z - γ * direction.z) * direction.z = 0 := by
      linear_combination -hγ - γ * hd - α * hud - β * hvd
    generalize hr1 : q.x - α * u.x - β * v.x - γ * direction.x = a at k1 k2 k3
    generalize hr2 : q.y - α * u.y - β * v.y - γ * direction.y = b at k1 k2 k3
    generalize hr3 : q.z - α * u.z - β * v.z - γ * direction.z = c at k1 k2 k3
    have ea : a = 0 := by
      apply (mul_eq_zero.1 (?_ : _ * a = 0)).resolve_left hdet0
      linear_combination (v.y * direction.z - v.z * direction.y) * k1 + (direction.y * u.z - direction.z * u.y) * k2
        + (u.y * v.z - u.z * v.y) * k3
    have eb : b = 0 := by
      apply (mul_eq_zero.1 (?_ : _ * b = 0)).resolve_left hdet0
      linear_combination (v.z * direction.x - v.x * direction.z) * k1 + (direction.z * u.x - direction.x * u.z) * k2
        + (u.z * v.x - u.x * v.z) * k3
    have ec : c = 0 := by
      apply (mul_eq_zero.1 (?_ : _ * c = 0)).resolve_left hdet0
      linear_combination (v.x * direction.y - v.y * direction.x) * k1 + (direction.x * u.y - direction.y * u.x) * k2
        + (u.x * v.y - u.y * v.x) * k3
    rw [ea] at hr1; rw [eb] at hr2; rw [ec] at hr3
    linear_combination q.x * hr1 + q.y * hr2 + q.z * hr3 - α * hα - β * hβ - γ * hγ
  rw [hnorm, h1] at hpar
  have a1 : V3.dot q u ^ 2 ≤ (w / 2) ^ 2 := sq_le_sq' (abs_le.1 h2).1 (abs_le.1 h2).2
  have a2 : V3.dot q v ^ 2 ≤ (w / 2) ^ 2 := sq_le_sq' (abs_le.1 h3).1 (abs_le.1 h3).2
  nlinarith

theorem M3.IsRotation.orthonormal {m : M3 ℝ} (h : m.IsRotation) : Orthonormal3 m.c1 m.c2 m.c3 := by
  rw [M3.isRotation_iff] at h
  obtain ⟨⟨h1, h2, h3, h4, h5, h6⟩, _⟩ := h
  exact ⟨h1, h2, h3, h4, h5, h6⟩

/-- C57, partial: for a perfect square number of rays there are as many starts as directions, all
directions are the given one, and the starts are the points of an evenly spaced grid in the plane
through the centre, inside a square of twice the given width.  Missing: other numbers of rays, the
width. -/
theorem C57_partial {k : Nat} (hk : 0 < k) (center : V3 ℝ) {direction : V3 ℝ} (hdir : direction.IsUnit)
    {w : ℝ} (hw : 0 < w) :
    let b := squareBundle (k ^ 2) center direction w
    b.vertices.length = k ^ 2 ∧ b.directions = List.replicate (k ^ 2) direction ∧
    ∃ e1 e2, Orthonormal3 e1 e2 direction ∧
      (∀ p, p ∈ b.vertices ↔ ∃ i j : Nat, i < k ∧ j < k ∧
        p = center + (-w + i * (2 * w / k)) • e1 + (-w + j * (2 * w / k)) • e2) ∧
      ∀ p ∈ b.vertices, OnSquare center direction e1 e2 (2 * w) p := by
  obtain ⟨r1, r2, _⟩ := C27_rotation_to_z hdir
  have hort := r1.orthonormal
  rw [r2] at hort
  have hsq : √((k ^ 2 : Nat) : ℝ) = k := by
    push_cast
    exact sqrt_sq (Nat.cast_nonneg k)
  have hax : mgridAxis (-w) w (2 * w / √((k ^ 2 : Nat) : ℝ)) =
      (List.range k).map fun (i : Nat) => -w + (i : ℝ) * (2 * w / k) := by
    have hl := mgridAxis_length hw (k ^ 2)
    unfold mgridAxis at hl ⊢
    rw [List.length_map, List.length_range] at hl
    rw [hl, hsq, Nat.ceil_natCast]
  have hmem : ∀ p, p ∈ (squareBundle (k ^ 2) center direction w).vertices ↔ ∃ i j : Nat, i < k ∧ j < k ∧
        p = center + (-w + i * (2 * w / k)) • (rotationToZ direction).c1 +
          (-w + j * (2 * w / k)) • (rotationToZ direction).c2 := by
    intro p
    unfold squareBundle
    simp only
    rw [hax]
    constructor
    · intro hp
      obtain ⟨x, hx, hp⟩ := List.mem_flatMap.1 hp
      obtain ⟨y, hy, rfl⟩ := List.mem_map.1 hp
      obtain ⟨i, hi, rfl⟩ := List.mem_map.1 hx
      obtain ⟨j, hj, rfl⟩ := List.mem_map.1 hy
      refine ⟨i, j, List.mem_range.1 hi, List.mem_range.1 hj, ?_⟩
      apply V3.ext <;> simp [M3.mulVec] <;> ring
    · rintro ⟨i, j, hi, hj, rfl⟩
      refine List.mem_flatMap.2 ⟨_, List.mem_map.2 ⟨i, List.mem_range.2 hi, rfl⟩,
        List.mem_map.2 ⟨_, List.mem_map.2 ⟨j, List.mem_range.2 hj, rfl⟩, ?_⟩⟩
      apply V3.ext <;> simp [M3.mulVec] <;> ring
  refine ⟨?_, rfl, _, _, hort, hmem, ?_⟩
  · have := (square_counts (k ^ 2) center direction hw).1
    rw [hsq, Nat.ceil_natCast] at this
    exact this
  · intro p hp
    obtain ⟨i, j, hi, hj, rfl⟩ := (hmem p).1 hp
    have hin : ∀ i : Nat, i < k → |(-w + i * (2 * w / k))| ≤ 2 * w / 2 := by
      intro i hi
      have hk' : (0 : ℝ) < k := by exact_mod_cast hk
      have hi' : (i : ℝ) ≤ k := by exact_mod_cast hi.le
      have h1 : (i : ℝ) * (2 * w / k) ≤ 2 * w := by
        rw [← mul_div_assoc, div_le_iff₀ hk']
        nlinarith
      have h2 : 0 ≤ (i : ℝ) * (2 * w / k) := by positivity
      rw [abs_le]
      constructor <;> linarith
    obtain ⟨hu, hv, hd, huv, hud, hvd⟩ := hort
    have a1 := hin i hi
    have a2 := hin j hj
    generalize (-w + i * (2 * w / k)) = a at *
    generalize (-w + j * (2 * w / k)) = b at *
    generalize (rotationToZ direction).c1 = e1 at *
    generalize (rotationToZ direction).c2 = e2 at *
    unfold V3.dot at *
    refine ⟨?_, ?_, ?_⟩
    · unfold V3.dot
      simp
      linear_combination a * hud + b * hvd
    · have : V3.dot (center + a • e1 + b • e2 - center) e1 = a := by
        unfold V3.dot
        simp
        linear_combination a * hu + b * huv
      rw [this]; exact a1
    · have : V3.dot (center + a • e1 + b • e2 - center) e2 = b := by
        unfold V3.dot
        simp
        linear_combination a * huv + b * hv
      rw [this]; exact a2

example : let b := squareBundle (3 ^ 2) ⟨1, 2, 3⟩ ⟨0, 3/5, -4/5⟩ 2
    b.vertices.length = 3 ^ 2 ∧ b.directions = List.replicate (3 ^ 2) ⟨0, 3/5, -4/5⟩ := by
  have h := C57_partial (k := 3) (by norm_num) ⟨1, 2, 3⟩ (direction := ⟨0, 3/5, -4/5⟩)
    (by norm_num [V3.IsUnit, V3.dot]) (w := 2) (by norm_num)
  exact ⟨h.1, h.2.1⟩

/-- The conditions of the other statements about sources. -/
example : MeasureTheory.volume {d : ℝ × ℝ | (0 ≤ d.1 ∧ d.1 < 2 * π) ∧ (0 ≤ d.2 ∧ d.2 < 1) ∧ d.1 ≤ 1 ∧
      deviation (pillboxOne (1 / 200) d.1 d.2) ⟨0, 0, 1⟩ ≤ 1 / 400} = ENNReal.ofReal (1 * (sin (1 / 400) / sin (1 / 200)) ^ 2) ∧
    (∃ e, (solarDiskBundle ⟨1, 2, 3⟩ ⟨0, 3/5, -4/5⟩ 2 (1/200) (some 1000) [(0, 0), (3, 1/2)] [(1/4, 5), (1, 0)]).energy = some e ∧
      e.sum = 1000 * (π * 2 ^ 2)) ∧
    List.Forall₂ (fun (d : ℝ × ℝ) p => OnDisk ⟨1, 2, 3⟩ ⟨0, 3/5, -4/5⟩ 1 p ↔ d.1 ≤ (1 / 2) ^ 2) [(1/4, 5), (1, 0)]
      (solarDiskBundle ⟨1, 2, 3⟩ ⟨0, 3/5, -4/5⟩ 2 (1/200) none [(0, 0), (3, 1/2)] [(1/4, 5), (1, 0)]).vertices ∧
    (∃ p ∈ (squareBundle 9 ⟨1, 2, 3⟩ ⟨0, 3/5, -4/5⟩ 2).vertices, ∀ u v, Orthonormal3 u v ⟨0, 3/5, -4/5⟩ →
      ¬ OnSquare ⟨1, 2, 3⟩ ⟨0, 3/5, -4/5⟩ u v 2 p) ∧
    (squareBundle 9 ⟨1, 2, 3⟩ ⟨0, 3/5, -4/5⟩ 2).vertices.length = 9 ∧ (squareBundle 2 ⟨1, 2, 3⟩ ⟨0, 3/5, -4/5⟩ 2).vertices.length = 4 := by
  have hu : V3.IsUnit (⟨0, 3/5, -4/5⟩ : V3 ℝ) := by norm_num [V3.IsUnit, V3.dot]
  obtain ⟨_, e, h1, _, _, h2⟩ := C56_power (center := ⟨1, 2, 3⟩) (direction := ⟨0, 3/5, -4/5⟩) (radius := 2) (ang := 1/200)
    (dirDraws := [(0, 0), (3, 1/2)]) (posDraws := [(1/4, 5), (1, 0)]) (by simp) 1000
  exact ⟨C55_distribution (by norm_num) (by linarith [two_le_pi]) (by norm_num) (by norm_num) (by norm_num) (by linarith [two_le_pi]),
    ⟨e, h1, h2⟩, C56_even hu two_pos (by norm_num) _ (by simp; norm_num), C57_width_counterexample (by norm_num) _ hu two_pos,
    (C57_count_iff 9 _ _ two_pos).2 ⟨3, rfl⟩, (C57_counterexample _ _ two_pos).1⟩

end Tracer
