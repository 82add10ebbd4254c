import Verif.Props.Refraction

/-!
# Fresnel reflectance (C47)
-/

namespace Tracer

open Real

variable {n1 n2 : ℝ} {d m : V3 ℝ}

/-- The cosine of the angle behind the surface. -/
noncomputable def cosBehind (n1 n2 : ℝ) (d m : V3 ℝ) : ℝ := √(1 - (n1 / n2 * sin (incidence d m)) ^ 2)

theorem fresnelOne_eq (hd : d.IsUnit) (hm : m.IsUnit) :
    fresnelOne d m n1 n2 =
      (((n1 * |V3.dot d m| - n2 * cosBehind n1 n2 d m) / (n1 * |V3.dot d m| + n2 * cosBehind n1 n2 d m)) ^ 2 +
       ((n1 * cosBehind n1 n2 d m - n2 * |V3.dot d m|) / (n1 * cosBehind n1 n2 d m + n2 * |V3.dot d m|)) ^ 2) / 2 := by
  unfold fresnelOne cosBehind
  rw [V3.dot_comm' m d]
  have := cos_incidence hd hm
  unfold incidence at this ⊢
  simp only [this]

theorem fresnelDefined_eq (hd : d.IsUnit) (hm : m.IsUnit) :
    fresnelDefined d m n1 n2 = true ↔
      n1 * |V3.dot d m| + n2 * cosBehind n1 n2 d m ≠ 0 ∧ n1 * cosBehind n1 n2 d m + n2 * |V3.dot d m| ≠ 0 := by
  unfold fresnelDefined cosBehind
  rw [V3.dot_comm' m d]
  have := cos_incidence hd hm
  unfold incidence at this ⊢
  simp only [this, Bool.and_eq_true, decide_eq_true_eq]

theorem cosBehind_nonneg : 0 ≤ cosBehind n1 n2 d m := sqrt_nonneg _

theorem cosBehind_sq (h1 : 0 < n1) (h2 : 0 < n2) (hd : d.IsUnit) (hm : m.IsUnit)
    (h : refractedOne n1 n2 d m = true) :
    cosBehind n1 n2 d m ^ 2 = 1 - (n1 / n2) ^ 2 * (1 - V3.dot d m ^ 2) := by
  unfold cosBehind
  rw [sq_sqrt, mul_pow, sin_incidence hd hm]
  have h3 := (C46_refracted_iff h1 h2 hd hm).1 h
  have h4 : n1 / n2 * sin (incidence d m) ≤ 1 := by
    rw [div_mul_eq_mul_div, div_le_one h2]; exact h3
  have h5 : 0 ≤ n1 / n2 * sin (incidence d m) := mul_nonneg (div_pos h1 h2).le sin_incidence_nonneg
  nlinarith

/-- C47: the reflectance is defined unless the ray grazes a border between equal indices. -/
theorem C47_defined_iff (h1 : 0 < n1) (h2 : 0 < n2) (hd : d.IsUnit) (hm : m.IsUnit)
    (h : refractedOne n1 n2 d m = true) :
    fresnelDefined d m n1 n2 = true ↔ ¬ (V3.dot d m = 0 ∧ n1 = n2) := by
  rw [fresnelDefined_eq hd hm]
  have hb := cosBehind_nonneg (n1 := n1) (n2 := n2) (d := d) (m := m)
  have hsq := cosBehind_sq h1 h2 hd hm h
  generalize cosBehind n1 n2 d m = b at *
  have hc := abs_nonneg (V3.dot d m)
  have key : V3.dot d m = 0 → b = 0 → n1 = n2 := by
    intro e1 e2
    rw [e1, e2] at hsq
    have e3 : (n1 / n2) ^ 2 = 1 := by linarith
    have e4 : n1 / n2 = 1 := by
      have h5 := div_pos h1 h2
      nlinarith
    field_simp at e4
    exact e4
  constructor
  · rintro ⟨a, _⟩ ⟨hc0, hn⟩
    apply a
    rw [hc0, hn, div_self h2.ne'] at hsq
    have : b = 0 := by
      have : b ^ 2 = 0 := by rw [hsq]; ring
      exact pow_eq_zero_iff two_ne_zero |>.1 this
    rw [hc0, this]; simp
  · intro hne
    constructor
    · intro e0
      have a1 : n1 * |V3.dot d m| = 0 := by nlinarith [mul_nonneg h1.le hc, mul_nonneg h2.le hb]
      have a2 : n2 * b = 0 := by nlinarith [mul_nonneg h1.le hc, mul_nonneg h2.le hb]
      have b1 : V3.dot d m = 0 := abs_eq_zero.1 ((mul_eq_zero.1 a1).resolve_left h1.ne')
      exact hne ⟨b1, key b1 ((mul_eq_zero.1 a2).resolve_left h2.ne')⟩
    · intro e0
      have a1 : n2 * |V3.dot d m| = 0 := by nlinarith [mul_nonneg h2.le hc, mul_nonneg h1.le hb]
      have a2 : n1 * b = 0 := by nlinarith [mul_nonneg h2.le hc, mul_nonneg h1.le hb]
      have b1 : V3.dot d m = 0 := abs_eq_zero.1 ((mul_eq_zero.1 a1).resolve_left h2.ne')
      exact hne ⟨b1, key b1 ((mul_eq_zero.1 a2).resolve_left h1.ne')⟩

theorem frac_sq_le_one {p q : ℝ} (hp : 0 ≤ p) (hq : 0 ≤ q) : ((p - q) / (p + q)) ^ 2 ≤ 1 := by
  rcases (add_nonneg hp hq).eq_or_lt with h | h
  · rw [← h]; simp
  · rw [div_pow, div_le_one (by positivity)]
    nlinarith [mul_nonneg hp hq]

/-- C47: the reflectance is a fraction. -/
theorem C47_fraction (h1 : 0 < n1) (h2 : 0 < n2) (hd : d.IsUnit) (hm : m.IsUnit) :
    0 ≤ fresnelOne d m n1 n2 ∧ fresnelOne d m n1 n2 ≤ 1 := by
  rw [fresnelOne_eq hd hm]
  have hb := cosBehind_nonneg (n1 := n1) (n2 := n2) (d := d) (m := m)
  have hc := abs_nonneg (V3.dot d m)
  constructor
  · positivity
  · have a := frac_sq_le_one (mul_nonneg h1.le hc) (mul_nonneg h2.le hb)
    have b := frac_sq_le_one (mul_nonneg h1.le hb) (mul_nonneg h2.le hc)
    linarith

/-- C47: some light enters unless the ray grazes the surface or leaves along it. -/
theorem C47_transmits (h1 : 0 < n1) (h2 : 0 < n2) (hd : d.IsUnit) (hm : m.IsUnit)
    (hc : V3.dot d m ≠ 0) (hs : n1 * sin (incidence d m) < n2) : fresnelOne d m n1 n2 < 1 := by
  have h := (C46_refracted_iff h1 h2 hd hm).2 hs.le
  have hb : 0 < cosBehind n1 n2 d m := by
    unfold cosBehind
    apply sqrt_pos.2
    have h4 : n1 / n2 * sin (incidence d m) < 1 := by
      rw [div_mul_eq_mul_div, div_lt_one h2]; exact hs
    have h5 : 0 ≤ n1 / n2 * sin (incidence d m) := mul_nonneg (div_pos h1 h2).le sin_incidence_nonneg
    nlinarith
  have hc' : 0 < |V3.dot d m| := abs_pos.2 hc
  rw [fresnelOne_eq hd hm]
  have strict : ∀ p q : ℝ, 0 < p → 0 < q → ((p - q) / (p + q)) ^ 2 < 1 := by
    intro p q hp hq
    rw [div_pow, div_lt_one (by positivity)]
    nlinarith [mul_pos hp hq]
  have a := strict _ _ (mul_pos h1 hc') (mul_pos h2 hb)
  have b := strict _ _ (mul_pos h1 hb) (mul_pos h2 hc')
  linarith

/-- C47: nothing is reflected between equal indices. -/
theorem C47_equal (h1 : 0 < n1) (hd : d.IsUnit) (hm : m.IsUnit) : fresnelOne d m n1 n1 = 0 := by
  have hb : cosBehind n1 n1 d m = |V3.dot d m| := by
    have hsq := cosBehind_sq h1 h1 hd hm (C46_denser h1 le_rfl hd hm)
    rw [div_self h1.ne'] at hsq
    rw [← abs_of_nonneg (cosBehind_nonneg (n1 := n1) (n2 := n1) (d := d) (m := m)), ← sq_eq_sq_iff_abs_eq_abs, hsq]
    ring
  rw [fresnelOne_eq hd hm, hb]
  simp

/-- C47: at grazing incidence everything is reflected. -/
theorem C47_grazing (h1 : 0 < n1) (h12 : n1 < n2) (hd : d.IsUnit) (hm : m.IsUnit) (hc : V3.dot d m = 0) :
    fresnelOne d m n1 n2 = 1 := by
  have h2 := h1.trans h12
  have hdef := (C47_defined_iff h1 h2 hd hm (C46_denser h1 h12.le hd hm)).2 (fun h => h12.ne h.2)
  rw [fresnelDefined_eq hd hm, hc] at hdef
  rw [fresnelOne_eq hd hm, hc]
  simp only [abs_zero, mul_zero, zero_add, zero_sub, sub_zero, add_zero] at hdef ⊢
  rw [neg_div, div_self hdef.1, div_self hdef.2]
  norm_num

/-- C47: at the critical angle everything is reflected. -/
theorem C47_critical (h1 : 0 < n1) (h2 : 0 < n2) (hd : d.IsUnit) (hm : m.IsUnit) (hc : V3.dot d m ≠ 0)
    (hs : n1 * sin (incidence d m) = n2) : fresnelOne d m n1 n2 = 1 := by
  have hb : cosBehind n1 n2 d m = 0 := by
    unfold cosBehind
    rw [div_mul_eq_mul_div, hs, div_self h2.ne']
    simp
  have hc' : |V3.dot d m| ≠ 0 := abs_ne_zero.2 hc
  rw [fresnelOne_eq hd hm, hb]
  simp only [mul_zero, zero_add, zero_sub, sub_zero, add_zero]
  rw [neg_div, div_self (mul_ne_zero h1.ne' hc'), div_self (mul_ne_zero h2.ne' hc')]
  norm_num

/-- C47: the reflectance at normal incidence. -/
theorem C47_normal (hd : d.IsUnit) (hm : m.IsUnit) (hc : |V3.dot d m| = 1) :
    fresnelOne d m n1 n2 = ((n1 - n2) / (n1 + n2)) ^ 2 := by
  have hs : sin (incidence d m) = 0 := by
    have := sin_incidence hd hm
    rw [← sq_abs (V3.dot d m), hc] at this
    exact pow_eq_zero_iff two_ne_zero |>.1 (by rw [this]; ring)
  rw [fresnelOne_eq hd hm, hc]
  unfold cosBehind
  rw [hs]
  simp

/-- C47: at Brewster's angle, where the tangent is `n2/n1`, only one polarisation is reflected. -/
theorem C47_brewster (h1 : 0 < n1) (h2 : 0 < n2) (hd : d.IsUnit) (hm : m.IsUnit)
    (hc : n1 * sin (incidence d m) = n2 * cos (incidence d m)) :
    fresnelOne d m n1 n2 = ((n1 ^ 2 - n2 ^ 2) / (n1 ^ 2 + n2 ^ 2)) ^ 2 / 2 := by
  have hs0 : 0 ≤ sin (incidence d m) := sin_incidence_nonneg
  have hb : cosBehind n1 n2 d m = sin (incidence d m) := by
    unfold cosBehind
    have : n1 / n2 * sin (incidence d m) = cos (incidence d m) := by
      rw [div_mul_eq_mul_div, hc]; field_simp
    rw [this, ← abs_of_nonneg hs0, ← sqrt_sq_eq_abs]
    congr 1; linarith [sin_sq_add_cos_sq (incidence d m)]
  rw [fresnelOne_eq hd hm, hb, ← cos_incidence hd hm]
  have hone := sin_sq_add_cos_sq (incidence d m)
  generalize sin (incidence d m) = s at *
  generalize cos (incidence d m) = c at *
  have hc0 : c ≠ 0 := by
    rintro rfl
    have : s = 0 := by
      rcases mul_eq_zero.1 (hc.trans (mul_zero _)) with h | h
      · exact absurd h h1.ne'
      · exact h
    rw [this] at hone
    norm_num at hone
  have hs : s = n2 * c / n1 := by field_simp; linarith
  have r1 : (n1 * c - n2 * s) / (n1 * c + n2 * s) = (n1 ^ 2 - n2 ^ 2) / (n1 ^ 2 + n2 ^ 2) := by
    rw [hs]
    have : n1 ^ 2 + n2 ^ 2 ≠ 0 := by positivity
    have e1 : n1 * c + n2 * (n2 * c / n1) = (n1 ^ 2 + n2 ^ 2) * (c / n1) := by field_simp
    have e2 : n1 * c - n2 * (n2 * c / n1) = (n1 ^ 2 - n2 ^ 2) * (c / n1) := by field_simp
    rw [e1, e2, mul_div_mul_right _ _ (div_ne_zero hc0 h1.ne')]
  rw [r1, hc, sub_self, zero_div]
  ring

/-- C47: the reflectance is the same for the ray on the other side. -/
theorem C47_reversible (h1 : 0 < n1) (h2 : 0 < n2) (hd : d.IsUnit) (hm : m.IsUnit)
    (h : refractedOne n1 n2 d m = true) :
    fresnelOne (refractOne n1 n2 d m) m n2 n1 = fresnelOne d m n1 n2 := by
  have hs := C45_snell h1 h2 hd hm h
  have hsin := C45_sines h1 h2 hd hm h
  generalize refractOne n1 n2 d m = e at *
  have e1 : |V3.dot e m| = cosBehind n1 n2 d m := by
    rw [← cos_incidence hs.unit hm]
    unfold cosBehind
    have : n1 / n2 * sin (incidence d m) = sin (incidence e m) := by
      rw [div_mul_eq_mul_div, hsin]; field_simp
    rw [this, ← abs_of_nonneg (a := cos (incidence e m)), ← sqrt_sq_eq_abs]
    · congr 1; linarith [sin_sq_add_cos_sq (incidence e m)]
    · rw [cos_incidence hs.unit hm]; exact abs_nonneg _
  have e2 : cosBehind n2 n1 e m = |V3.dot d m| := by
    rw [← cos_incidence hd hm]
    unfold cosBehind
    have : n2 / n1 * sin (incidence e m) = sin (incidence d m) := by
      rw [div_mul_eq_mul_div, ← hsin]; field_simp
    rw [this, ← abs_of_nonneg (a := cos (incidence d m)), ← sqrt_sq_eq_abs]
    · congr 1; linarith [sin_sq_add_cos_sq (incidence d m)]
    · rw [cos_incidence hd hm]; exact abs_nonneg _
  rw [fresnelOne_eq hs.unit hm, fresnelOne_eq hd hm, e1, e2]
  have a : ∀ p q : ℝ, ((p - q) / (p + q)) ^ 2 = ((q - p) / (q + p)) ^ 2 := by
    intro p q
    rw [div_pow, div_pow, add_comm p q]
    congr 1; ring
  rw [a (n2 * _), a (n2 * |V3.dot d m|)]

/-- A ray entering glass of index 3/2 head-on loses four percent. -/
example : fresnelOne ⟨0, 0, -1⟩ ⟨0, 0, 1⟩ 1 (3/2) = 1 / 25 ∧ fresnelDefined ⟨0, 0, -1⟩ ⟨0, 0, 1⟩ 1 (3/2) = true := by
  have hd : V3.IsUnit (⟨0, 0, -1⟩ : V3 ℝ) := by norm_num [V3.IsUnit, V3.dot]
  have hm : V3.IsUnit (⟨0, 0, 1⟩ : V3 ℝ) := by norm_num [V3.IsUnit, V3.dot]
  constructor
  · rw [C47_normal hd hm (by norm_num [V3.dot])]; norm_num
  · rw [C47_defined_iff one_pos (by norm_num) hd hm (C46_denser one_pos (by norm_num) hd hm)]
    norm_num

/-- Brewster's angle between indices 3 and 4 has sine 4/5. -/
example : fresnelOne ⟨4/5, 0, -3/5⟩ ⟨0, 0, 1⟩ 3 4 = (7 / 25) ^ 2 / 2 := by
  have hd : V3.IsUnit (⟨4/5, 0, -3/5⟩ : V3 ℝ) := by norm_num [V3.IsUnit, V3.dot]
  have hm : V3.IsUnit (⟨0, 0, 1⟩ : V3 ℝ) := by norm_num [V3.IsUnit, V3.dot]
  have hs : sin (incidence ⟨4/5, 0, -3/5⟩ ⟨0, 0, 1⟩) = 4 / 5 := by
    have := sin_incidence hd hm
    have h0 : 0 ≤ sin (incidence ⟨4/5, 0, -3/5⟩ ⟨0, 0, 1⟩) := sin_incidence_nonneg
    have e : (V3.dot (⟨4/5, 0, -3/5⟩ : V3 ℝ) ⟨0, 0, 1⟩) = -3/5 := by norm_num [V3.dot]
    rw [e] at this
    nlinarith
  have hc : cos (incidence ⟨4/5, 0, -3/5⟩ ⟨0, 0, 1⟩) = 3 / 5 := by
    rw [cos_incidence hd hm]
    have e : (V3.dot (⟨4/5, 0, -3/5⟩ : V3 ℝ) ⟨0, 0, 1⟩) = -(3/5) := by norm_num [V3.dot]
    rw [e, abs_neg, abs_of_pos (by norm_num)]
  rw [C47_brewster (by norm_num) (by norm_num) hd hm (by rw [hs, hc]; norm_num)]
  norm_num

/-- The conditions of the other statements, for the same direction. -/
theorem Examples.slope_unit : V3.IsUnit (⟨4/5, 0, -3/5⟩ : V3 ℝ) := by norm_num [V3.IsUnit, V3.dot]

theorem Examples.up_unit : V3.IsUnit (⟨0, 0, 1⟩ : V3 ℝ) := by norm_num [V3.IsUnit, V3.dot]

theorem Examples.slope_sin : sin (incidence ⟨4/5, 0, -3/5⟩ ⟨0, 0, 1⟩) = 4 / 5 := by
  have := sin_incidence Examples.slope_unit Examples.up_unit
  have h0 : 0 ≤ sin (incidence ⟨4/5, 0, -3/5⟩ ⟨0, 0, 1⟩) := sin_incidence_nonneg
  have e : (V3.dot (⟨4/5, 0, -3/5⟩ : V3 ℝ) ⟨0, 0, 1⟩) = -3/5 := by norm_num [V3.dot]
  rw [e] at this
  nlinarith

example : fresnelOne ⟨4/5, 0, -3/5⟩ ⟨0, 0, 1⟩ 3 4 < 1 ∧ 0 ≤ fresnelOne ⟨4/5, 0, -3/5⟩ ⟨0, 0, 1⟩ 3 4 ∧
    fresnelOne ⟨4/5, 0, -3/5⟩ ⟨0, 0, 1⟩ 3 3 = 0 ∧ fresnelOne ⟨1, 0, 0⟩ ⟨0, 0, 1⟩ 3 4 = 1 ∧ fresnelOne ⟨4/5, 0, -3/5⟩ ⟨0, 0, 1⟩ 5 4 = 1 ∧
    fresnelOne (refractOne 3 4 ⟨4/5, 0, -3/5⟩ ⟨0, 0, 1⟩) ⟨0, 0, 1⟩ 4 3 = fresnelOne ⟨4/5, 0, -3/5⟩ ⟨0, 0, 1⟩ 3 4 := by
  have hd := Examples.slope_unit
  have hm := Examples.up_unit
  exact ⟨C47_transmits (by norm_num) (by norm_num) hd hm (by norm_num [V3.dot]) (by rw [Examples.slope_sin]; norm_num),
    (C47_fraction (by norm_num) (by norm_num) hd hm).1, C47_equal (by norm_num) hd hm,
    C47_grazing (by norm_num) (by norm_num) (by norm_num [V3.IsUnit, V3.dot]) hm (by norm_num [V3.dot]),
    C47_critical (by norm_num) (by norm_num) hd hm (by norm_num [V3.dot]) (by rw [Examples.slope_sin]; norm_num),
    C47_reversible (by norm_num) (by norm_num) hd hm (C46_denser (by norm_num) (by norm_num) hd hm)⟩

end Tracer
