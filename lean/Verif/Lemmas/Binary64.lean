import Verif.Lemmas.SphereLeak

/-! Numbers with 53 significant bits. -/

namespace Tracer

theorem round_mono {x y : ℝ} (h : x ≤ y) : round x ≤ round y := by
  rw [_root_.round_eq, _root_.round_eq]
  exact Int.floor_le_floor (by linarith)

theorem ulp_pos (x : ℝ) : 0 < ulp x := by unfold ulp; exact zpow_pos (by norm_num) _

theorem ulp_bounds {x : ℝ} (hx : x ≠ 0) : 2 ^ 52 * ulp x ≤ |x| ∧ |x| < 2 ^ 53 * ulp x := by
  have h1 : ((2 : ℕ) : ℝ) ^ Int.log 2 |x| ≤ |x| := Int.zpow_log_le_self (by norm_num) (abs_pos.2 hx)
  have h2 : |x| < ((2 : ℕ) : ℝ) ^ (Int.log 2 |x| + 1) := Int.lt_zpow_succ_log_self (by norm_num) |x|
  have e : (2 : ℝ) ^ Int.log 2 |x| = 2 ^ 52 * ulp x := by
    unfold ulp
    rw [zpow_sub₀ (by norm_num)]
    have : ((2 : ℝ) ^ (52 : ℤ)) = 2 ^ 52 := by norm_cast
    rw [this]; field_simp
  push_cast at h1 h2
  rw [zpow_add_one₀ (by norm_num), e] at h2
  rw [e] at h1
  exact ⟨h1, by linarith⟩

/-- Numbers with at most 53 significant bits are not changed. -/
theorem binary64_rep (m e : ℤ) (hm : |m| ≤ 2 ^ 53) : binary64 (m * (2 : ℝ) ^ e) = m * 2 ^ e := by
  by_cases h0 : m = 0
  · simp [h0, binary64]
  have hq : (0 : ℝ) < 2 ^ e := zpow_pos (by norm_num) _
  set x : ℝ := m * 2 ^ e with hx
  have hm0 : (m : ℝ) ≠ 0 := by exact_mod_cast h0
  have hx0 : x ≠ 0 := mul_ne_zero hm0 hq.ne'
  have hax : |x| = |(m : ℝ)| * 2 ^ e := by rw [hx, abs_mul, abs_of_pos hq]
  have hmr : |(m : ℝ)| ≤ 2 ^ 53 := by exact_mod_cast hm
  obtain ⟨b1, b2⟩ := ulp_bounds hx0
  have key : ∃ k : ℤ, x / ulp x = k := by
    have hlog : Int.log 2 |x| ≤ e + 53 := by
      have h1 : ((2 : ℕ) : ℝ) ^ Int.log 2 |x| ≤ |x| := Int.zpow_log_le_self (by norm_num) (abs_pos.2 hx0)
      have h2 : |x| ≤ (2 : ℝ) ^ (e + 53) := by
        rw [hax, zpow_add₀ (by norm_num), mul_comm ((2 : ℝ) ^ e)]
        have : ((2 : ℝ) ^ (53 : ℤ)) = 2 ^ 53 := by norm_cast
        rw [this]
        exact mul_le_mul_of_nonneg_right hmr hq.le
      push_cast at h1
      exact (zpow_le_zpow_iff_right₀ (by norm_num : (1 : ℝ) < 2)).1 (h1.trans h2)
    have hdiv : x / ulp x = m * (2 : ℝ) ^ (e - (Int.log 2 |x| - 52)) := by
      unfold ulp
      rw [hx, zpow_sub₀ (by norm_num : (2 : ℝ) ≠ 0) e, mul_div_assoc]
    rcases hlog.lt_or_eq with hl | hl
    · obtain ⟨n, hn⟩ := Int.eq_ofNat_of_zero_le (show 0 ≤ e - (Int.log 2 |x| - 52) by omega)
      refine ⟨m * 2 ^ n, ?_⟩
      rw [hdiv, hn]
      push_cast
      norm_cast
    · have hul : ulp x = 2 ^ (e + 1) := by unfold ulp; rw [hl]; congr 1; ring
      rw [hul, hax, zpow_add_one₀ (by norm_num)] at b1
      have h53 : |(m : ℝ)| = 2 ^ 53 := by
        apply le_antisymm hmr
        have : (2 : ℝ) ^ 53 * 2 ^ e ≤ |(m : ℝ)| * 2 ^ e := by linarith
        exact le_of_mul_le_mul_right this hq
      rw [hul, hx, zpow_add_one₀ (by norm_num)]
      rcases abs_cases (m : ℝ) with ⟨h, _⟩ | ⟨h, _⟩
      · exact ⟨2 ^ 52, by rw [show (m : ℝ) = 2 ^ 53 by linarith]; field_simp; norm_num⟩
      · exact ⟨-2 ^ 52, by rw [show (m : ℝ) = -2 ^ 53 by linarith]; field_simp; norm_num⟩
  obtain ⟨k, hk⟩ := key
  unfold binary64
  rw [hk, round_intCast, ← hk, div_mul_cancel₀ _ (ulp_pos x).ne']

/-- Every result has at most 53 significant bits. -/
theorem binary64_repr (x : ℝ) : ∃ m e : ℤ, |m| ≤ 2 ^ 53 ∧ binary64 x = m * (2 : ℝ) ^ e := by
  refine ⟨round (x / ulp x), Int.log 2 |x| - 52, ?_, rfl⟩
  by_cases hx : x = 0
  · simp [hx]
  obtain ⟨_, b2⟩ := ulp_bounds hx
  have h : |x / ulp x| < 2 ^ 53 := by
    rw [abs_div, abs_of_pos (ulp_pos x), div_lt_iff₀ (ulp_pos x)]; exact b2
  obtain ⟨h1, h2⟩ := abs_lt.1 h
  rw [_root_.abs_le]
  constructor
  · have := round_mono h1.le
    have e : round (-2 ^ 53 : ℝ) = -2 ^ 53 := by
      rw [show (-2 ^ 53 : ℝ) = ((-2 ^ 53 : ℤ) : ℝ) by norm_num, round_intCast]
    rw [e] at this; exact this
  · have := round_mono h2.le
    have e : round (2 ^ 53 : ℝ) = 2 ^ 53 := by
      rw [show (2 ^ 53 : ℝ) = ((2 ^ 53 : ℤ) : ℝ) by norm_num, round_intCast]
    rw [e] at this; exact this

theorem binary64_idem (x : ℝ) : binary64 (binary64 x) = binary64 x := by
  obtain ⟨m, e, hm, h⟩ := binary64_repr x
  rw [h]; exact binary64_rep m e hm

theorem binary64_twice {x : ℝ} (hx : binary64 x = x) : binary64 (2 * x) = 2 * x := by
  obtain ⟨m, e, hm, h⟩ := binary64_repr x
  rw [hx] at h
  have e1 : 2 * x = m * (2 : ℝ) ^ (e + 1) := by rw [h, zpow_add_one₀ (by norm_num)]; ring
  rw [e1]; exact binary64_rep m _ hm

theorem binary64_neg {x : ℝ} (hx : binary64 x = x) : binary64 (-x) = -x := by
  obtain ⟨m, e, hm, h⟩ := binary64_repr x
  rw [hx] at h
  have e1 : -x = ((-m : ℤ) : ℝ) * (2 : ℝ) ^ e := by rw [h]; push_cast; ring
  rw [e1]; exact binary64_rep _ _ (by rwa [abs_neg])

theorem ulp_le {x y : ℝ} (hx : x ≠ 0) (h : |x| ≤ |y|) : ulp x = ulp y ∨ 2 * ulp x ≤ ulp y := by
  have hl : Int.log 2 |x| ≤ Int.log 2 |y| := Int.log_mono_right (abs_pos.2 hx) h
  rcases hl.lt_or_eq with h | h
  · right
    unfold ulp
    rw [← zpow_one_add₀ (by norm_num)]
    exact zpow_le_zpow_right₀ (by norm_num) (by omega)
  · left
    unfold ulp; rw [h]

theorem binary64_mono {x y : ℝ} (h : x ≤ y) : binary64 x ≤ binary64 y := by
  have up : ∀ {x : ℝ}, x ≠ 0 → x ≤ 2 ^ 53 * ulp x → binary64 x ≤ 2 ^ 53 * ulp x := by
    intro x _ h
    unfold binary64
    apply mul_le_mul_of_nonneg_right _ (ulp_pos x).le
    have := round_mono ((div_le_iff₀ (ulp_pos x)).2 h)
    have e : round (2 ^ 53 : ℝ) = 2 ^ 53 := by
      rw [show (2 ^ 53 : ℝ) = ((2 ^ 53 : ℤ) : ℝ) by norm_num, round_intCast]
    rw [e] at this; exact_mod_cast this
  have up' : ∀ {x : ℝ}, x ≤ -(2 ^ 52 * ulp x) → binary64 x ≤ -(2 ^ 52 * ulp x) := by
    intro x h
    unfold binary64
    rw [← neg_mul]
    apply mul_le_mul_of_nonneg_right _ (ulp_pos x).le
    have := round_mono ((div_le_iff₀ (ulp_pos x)).2 (by linarith : x ≤ -2 ^ 52 * ulp x))
    have e : round (-2 ^ 52 : ℝ) = -2 ^ 52 := by
      rw [show (-2 ^ 52 : ℝ) = ((-2 ^ 52 : ℤ) : ℝ) by norm_num, round_intCast]
    rw [e] at this; exact_mod_cast this
  have dn : ∀ {x : ℝ}, 2 ^ 52 * ulp x ≤ x → 2 ^ 52 * ulp x ≤ binary64 x := by
    intro x h
    unfold binary64
    apply mul_le_mul_of_nonneg_right _ (ulp_pos x).le
    have := round_mono ((le_div_iff₀ (ulp_pos x)).2 h)
    have e : round (2 ^ 52 : ℝ) = 2 ^ 52 := by
      rw [show (2 ^ 52 : ℝ) = ((2 ^ 52 : ℤ) : ℝ) by norm_num, round_intCast]
    rw [e] at this; exact_mod_cast this
  have dn' : ∀ {x : ℝ}, -(2 ^ 53 * ulp x) ≤ x → -(2 ^ 53 * ulp x) ≤ binary64 x := by
    intro x h
    unfold binary64
    rw [← neg_mul]
    apply mul_le_mul_of_nonneg_right _ (ulp_pos x).le
    have := round_mono ((le_div_iff₀ (ulp_pos x)).2 (by linarith : -2 ^ 53 * ulp x ≤ x))
    have e : round (-2 ^ 53 : ℝ) = -2 ^ 53 := by
      rw [show (-2 ^ 53 : ℝ) = ((-2 ^ 53 : ℤ) : ℝ) by norm_num, round_intCast]
    rw [e] at this; exact_mod_cast this
  have same : ulp x = ulp y → binary64 x ≤ binary64 y := by
    intro e
    unfold binary64
    rw [e]
    apply mul_le_mul_of_nonneg_right _ (ulp_pos y).le
    exact_mod_cast round_mono (div_le_div_of_nonneg_right h (ulp_pos y).le)
  rcases lt_trichotomy x 0 with hx | hx | hx
  · obtain ⟨bx1, bx2⟩ := ulp_bounds hx.ne
    rw [abs_of_neg hx] at bx1 bx2
    have h1 := up' (x := x) (by linarith)
    have px := ulp_pos x
    rcases lt_trichotomy y 0 with hy | hy | hy
    · obtain ⟨by1, by2⟩ := ulp_bounds hy.ne
      rw [abs_of_neg hy] at by1 by2
      rcases ulp_le hy.ne (by rw [abs_of_neg hx, abs_of_neg hy]; linarith : |y| ≤ |x|) with e | e
      · exact same e.symm
      · have h2 := dn' (x := y) (by linarith)
        linarith
    · rw [hy, binary64_zero]; linarith
    · obtain ⟨by1, by2⟩ := ulp_bounds hy.ne'
      rw [abs_of_pos hy] at by1 by2
      have h2 := dn by1
      have py := ulp_pos y
      linarith
  · rw [hx, binary64_zero]
    exact (binary64_rounds y).nonneg (by norm_num) (hx ▸ h)
  · have hy : 0 < y := hx.trans_le h
    obtain ⟨bx1, bx2⟩ := ulp_bounds hx.ne'
    obtain ⟨by1, by2⟩ := ulp_bounds hy.ne'
    rw [abs_of_pos hx] at bx1 bx2
    rw [abs_of_pos hy] at by1 by2
    rcases ulp_le hx.ne' (by rw [abs_of_pos hx, abs_of_pos hy]; exact h : |x| ≤ |y|) with e | e
    · exact same e
    · have h1 := up hx.ne' bx2.le
      have h2 := dn by1
      linarith

/-- The rounded root of a rounded square is the number itself. -/
theorem binary64_sqrt_sq {x : ℝ} (hx : binary64 x = x) : binary64 √(binary64 (x ^ 2)) = |x| := by
  by_cases h0 : x = 0
  · simp [h0, binary64_zero]
  have ha : binary64 |x| = |x| := by
    rcases abs_cases x with ⟨h, _⟩ | ⟨h, _⟩ <;> rw [h]
    · exact hx
    · exact binary64_neg hx
  have hp : 0 < |x| := abs_pos.2 h0
  rw [← sq_abs]
  generalize |x| = y at *
  obtain ⟨b1, b2⟩ := ulp_bounds hp.ne'
  rw [abs_of_pos hp] at b1 b2
  set e : ℤ := Int.log 2 |y| - 52 with he
  have hu : ulp y = 2 ^ e := rfl
  set m : ℤ := round (y / ulp y) with hm
  have hy : y = m * (2 : ℝ) ^ e := ha.symm
  have hq : (0 : ℝ) < 2 ^ e := zpow_pos (by norm_num) _
  rw [hu] at b1 b2
  have m1 : (2 : ℝ) ^ 52 ≤ m := by
    rw [hy] at b1; exact le_of_mul_le_mul_right b1 hq
  have m2 : (m : ℝ) < 2 ^ 53 := by
    rw [hy] at b2; exact lt_of_mul_lt_mul_right b2 hq.le
  rcases m1.lt_or_eq with m1' | m1'
  · have hr := binary64_rounds (y ^ 2)
    unfold Rounds at hr
    rw [abs_of_nonneg (sq_nonneg y)] at hr
    obtain ⟨r1, r2⟩ := _root_.abs_le.1 hr
    have hq2 : (0 : ℝ) < (2 ^ e) ^ 2 := by positivity
    have m2' : (m : ℝ) + 1 ≤ 2 ^ 53 := by
      have : m < 2 ^ 53 := by exact_mod_cast m2
      exact_mod_cast this
    have hsmall : 1 / 2 ^ 53 * (m : ℝ) ^ 2 < m - 1 / 4 := by
      rw [div_mul_eq_mul_div, one_mul, div_lt_iff₀ (by norm_num)]
      nlinarith
    have hy2 : y ^ 2 = (m : ℝ) ^ 2 * (2 ^ e) ^ 2 := by rw [hy]; ring
    have hsm := mul_lt_mul_of_pos_right hsmall hq2
    rw [binary64_sqrt m e (by exact_mod_cast m1') (by exact_mod_cast m2), ← hy]
    · rw [mul_pow]
      nlinarith
    · rw [mul_pow]
      nlinarith
  · have hy2 : y ^ 2 = ((1 : ℤ) : ℝ) * (2 : ℝ) ^ (104 + 2 * e) := by
      rw [hy, ← m1', zpow_add₀ (by norm_num), two_mul, zpow_add₀ (by norm_num)]
      have : ((2 : ℝ) ^ (104 : ℤ)) = 2 ^ 104 := by norm_cast
      rw [this]; push_cast; ring
    have := binary64_rep 1 (104 + 2 * e) (by norm_num)
    rw [← hy2] at this
    rw [this, Real.sqrt_sq hp.le, ha]

end Tracer
