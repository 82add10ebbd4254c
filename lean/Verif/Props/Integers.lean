import Verif.Model.Integers
import Verif.Props.Heliostats
import Mathlib.Tactic.NormNum
import Mathlib.Tactic.FieldSimp
import Mathlib.Tactic.Linarith
import Mathlib.Tactic.Push

/-!
# Whole numbers given as integers (C110)

The numbers a function is given may be integers or floats.  What is the same for both, and what is not.
-/

namespace Tracer

open Real

/-! ### Arithmetic -/

namespace Num

theorem add_val (x y : Num) : (x + y).val = x.val + y.val := by
  cases x <;> cases y
  · exact Int.cast_add _ _
  all_goals rfl

theorem sub_val (x y : Num) : (x - y).val = x.val - y.val := by
  cases x <;> cases y
  · exact Int.cast_sub _ _
  all_goals rfl

theorem mul_val (x y : Num) : (x * y).val = x.val * y.val := by
  cases x <;> cases y
  · exact Int.cast_mul _ _
  all_goals rfl

theorem div_val {x y : Num} (h : x.IsFloat ∨ y.IsFloat) : (x / y).val = x.val / y.val := by
  cases x <;> cases y <;> first | rfl | simp [IsFloat] at h

theorem int_div (a b : ℤ) : (int a / int b : Num) = int ⌊(a : ℝ) / (b : ℝ)⌋ := rfl
theorem int_sub (a b : ℤ) : (int a - int b : Num) = int (a - b) := rfl
theorem int_mul (a b : ℤ) : (int a * int b : Num) = int (a * b) := rfl

theorem div_float {x y : Num} (h : x.IsFloat ∨ y.IsFloat) : (x / y).IsFloat := by
  cases x <;> cases y <;> first | trivial | simp [IsFloat] at h
theorem mul_float {x y : Num} (h : x.IsFloat ∨ y.IsFloat) : (x * y).IsFloat := by
  cases x <;> cases y <;> first | trivial | simp [IsFloat] at h
theorem sub_float {x y : Num} (h : x.IsFloat ∨ y.IsFloat) : (x - y).IsFloat := by
  cases x <;> cases y <;> first | trivial | simp [IsFloat] at h

end Num

/-- The quotient rounded down is the quotient just if it divides. -/
theorem floor_div_iff (a b : ℤ) (hb : b ≠ 0) : ((⌊(a : ℝ) / (b : ℝ)⌋ : ℤ) : ℝ) = (a : ℝ) / (b : ℝ) ↔ b ∣ a := by
  have hb' : (b : ℝ) ≠ 0 := by exact_mod_cast hb
  constructor
  · intro h
    rw [eq_div_iff hb'] at h
    exact ⟨⌊(a : ℝ) / (b : ℝ)⌋, by rw [mul_comm]; exact_mod_cast h.symm⟩
  · rintro ⟨k, rfl⟩
    have : ((b * k : ℤ) : ℝ) / (b : ℝ) = (k : ℝ) := by push_cast; field_simp
    rw [this, Int.floor_intCast]

/-- `truncate` leaves integers as they are, and only them. -/
theorem truncate_iff (x : ℝ) : ((truncate x : ℤ) : ℝ) = x ↔ ∃ z : ℤ, x = z := by
  constructor
  · intro h; exact ⟨_, h.symm⟩
  · rintro ⟨z, rfl⟩
    unfold truncate
    split_ifs <;> simp

theorem truncate_int (z : ℤ) : truncate (z : ℝ) = z := by
  exact_mod_cast (truncate_iff z).2 ⟨z, rfl⟩

theorem truncate_small {x : ℝ} (h : |x| < 1) : truncate x = 0 := by
  obtain ⟨h1, h2⟩ := abs_lt.1 h
  unfold truncate
  split_ifs with h0
  · rw [Int.floor_eq_iff]; constructor <;> push_cast <;> linarith
  · rw [Int.ceil_eq_iff]; push Not at h0; constructor <;> push_cast <;> linarith

/-! ### The lens maker's equation -/

/-- The power of a lens does not depend on how the numbers are given, as long as its depth, its index or its first radius is a
float. -/
theorem C110_lens_partial (depth n R1 R2 : Num) (h : depth.IsFloat ∨ n.IsFloat ∨ R1.IsFloat) :
    (lensPowerNum depth n R1 R2).val = lensPower depth.val n.val R1.val (some R2.val) := by
  have h1 : (Num.flt 1).IsFloat := trivial
  have e1 : (depth * (n - .int 1) / R1).IsFloat := by
    rcases h with h | h | h
    · exact Num.div_float (.inl (Num.mul_float (.inl h)))
    · exact Num.div_float (.inl (Num.mul_float (.inr (Num.sub_float (.inl h)))))
    · exact Num.div_float (.inr h)
  have e2 : (depth * (n - .int 1) / R1 / R2).IsFloat := Num.div_float (.inl e1)
  have e3 : (depth * (n - .int 1) / R1).val = depth.val * (n.val - 1) / R1.val := by
    rw [Num.div_val, Num.mul_val, Num.sub_val]
    · simp [Num.val]
    · rcases h with h | h | h
      · exact .inl (Num.mul_float (.inl h))
      · exact .inl (Num.mul_float (.inr (Num.sub_float (.inl h))))
      · exact .inr h
  unfold lensPowerNum lensPower
  rw [Num.mul_val, Num.add_val, Num.sub_val, Num.sub_val, Num.div_val (.inl h1), Num.div_val (.inl h1),
    Num.div_val (.inl e2), Num.div_val (.inl e1), e3]
  simp [Num.val]

/-- `C110_lens_partial` for a lens of index 1.5, all lengths being integers. -/
example : (lensPowerNum (.int 1) (.flt 1.5) (.int 10) (.int (-10))).val = lensPower 1 1.5 10 (some (-10)) := by
  have := C110_lens_partial (.int 1) (.flt 1.5) (.int 10) (.int (-10)) (.inr (.inl trivial))
  simpa [Num.val] using this

/-- If depth, index and radii are all integers the power is right just if the division of the thickness term leaves no rest
(or the index is 1, and there is no power at all). -/
theorem C110_lens_integers (depth n R1 R2 : ℤ) (hn : n ≠ 0) (h1 : R1 ≠ 0) (h2 : R2 ≠ 0) :
    (lensPowerNum (.int depth) (.int n) (.int R1) (.int R2)).val = lensPower depth n R1 (some (R2 : ℝ)) ↔
      n = 1 ∨ R1 * R2 * n ∣ depth * (n - 1) := by
  have hR1 : (R1 : ℝ) ≠ 0 := by exact_mod_cast h1
  have hR2 : (R2 : ℝ) ≠ 0 := by exact_mod_cast h2
  have hn' : (n : ℝ) ≠ 0 := by exact_mod_cast hn
  have hf : (Num.flt 1).IsFloat := trivial
  set k : ℤ := ⌊((⌊((⌊((depth * (n - 1) : ℤ) : ℝ) / (R1 : ℝ)⌋ : ℤ) : ℝ) / (R2 : ℝ)⌋ : ℤ) : ℝ) / (n : ℝ)⌋ with hk
  have e : (lensPowerNum (.int depth) (.int n) (.int R1) (.int R2)).val =
      ((n : ℝ) - 1) * (1 / (R1 : ℝ) - 1 / (R2 : ℝ) + (k : ℝ)) := by
    unfold lensPowerNum
    rw [Num.mul_val, Num.add_val, Num.sub_val, Num.sub_val, Num.div_val (.inl hf), Num.div_val (.inl hf), Num.int_sub,
      Num.int_mul, Num.int_div, Num.int_div, Num.int_div]
    simp only [Num.val, hk]
    push_cast
    rfl
  have hkiff : (k : ℝ) = (depth : ℝ) * ((n : ℝ) - 1) / R1 / R2 / n ↔ R1 * R2 * n ∣ depth * (n - 1) := by
    constructor
    · intro h
      refine ⟨k, ?_⟩
      have : (depth : ℝ) * ((n : ℝ) - 1) = R1 * R2 * n * k := by rw [h]; field_simp
      exact_mod_cast this
    · rintro ⟨q, hq⟩
      have a1 : ⌊((depth * (n - 1) : ℤ) : ℝ) / (R1 : ℝ)⌋ = R2 * n * q := by
        rw [hq]
        have : ((R1 * R2 * n * q : ℤ) : ℝ) / (R1 : ℝ) = ((R2 * n * q : ℤ) : ℝ) := by push_cast; field_simp
        rw [this, Int.floor_intCast]
      have a2 : ⌊((R2 * n * q : ℤ) : ℝ) / (R2 : ℝ)⌋ = n * q := by
        have : ((R2 * n * q : ℤ) : ℝ) / (R2 : ℝ) = ((n * q : ℤ) : ℝ) := by push_cast; field_simp
        rw [this, Int.floor_intCast]
      have a3 : ⌊((n * q : ℤ) : ℝ) / (n : ℝ)⌋ = q := by
        have : ((n * q : ℤ) : ℝ) / (n : ℝ) = (q : ℝ) := by push_cast; field_simp
        rw [this, Int.floor_intCast]
      rw [hk, a1, a2, a3]
      have : (depth : ℝ) * ((n : ℝ) - 1) = R1 * R2 * n * q := by exact_mod_cast hq
      rw [this]; field_simp
  rw [e]
  unfold lensPower
  simp only
  rw [← hkiff]
  constructor
  · intro h
    by_cases hn1 : n = 1
    · exact .inl hn1
    · right
      have : (n : ℝ) - 1 ≠ 0 := by
        intro hc; apply hn1; have : (n : ℝ) = 1 := by linarith
        exact_mod_cast this
      have := mul_left_cancel₀ this h
      linarith
  · rintro (rfl | h)
    · simp
    · rw [h]

/-- In particular a lens of an integer index above 1 whose depth is less than the first radius is given the power of a lens without
thickness. -/
theorem C110_thin_lens (depth n R1 R2 : ℤ) (h0 : 0 < depth) (hn : 1 < n) (hR : depth * (n - 1) < R1) (h2 : R2 ≠ 0) :
    (lensPowerNum (.int depth) (.int n) (.int R1) (.int R2)).val = lensPower 0 n R1 (some (R2 : ℝ)) ∧
    (lensPowerNum (.int depth) (.int n) (.int R1) (.int R2)).val ≠ lensPower depth n R1 (some (R2 : ℝ)) := by
  have hpos : 0 < depth * (n - 1) := mul_pos h0 (by omega)
  have hR1 : (0 : ℝ) < R1 := by exact_mod_cast (lt_trans hpos hR)
  have hf : (Num.flt 1).IsFloat := trivial
  have a1 : ⌊((depth * (n - 1) : ℤ) : ℝ) / (R1 : ℝ)⌋ = 0 := by
    rw [Int.floor_eq_iff]
    constructor
    · push_cast
      exact div_nonneg (by exact_mod_cast hpos.le) hR1.le
    · rw [div_lt_iff₀ hR1]
      have : ((depth * (n - 1) : ℤ) : ℝ) < (R1 : ℝ) := by exact_mod_cast hR
      push_cast at this ⊢
      linarith
  have e : (lensPowerNum (.int depth) (.int n) (.int R1) (.int R2)).val =
      ((n : ℝ) - 1) * (1 / (R1 : ℝ) - 1 / (R2 : ℝ)) := by
    unfold lensPowerNum
    rw [Num.mul_val, Num.add_val, Num.sub_val, Num.sub_val, Num.div_val (.inl hf), Num.div_val (.inl hf), Num.int_sub,
      Num.int_mul, Num.int_div, a1, Num.int_div, Num.int_div]
    simp [Num.val]
  constructor
  · rw [e]; unfold lensPower; simp
  · rw [Ne, C110_lens_integers depth n R1 R2 (by omega) (by omega) h2]
    rintro (rfl | ⟨q, hq⟩)
    · omega
    · have hq0 : q ≠ 0 := by rintro rfl; simp at hq; omega
      have h3 : 1 ≤ |R2 * n * q| := Int.one_le_abs (by
        refine mul_ne_zero (mul_ne_zero h2 (by omega)) hq0)
      have h4 : |depth * (n - 1)| = R1 * |R2 * n * q| := by
        rw [hq, show R1 * R2 * n * q = R1 * (R2 * n * q) by ring, abs_mul, abs_of_pos (by omega : 0 < R1)]
      rw [abs_of_pos hpos] at h4
      nlinarith

/-- A biconvex lens of index 2: power 1/5 instead of 39/200. -/
example : (lensPowerNum (.int 1) (.int 2) (.int 10) (.int (-10))).val = 1 / 5 ∧ lensPower 1 2 10 (some (-10)) = 39 / 200 := by
  have h := (C110_thin_lens 1 2 10 (-10) (by norm_num) (by norm_num) (by norm_num) (by norm_num)).1
  constructor
  · rw [h]; unfold lensPower; norm_num
  · unfold lensPower; norm_num

/-! ### Hartmann's equation and the step between angles -/

/-- Of the numbers in Hartmann's equation it is `b`, `c` and the wavelength that matter: the index is right if one of them is a
float, otherwise just if the division leaves no rest. -/
theorem C110_hartmann (wavelength a b c d e : Num) :
    ((b.IsFloat ∨ c.IsFloat ∨ wavelength.IsFloat) →
      (refrIdxHartmannNum wavelength a b c d e).val = a.val + b.val / (c.val - wavelength.val)) ∧
    ∀ w b' c' : ℤ, wavelength = .int w → b = .int b' → c = .int c' → c' ≠ w →
      ((refrIdxHartmannNum wavelength a b c d e).val = a.val + b.val / (c.val - wavelength.val) ↔ c' - w ∣ b') := by
  constructor
  · intro h
    unfold refrIdxHartmannNum
    rw [Num.add_val, Num.div_val, Num.sub_val]
    rcases h with h | h | h
    · exact .inl h
    · exact .inr (Num.sub_float (.inl h))
    · exact .inr (Num.sub_float (.inr h))
  · rintro w b' c' rfl rfl rfl hne
    rw [← floor_div_iff b' (c' - w) (by omega)]
    unfold refrIdxHartmannNum
    rw [Num.add_val, Num.int_sub, Num.int_div]
    simp only [Num.val]
    push_cast
    constructor <;> intro h <;> linarith

example : (refrIdxHartmannNum (.int 500) (.flt 1.5) (.int 10) (.int 900) (.int 0) (.int 0)).val ≠ 1.5 + 10 / (900 - 500) := by
  have h := (C110_hartmann (.int 500) (.flt 1.5) (.int 10) (.int 900) (.int 0) (.int 0)).2 500 10 900 rfl rfl rfl (by norm_num)
  have h2 : ¬ ((900 : ℤ) - 500 ∣ 10) := by decide
  intro hc
  exact h2 (h.1 (by rw [hc]; simp only [Num.val]; norm_num))

/-- The angles of a radial stagger are half the spacing apart, unless it is an odd integer; for 1 the step is zero. -/
theorem C110_stagger (azSpace : Num) :
    ((staggerStepNum azSpace).val = azSpace.val / 2 ↔ azSpace.IsFloat ∨ ∃ k : ℤ, azSpace = .int (2 * k)) ∧
    (staggerStepNum (.int 1)).val = 0 := by
  constructor
  · cases azSpace with
    | flt x =>
      refine ⟨fun _ => .inl trivial, fun _ => ?_⟩
      unfold staggerStepNum
      rw [Num.div_val (x := .flt x) (.inl trivial)]
      simp [Num.val]
    | int z =>
      have := floor_div_iff z 2 (by norm_num)
      unfold staggerStepNum
      rw [Num.int_div]
      simp only [Num.val, Num.IsFloat, false_or]
      push_cast at this ⊢
      rw [this]
      constructor
      · rintro ⟨k, rfl⟩; exact ⟨k, rfl⟩
      · rintro ⟨k, hk⟩; injection hk with hk; exact ⟨k, hk⟩
  · unfold staggerStepNum
    rw [Num.int_div]
    simp only [Num.val]
    norm_num

/-! ### Refraction -/

/-- Where the ray's index or the one of the medium entered is a float, refraction does not depend on how the other is given. -/
theorem C110_refraction_partial (n1 n2 : Num) (h : n1.IsFloat ∨ n2.IsFloat) (d m : V3 ℝ) :
    refractedNum n1 n2 d m = refractedOne n1.val n2.val d m ∧
    refractNum n1 n2 d m = refractOne n1.val n2.val d m ∧
    fresnelNum d m n1 n2 = fresnelOne d m n1.val n2.val := by
  unfold refractedNum refractedOne refractNum refractOne fresnelNum fresnelOne
  rw [Num.div_val h, Num.div_val h.symm]
  exact ⟨rfl, rfl, rfl⟩

example : refractedNum (.flt 1) (.int 2) ⟨0, 3/5, -4/5⟩ ⟨0, 0, 1⟩ = refractedOne 1 2 ⟨0, 3/5, -4/5⟩ ⟨0, 0, 1⟩ := by
  have := (C110_refraction_partial (.flt 1) (.int 2) (.inl trivial) ⟨0, 3/5, -4/5⟩ ⟨0, 0, 1⟩).1
  simpa [Num.val] using this

/-- The index of the medium entered is the right one, and it is a float just if one of the surface's indices is.  -/
theorem C110_toggle (a b current : Num) :
    (toggleRefIdxNum a b current).val = toggleRefIdx a.val b.val current.val ∧
    ((toggleRefIdxNum a b current).IsFloat ↔ a.IsFloat ∨ b.IsFloat) := by
  cases a with
  | int a =>
    cases b with
    | int b =>
      refine ⟨?_, by simp [toggleRefIdxNum, Num.IsFloat]⟩
      show (((if current.val = a then b else a : ℤ)) : ℝ) = if current.val = a then (b : ℝ) else a
      split_ifs <;> rfl
    | flt b => exact ⟨rfl, by simp [toggleRefIdxNum, Num.IsFloat]⟩
  | flt a => exact ⟨rfl, by simp [toggleRefIdxNum, Num.IsFloat]⟩

/-- In the sum of two bundles every index is a float if some index in either is, and the indices mean the same. -/
theorem C110_sum (l l' : List Num) :
    (hstackNum l l').map Num.val = (l ++ l').map Num.val ∧
    ((∃ x ∈ l ++ l', x.IsFloat) → ∀ x ∈ hstackNum l l', x.IsFloat) := by
  unfold hstackNum
  constructor
  · split_ifs
    · rw [List.map_map]; rfl
    · rfl
  · intro h
    rw [if_pos h]
    intro x hx
    obtain ⟨y, _, rfl⟩ := List.mem_map.1 hx
    trivial

/-- With integer indices rays never leave the denser medium, unless they meet the surface at right angles. -/
theorem C110_trapped (a b : ℤ) (ha : 0 < a) (hab : a < b) (d m : V3 ℝ) :
    (refractedNum (.int b) (.int a) d m = true ↔ 1 ≤ V3.dot m d ^ 2) ∧
    (refractedOne b a d m = true ↔ 1 - ((a : ℝ) / b) ^ 2 ≤ V3.dot m d ^ 2) := by
  have hb : (0 : ℝ) < b := by exact_mod_cast (lt_trans ha hab)
  have ha' : (0 : ℝ) < a := by exact_mod_cast ha
  have hab' : (a : ℝ) < b := by exact_mod_cast hab
  constructor
  · unfold refractedNum
    have : ⌊(a : ℝ) / (b : ℝ)⌋ = 0 := by
      rw [Int.floor_eq_iff]
      constructor
      · push_cast; positivity
      · rw [div_lt_iff₀ hb]; push_cast; linarith
    rw [Num.int_div, this]
    simp [Num.val]
  · unfold refractedOne
    simp

/-- A ray in glass of index 2 that comes to the surface at 30 degrees or less should get out. -/
example : refractedOne 2 1 ⟨0, 1/10, √99/10⟩ ⟨0, 0, 1⟩ = true ∧ refractedNum (.int 2) (.int 1) ⟨0, 1/10, √99/10⟩ ⟨0, 0, 1⟩ = false := by
  have h := C110_trapped 1 2 (by norm_num) (by norm_num) ⟨0, 1/10, √99/10⟩ ⟨0, 0, 1⟩
  have e : V3.dot (⟨0, 0, 1⟩ : V3 ℝ) ⟨0, 1/10, √99/10⟩ ^ 2 = 99 / 100 := by
    unfold V3.dot
    have : √99 ^ 2 = 99 := sq_sqrt (by norm_num)
    simp only
    nlinarith
  rw [e] at h
  constructor
  · have := h.2.2 (by norm_num)
    simpa using this
  · rw [Bool.eq_false_iff]
    intro hc
    have := h.1.1 hc
    norm_num at this

/-- Entering the denser medium, with integer indices, a ray goes on as if the ratio of the indices were rounded down: in the right
direction just if the ratio is an integer or the ray meets the surface at right angles. -/
theorem C110_enters (a b : ℤ) (ha : 0 < a) (hab : a ≤ b) (d m : V3 ℝ) (hd : d.IsUnit) (hm : m.IsUnit) :
    refractedNum (.int a) (.int b) d m = true ∧
    (refractNum (.int a) (.int b) d m = refractOne a b d m ↔ a ∣ b ∨ d = V3.dot m d • m) := by
  have ha' : (0 : ℝ) < a := by exact_mod_cast ha
  have hab' : (a : ℝ) ≤ b := by exact_mod_cast hab
  have hq : (1 : ℝ) ≤ (b : ℝ) / a := by rw [le_div_iff₀ ha']; linarith
  have hfl : (1 : ℤ) ≤ ⌊(b : ℝ) / (a : ℝ)⌋ := by rw [Int.le_floor]; exact_mod_cast hq
  have hfl' : (1 : ℝ) ≤ ((⌊(b : ℝ) / (a : ℝ)⌋ : ℤ) : ℝ) := by exact_mod_cast hfl
  have hx : ∀ n : ℝ, 1 ≤ n → V3.dot m d ^ 2 ≥ 1 - n ^ 2 := fun n hn => by nlinarith [sq_nonneg (V3.dot m d)]
  constructor
  · unfold refractedNum
    rw [Num.int_div]
    simp only [Num.val]
    exact decide_eq_true (hx _ hfl')
  · -- the tangential part of what `refractOne` gives
    have htan : ∀ n : ℝ, ∀ s : ℝ,
        V3.dot (⟨(d.x - V3.dot m d * m.x) / n + m.x * s, (d.y - V3.dot m d * m.y) / n + m.y * s,
          (d.z - V3.dot m d * m.z) / n + m.z * s⟩ : V3 ℝ) (d - V3.dot m d • m) = (1 - V3.dot m d ^ 2) / n := by
      intro n s
      unfold V3.IsUnit V3.dot at hd hm
      unfold V3.dot
      simp only [V3.sub_x, V3.sub_y, V3.sub_z, V3.smul_x, V3.smul_y, V3.smul_z]
      generalize hc : m.x * d.x + m.y * d.y + m.z * d.z = c
      have e1 : (d.x - c * m.x) * (d.x - c * m.x) + (d.y - c * m.y) * (d.y - c * m.y) + (d.z - c * m.z) * (d.z - c * m.z) =
          1 - c ^ 2 := by
        linear_combination hd + c ^ 2 * hm - 2 * c * hc
      have e2 : m.x * (d.x - c * m.x) + m.y * (d.y - c * m.y) + m.z * (d.z - c * m.z) = 0 := by
        linear_combination hc - c * hm
      rw [← e1]
      linear_combination s * e2
    have hperp : V3.dot m d ^ 2 = 1 → d = V3.dot m d • m := by
      intro h1
      unfold V3.IsUnit V3.dot at hd hm
      unfold V3.dot at h1 ⊢
      generalize hc : m.x * d.x + m.y * d.y + m.z * d.z = c at h1
      have e1 : (d.x - c * m.x) ^ 2 + (d.y - c * m.y) ^ 2 + (d.z - c * m.z) ^ 2 = 0 := by
        linear_combination hd + c ^ 2 * hm - 2 * c * hc - h1
      have hx1 := sq_nonneg (d.x - c * m.x)
      have hx2 := sq_nonneg (d.y - c * m.y)
      have hx3 := sq_nonneg (d.z - c * m.z)
      apply V3.ext
      · have := pow_eq_zero_iff (two_ne_zero) |>.1 (by linarith : (d.x - c * m.x) ^ 2 = 0)
        simp; linarith
      · have := pow_eq_zero_iff (two_ne_zero) |>.1 (by linarith : (d.y - c * m.y) ^ 2 = 0)
        simp; linarith
      · have := pow_eq_zero_iff (two_ne_zero) |>.1 (by linarith : (d.z - c * m.z) ^ 2 = 0)
        simp; linarith
    constructor
    · intro h
      have h1 := congrArg (fun v => V3.dot v (d - V3.dot m d • m)) h
      unfold refractNum refractOne at h1
      rw [Num.int_div] at h1
      simp only [Num.val, mul_assoc] at h1
      rw [htan, htan] at h1
      by_cases hc : 1 - V3.dot m d ^ 2 = 0
      · exact .inr (hperp (by linarith))
      · left
        rw [← floor_div_iff b a (by omega)]
        rw [div_eq_div_iff (by linarith) (by linarith)] at h1
        exact (mul_left_cancel₀ hc h1).symm
    · rintro (h | h)
      · unfold refractNum refractOne
        rw [Num.int_div]
        simp only [Num.val]
        rw [(floor_div_iff b a (by omega)).2 h]
      · have hc : V3.dot m d ^ 2 = 1 := by
          have h2 : V3.dot d d = V3.dot m d * V3.dot m d * V3.dot m m := by
            conv_lhs => rw [h]
            unfold V3.dot; simp; ring
          unfold V3.IsUnit at hd hm
          rw [hd, hm] at h2
          linarith
        have hx1 := congrArg V3.x h
        have hx2 := congrArg V3.y h
        have hx3 := congrArg V3.z h
        simp only [V3.smul_x, V3.smul_y, V3.smul_z] at hx1 hx2 hx3
        unfold refractNum refractOne
        rw [Num.int_div]
        simp only [hc, sub_self, mul_zero, sub_zero]
        rw [← hx1, ← hx2, ← hx3]
        simp

/-- The indices 2 and 3: the ray is not bent at all, because the ratio is taken to be 1. -/
example : refractNum (.int 2) (.int 3) ⟨0, 3/5, -4/5⟩ ⟨0, 0, 1⟩ = ⟨0, 3/5, -4/5⟩ ∧
    refractNum (.int 2) (.int 3) ⟨0, 3/5, -4/5⟩ ⟨0, 0, 1⟩ ≠ refractOne 2 3 ⟨0, 3/5, -4/5⟩ ⟨0, 0, 1⟩ := by
  have hfl : ⌊((3 : ℤ) : ℝ) / ((2 : ℤ) : ℝ)⌋ = 1 := by rw [Int.floor_eq_iff]; norm_num
  constructor
  · have h16 : √((4 / 5 : ℝ) ^ 2) = 4 / 5 := sqrt_sq (by norm_num)
    have h17 : √(1 - (1 - (4 / 5 : ℝ) ^ 2)) = 4 / 5 := by rw [sub_sub_cancel]; exact h16
    unfold refractNum
    rw [Num.int_div, hfl]
    simp [Num.val, V3.dot]
    norm_num
    rw [← sqrt_div (by norm_num), show (16 / 25 : ℝ) = (4 / 5) ^ 2 by norm_num, h16]
  · have h := (C110_enters 2 3 (by norm_num) (by norm_num) ⟨0, 3/5, -4/5⟩ ⟨0, 0, 1⟩
      (by unfold V3.IsUnit V3.dot; norm_num) (by unfold V3.IsUnit V3.dot; norm_num)).2
    intro hc
    rcases h.1 (by simpa using hc) with h' | h'
    · revert h'; decide
    · have := congrArg V3.y h'
      simp [V3.dot] at this

/-- The reflectance is wrong as well, entering glass of index 2 at an angle whose cosine is 3/5: 0.149 of the light is reflected,
where it should be 0.137. -/
theorem C110_fresnel_fails :
    fresnelNum ⟨0, 4/5, -3/5⟩ ⟨0, 0, 1⟩ (.int 1) (.int 2) > 0.149 ∧ fresnelOne ⟨0, 4/5, -3/5⟩ ⟨0, 0, 1⟩ 1 2 < 0.138 := by
  have habs : |V3.dot (⟨0, 0, 1⟩ : V3 ℝ) ⟨0, 4/5, -3/5⟩| = 3 / 5 := by
    unfold V3.dot; norm_num [abs_of_neg, abs_div]
  have hcos : cos (arccos (3 / 5)) = 3 / 5 := cos_arccos (by norm_num) (by norm_num)
  have hsin : sin (arccos (3 / 5)) = 4 / 5 := by
    rw [sin_arccos, show (1 - (3 / 5) ^ 2 : ℝ) = (4 / 5) ^ 2 by norm_num, sqrt_sq (by norm_num)]
  have hfl : ⌊((1 : ℤ) : ℝ) / ((2 : ℤ) : ℝ)⌋ = 0 := by rw [Int.floor_eq_iff]; norm_num
  constructor
  · unfold fresnelNum
    rw [Num.int_div, hfl, habs]
    simp only [hcos, hsin, Num.val]
    norm_num
  · unfold fresnelOne
    rw [habs]
    simp only [hcos, hsin]
    have e : (1 - (1 / 2 * (4 / 5)) ^ 2 : ℝ) = 21 / 25 := by norm_num
    rw [e]
    have h1 : √(21 / 25 : ℝ) < 0.9168 := by rw [sqrt_lt' (by norm_num)]; norm_num
    have h2 : 0.9164 < √(21 / 25 : ℝ) := by rw [lt_sqrt (by norm_num)]; norm_num
    generalize √(21 / 25 : ℝ) = s at h1 h2
    have h3 : ((1 * (3 / 5) - 2 * s) / (1 * (3 / 5) + 2 * s)) ^ 2 < 0.257 := by
      rw [div_pow, div_lt_iff₀ (by positivity)]; nlinarith
    have h4 : ((1 * s - 2 * (3 / 5)) / (1 * s + 2 * (3 / 5))) ^ 2 < 0.0181 := by
      rw [div_pow, div_lt_iff₀ (by positivity)]; nlinarith
    linarith

/-! ### Heliostats -/

/-- At least two of the three numbers are not zero. -/
def TwoNonzero (v : V3 ℤ) : Prop := (v.x ≠ 0 ∧ v.y ≠ 0) ∨ (v.y ≠ 0 ∧ v.z ≠ 0) ∨ (v.x ≠ 0 ∧ v.z ≠ 0)

/-- `0 < w` and `u ≠ 0`: less than the whole. -/
theorem abs_div_sqrt_lt_one {u w : ℝ} (h : 0 < w) : |u / √(u ^ 2 + w)| < 1 := by
  have hp : 0 < u ^ 2 + w := by positivity
  rw [abs_div, abs_of_pos (sqrt_pos.2 hp), div_lt_one (sqrt_pos.2 hp)]
  exact lt_sqrt_of_sq_lt (by rw [sq_abs]; linarith)

theorem normalize_two {v : V3 ℤ} (h : TwoNonzero v) : ((normalizeRow v.ofInt).truncate : V3 ℤ) = ⟨0, 0, 0⟩ := by
  have sq : ∀ z : ℤ, z ≠ 0 → (0 : ℝ) < (z : ℝ) ^ 2 := fun z hz => by
    have : (z : ℝ) ≠ 0 := by exact_mod_cast hz
    positivity
  have nn : ∀ z : ℤ, (0 : ℝ) ≤ (z : ℝ) ^ 2 := fun z => sq_nonneg _
  have key : 0 < (v.y : ℝ) ^ 2 + (v.z : ℝ) ^ 2 ∧ 0 < (v.x : ℝ) ^ 2 + (v.z : ℝ) ^ 2 ∧ 0 < (v.x : ℝ) ^ 2 + (v.y : ℝ) ^ 2 := by
    rcases h with ⟨a, b⟩ | ⟨a, b⟩ | ⟨a, b⟩ <;> refine ⟨?_, ?_, ?_⟩ <;>
      linarith [sq _ a, sq _ b, nn v.x, nn v.y, nn v.z]
  unfold V3.truncate normalizeRow V3.ofInt
  simp only
  congr 1
  · apply truncate_small
    rw [add_assoc]; exact abs_div_sqrt_lt_one key.1
  · apply truncate_small
    rw [show (v.x : ℝ) ^ 2 + (v.y : ℝ) ^ 2 + (v.z : ℝ) ^ 2 = (v.y : ℝ) ^ 2 + ((v.x : ℝ) ^ 2 + (v.z : ℝ) ^ 2) by ring]
    exact abs_div_sqrt_lt_one key.2.1
  · apply truncate_small
    rw [show (v.x : ℝ) ^ 2 + (v.y : ℝ) ^ 2 + (v.z : ℝ) ^ 2 = (v.z : ℝ) ^ 2 + ((v.x : ℝ) ^ 2 + (v.y : ℝ) ^ 2) by ring]
    exact abs_div_sqrt_lt_one key.2.2

theorem normalize_one {v : V3 ℤ} (h0 : v ≠ ⟨0, 0, 0⟩) (h : ¬ TwoNonzero v) :
    (normalizeRow v.ofInt).truncate.ofInt = normalizeRow v.ofInt := by
  have unit : ∀ z : ℤ, z ≠ 0 → ∃ k : ℤ, (z : ℝ) / |(z : ℝ)| = k := fun z hz => by
    have hz' : (z : ℝ) ≠ 0 := by exact_mod_cast hz
    rcases lt_or_gt_of_ne hz' with h | h
    · exact ⟨-1, by rw [abs_of_neg h]; push_cast; field_simp⟩
    · exact ⟨1, by rw [abs_of_pos h]; push_cast; field_simp⟩
  unfold TwoNonzero at h
  push Not at h
  obtain ⟨hxy, hyz, hxz⟩ := h
  suffices hs : ∃ w : V3 ℤ, normalizeRow v.ofInt = w.ofInt by
    obtain ⟨w, hw⟩ := hs
    rw [hw]
    unfold V3.truncate V3.ofInt
    simp only [truncate_int]
  obtain ⟨x, y, z⟩ := v
  simp only at hxy hyz hxz
  unfold normalizeRow V3.ofInt
  simp only
  by_cases hx : x = 0
  · by_cases hy : y = 0
    · have hz : z ≠ 0 := by rintro rfl; exact h0 (by rw [hx, hy])
      obtain ⟨k, hk⟩ := unit z hz
      refine ⟨⟨0, 0, k⟩, ?_⟩
      subst hx hy
      simp [sqrt_sq_eq_abs, hk]
    · have hz := hyz hy
      obtain ⟨k, hk⟩ := unit y hy
      refine ⟨⟨0, k, 0⟩, ?_⟩
      subst hx hz
      simp [sqrt_sq_eq_abs, hk]
  · have hy := hxy hx
    have hz := hxz hx
    obtain ⟨k, hk⟩ := unit x hx
    refine ⟨⟨k, 0, 0⟩, ?_⟩
    subst hy hz
    simp [sqrt_sq_eq_abs, hk]

/-- With positions given as integers heliostats cannot be aimed: since NumPy 1.10 `aim_to_sun` raises. -/
theorem C110_heliostat_raises (azimuth elevation : ℝ) (aimHeight : Num) (pos : V3 ℤ) :
    aimTransformInt true azimuth elevation aimHeight pos = .error .type := by
  unfold aimTransformInt addInPlace
  cases aimHeight <;> rfl

/-- Before that it aimed a heliostat straight at the sun, unless it is straight north, south, east or west of the aim point, on its
level, or straight below or above it. -/
theorem C110_heliostat_to_sun (azimuth elevation : ℝ) (height : ℤ) (pos : V3 ℤ)
    (h : TwoNonzero ⟨pos.x, pos.y, height - pos.z⟩) :
    ∃ T, aimTransformInt false azimuth elevation (.int height) pos = .ok T ∧ T.loc = pos.ofInt ∧
      T.rot.c3 = solarVector azimuth elevation ∧
      reflection (-solarVector azimuth elevation) T.rot.c3 = solarVector azimuth elevation := by
  have h' : TwoNonzero ⟨-pos.x, -pos.y, -pos.z + height⟩ := by
    unfold TwoNonzero at h ⊢
    simp only at h ⊢
    omega
  have hu := (C59_solar_vector azimuth elevation).1
  have e1 : V3.ofInt (⟨0, 0, 0⟩ : V3 ℤ) = (0 : V3 ℝ) := by unfold V3.ofInt; apply V3.ext <;> simp
  have e2 : solarVector azimuth elevation + (0 : V3 ℝ) = solarVector azimuth elevation := by apply V3.ext <;> simp
  have hc : normalizeRow (solarVector azimuth elevation) = solarVector azimuth elevation := by
    unfold V3.IsUnit at hu
    rw [normalizeRow_eq, hu]
    apply V3.ext <;> simp
  refine ⟨⟨(rotz (arctan2 (solarVector azimuth elevation).y (solarVector azimuth elevation).x) *
    roty (arccos (solarVector azimuth elevation).z)).rot, pos.ofInt⟩, ?_, rfl, rotz_roty_c3 hu, ?_⟩
  · unfold aimTransformInt addInPlace
    simp only [Bool.false_eq_true, if_false]
    rw [normalize_two h', e1, e2, hc]
  · simp only
    rw [rotz_roty_c3 hu]
    generalize solarVector azimuth elevation = s at hu
    unfold V3.IsUnit V3.dot at hu
    unfold reflection V3.dot
    apply V3.ext <;> simp
    · linear_combination 2 * s.x * hu
    · linear_combination 2 * s.y * hu
    · linear_combination 2 * s.z * hu

example : TwoNonzero ⟨5, 0, 20 - 0⟩ := by unfold TwoNonzero; simp

/-- In those directions the transform was the right one. -/
theorem C110_heliostat_partial (azimuth elevation : ℝ) (height : ℤ) (pos : V3 ℤ) (h0 : pos ≠ ⟨0, 0, height⟩)
    (h : ¬ TwoNonzero ⟨pos.x, pos.y, height - pos.z⟩) :
    aimTransformInt false azimuth elevation (.int height) pos = .ok (aimTransform azimuth elevation height pos.ofInt) := by
  have h' : ¬ TwoNonzero ⟨-pos.x, -pos.y, -pos.z + height⟩ := by
    unfold TwoNonzero at h ⊢
    simp only at h ⊢
    omega
  have h0' : (⟨-pos.x, -pos.y, -pos.z + height⟩ : V3 ℤ) ≠ ⟨0, 0, 0⟩ := by
    intro hc
    injection hc with hx hy hz
    apply h0
    apply V3.ext
    · simp only; omega
    · simp only; omega
    · simp only; omega
  have e : V3.ofInt ⟨-pos.x, -pos.y, -pos.z + height⟩ =
      (⟨(-pos.ofInt).x, (-pos.ofInt).y, (-pos.ofInt).z + (height : ℝ)⟩ : V3 ℝ) := by
    unfold V3.ofInt; apply V3.ext <;> simp
  unfold aimTransformInt addInPlace aimTransform
  simp only [Bool.false_eq_true, if_false]
  rw [normalize_one h0' h', e]

example : ¬ TwoNonzero ⟨0, 0, 20 - 0⟩ ∧ (⟨0, 0, 0⟩ : V3 ℤ) ≠ ⟨0, 0, 20⟩ := by
  unfold TwoNonzero; simp

/-- Otherwise it was right only where the sun stands behind the aim point, seen from the heliostat. -/
theorem C110_heliostat_iff (azimuth elevation : ℝ) (height : ℤ) (pos : V3 ℤ) (h0 : pos ≠ ⟨0, 0, height⟩)
    (hne : solarVector azimuth elevation + toward pos.ofInt ⟨0, 0, height⟩ ≠ 0) :
    (∃ T, aimTransformInt false azimuth elevation (.int height) pos = .ok T ∧
      T.rot.c3 = (aimTransform azimuth elevation height pos.ofInt).rot.c3) ↔
    ¬ TwoNonzero ⟨pos.x, pos.y, height - pos.z⟩ ∨ toward pos.ofInt ⟨0, 0, height⟩ = solarVector azimuth elevation := by
  have hp : pos.ofInt ≠ (⟨0, 0, (height : ℝ)⟩ : V3 ℝ) := by
    intro hc
    apply h0
    unfold V3.ofInt at hc
    injection hc with hx hy hz
    apply V3.ext
    · simp only; exact_mod_cast hx
    · simp only; exact_mod_cast hy
    · simp only; exact_mod_cast hz
  have htu := toward_unit hp
  have hu := (C59_solar_vector azimuth elevation).1
  have hc3 := aimTransform_c3 azimuth elevation height pos.ofInt hne
  by_cases h2 : TwoNonzero ⟨pos.x, pos.y, height - pos.z⟩
  · obtain ⟨T, hT, _, hTc, _⟩ := C110_heliostat_to_sun azimuth elevation height pos h2
    rw [hc3]
    have hpos := dot_self_pos hne
    rw [normalizeRow_eq]
    generalize toward pos.ofInt ⟨0, 0, (height : ℝ)⟩ = t at *
    generalize solarVector azimuth elevation = s at *
    have hsq : √(V3.dot (s + t) (s + t)) ^ 2 = V3.dot (s + t) (s + t) := sq_sqrt hpos.le
    have hsp : 0 < √(V3.dot (s + t) (s + t)) := sqrt_pos.2 hpos
    constructor
    · rintro ⟨T', hT', hT'c⟩
      right
      rw [hT] at hT'
      injection hT' with hT'
      subst hT'
      rw [hTc] at hT'c
      generalize √(V3.dot (s + t) (s + t)) = l at *
      have e : ∀ a b : ℝ, a = 1 / l * (a + b) → b = (l - 1) * a := by
        intro a b hab
        have : l * a = a + b := by
          calc l * a = l * (1 / l * (a + b)) := by rw [← hab]
            _ = a + b := by field_simp
        linarith
      have ex := e _ _ (congrArg V3.x hT'c)
      have ey := e _ _ (congrArg V3.y hT'c)
      have ez := e _ _ (congrArg V3.z hT'c)
      unfold V3.IsUnit V3.dot at htu hu
      have hl : (l - 1) ^ 2 = 1 := by
        rw [ex, ey, ez] at htu
        linear_combination htu - (l - 1) ^ 2 * hu
      have hl2 : l = 2 := by
        have : l * (l - 2) = 0 := by linear_combination hl
        rcases mul_eq_zero.1 this with h | h
        · linarith
        · linarith
      apply V3.ext
      · rw [ex, hl2]; ring
      · rw [ey, hl2]; ring
      · rw [ez, hl2]; ring
    · rintro (h | h)
      · exact absurd h2 h
      · refine ⟨T, hT, ?_⟩
        rw [hTc, h]
        unfold V3.IsUnit at hu
        have e4 : V3.dot (s + s) (s + s) = 2 ^ 2 := by
          have : V3.dot (s + s) (s + s) = 4 * V3.dot s s := by unfold V3.dot; simp; ring
          rw [this, hu]; norm_num
        rw [e4, sqrt_sq (by norm_num)]
        apply V3.ext <;> simp <;> ring
  · refine ⟨fun _ => .inl h2, fun _ => ⟨_, C110_heliostat_partial azimuth elevation height pos h0 h2, rfl⟩⟩

/-- A height that is no integer was rounded, and nothing else depended on how it was given. -/
theorem C110_heliostat_height (azimuth elevation height : ℝ) (pos : V3 ℤ) :
    aimTransformInt false azimuth elevation (.flt height) pos =
      aimTransformInt false azimuth elevation (.int (truncate (height - pos.z) + pos.z)) pos := by
  unfold aimTransformInt addInPlace
  simp only [Bool.false_eq_true, if_false]
  have e : truncate (((-pos.z : ℤ) : ℝ) + height) = -pos.z + (truncate (height - pos.z) + pos.z) := by
    have : ((-pos.z : ℤ) : ℝ) + height = height - pos.z := by push_cast; ring
    rw [this]; omega
  rw [e]

/-! ### Frames -/

/-- After `set_transform` with an array of integers, `set_location` puts the component where `get_location` says just if the location is
whole; otherwise it is less than a unit nearer to the origin in each coordinate.  The rotation, both what `get_rotation` says and where the
component is drawn and traced, remains that of the array. -/
theorem C110_location (t : Tf ℤ) (l : V3 ℝ) :
    ((IntFrame.setTransform t).setLocation l).loc = l ∧
    ((IntFrame.setTransform t).setLocation l).rot = t.rot.ofInt ∧
    ((IntFrame.setTransform t).setLocation l).transform.rot = t.rot ∧
    (((IntFrame.setTransform t).setLocation l).transform.ofInt.loc = l ↔ ∃ z : V3 ℤ, l = z.ofInt) ∧
    ∀ c : V3 ℝ → ℝ, c = V3.x ∨ c = V3.y ∨ c = V3.z →
      |c ((IntFrame.setTransform t).setLocation l).transform.ofInt.loc| ≤ |c l| ∧
      |c l - c ((IntFrame.setTransform t).setLocation l).transform.ofInt.loc| < 1 := by
  have hs : ∀ x : ℝ, |((truncate x : ℤ) : ℝ)| ≤ |x| ∧ |x - ((truncate x : ℤ) : ℝ)| < 1 := by
    intro x
    unfold truncate
    split_ifs with h
    · have h1 := Int.floor_le x
      have h2 := Int.lt_floor_add_one x
      have h3 : (0 : ℝ) ≤ (⌊x⌋ : ℤ) := by exact_mod_cast Int.floor_nonneg.2 h
      rw [abs_of_nonneg h3, abs_of_nonneg h, abs_of_nonneg (by linarith)]
      exact ⟨h1, by linarith⟩
    · push Not at h
      have h1 := Int.le_ceil x
      have h2 := Int.ceil_lt_add_one x
      have h3 : ((⌈x⌉ : ℤ) : ℝ) ≤ 0 := by exact_mod_cast Int.ceil_le.2 (by push_cast; exact h.le)
      rw [abs_of_nonpos h3, abs_of_neg h, abs_of_nonpos (by linarith)]
      exact ⟨by linarith, by linarith⟩
  refine ⟨rfl, rfl, rfl, ?_, ?_⟩
  · constructor
    · intro h; exact ⟨l.truncate, h.symm⟩
    · rintro ⟨z, rfl⟩
      show V3.ofInt (V3.truncate (V3.ofInt z)) = V3.ofInt z
      unfold V3.truncate V3.ofInt
      simp only [truncate_int]
  · rintro c (rfl | rfl | rfl)
    · exact hs l.x
    · exact hs l.y
    · exact hs l.z

example : ¬ ∃ z : V3 ℤ, (⟨0, 0, 1/2⟩ : V3 ℝ) = z.ofInt := by
  rintro ⟨z, hz⟩
  have h := congrArg V3.z hz
  simp only [V3.ofInt] at h
  have h2 : (1 : ℝ) = 2 * z.z := by linarith
  have h3 : (1 : ℤ) = 2 * z.z := by exact_mod_cast h2
  omega

/-- A rotation about the z axis, set after an array of integers, is kept only if it is by right angles.  By any other angle it flattens
the component onto the axis.  The location remains that of the array. -/
theorem C110_rotation (t : Tf ℤ) (angle : ℝ) (parent : Tf ℝ) :
    ((IntFrame.setTransform t).setRotation (rotz angle).rot).rot = (rotz angle).rot ∧
    ((IntFrame.setTransform t).setRotation (rotz angle).rot).loc = t.loc.ofInt ∧
    ((IntFrame.setTransform t).setRotation (rotz angle).rot).transform.loc = t.loc ∧
    (((IntFrame.setTransform t).setRotation (rotz angle).rot).transform.ofInt.rot = (rotz angle).rot ↔
      cos angle = 0 ∨ sin angle = 0) ∧
    (cos angle ≠ 0 → sin angle ≠ 0 → ∀ p : V3 ℝ,
      (((IntFrame.setTransform t).setRotation (rotz angle).rot).global parent).point p = parent.point (t.loc.ofInt + ⟨0, 0, p.z⟩)) := by
  have hsc := sin_sq_add_cos_sq angle
  have t0 : truncate (0 : ℝ) = 0 := by exact_mod_cast truncate_int 0
  have t1 : truncate (1 : ℝ) = 1 := by exact_mod_cast truncate_int 1
  have small : cos angle ≠ 0 → sin angle ≠ 0 →
      truncate (cos angle) = 0 ∧ truncate (sin angle) = 0 ∧ truncate (-sin angle) = 0 := by
    intro hc hs
    have h1 : 0 < cos angle ^ 2 := by positivity
    have h2 : 0 < sin angle ^ 2 := by positivity
    refine ⟨truncate_small ?_, truncate_small ?_, truncate_small ?_⟩
    · exact (sq_lt_one_iff_abs_lt_one _).1 (by linarith)
    · exact (sq_lt_one_iff_abs_lt_one _).1 (by linarith)
    · rw [abs_neg]; exact (sq_lt_one_iff_abs_lt_one _).1 (by linarith)
  refine ⟨rfl, rfl, rfl, ?_, ?_⟩
  · show M3.ofInt (M3.truncate (rotz angle).rot) = (rotz angle).rot ↔ _
    constructor
    · intro h
      by_contra hcon
      push Not at hcon
      have h1 : ((truncate (cos angle) : ℤ) : ℝ) = cos angle := congrArg (fun m : M3 ℝ => m.c1.x) h
      rw [(small hcon.1 hcon.2).1] at h1
      exact hcon.1 (by rw [← h1]; simp)
    · intro h
      have hz : (∃ z : ℤ, cos angle = z) ∧ (∃ z : ℤ, sin angle = z) := by
        rcases h with h | h
        · rw [h] at hsc
          have : sin angle ^ 2 = 1 := by linarith
          rcases sq_eq_one_iff.1 this with h' | h'
          · exact ⟨⟨0, by rw [h]; simp⟩, ⟨1, by rw [h']; simp⟩⟩
          · exact ⟨⟨0, by rw [h]; simp⟩, ⟨-1, by rw [h']; simp⟩⟩
        · rw [h] at hsc
          have : cos angle ^ 2 = 1 := by linarith
          rcases sq_eq_one_iff.1 this with h' | h'
          · exact ⟨⟨1, by rw [h']; simp⟩, ⟨0, by rw [h]; simp⟩⟩
          · exact ⟨⟨-1, by rw [h']; simp⟩, ⟨0, by rw [h]; simp⟩⟩
      have hc := (truncate_iff (cos angle)).2 hz.1
      have hs := (truncate_iff (sin angle)).2 hz.2
      have hs' := (truncate_iff (-sin angle)).2 (by obtain ⟨z, hz⟩ := hz.2; exact ⟨-z, by rw [hz]; simp⟩)
      unfold M3.ofInt M3.truncate rotz V3.ofInt V3.truncate
      simp only [hc, hs, hs', t0, t1, Int.cast_zero, Int.cast_one]
  · intro hc hs p
    obtain ⟨h1, h2, h3⟩ := small hc hs
    have e : ((IntFrame.setTransform t).setRotation (rotz angle).rot).transform.ofInt.point p = t.loc.ofInt + ⟨0, 0, p.z⟩ := by
      unfold IntFrame.setRotation IntFrame.setTransform Tf.ofInt M3.ofInt M3.truncate rotz V3.ofInt V3.truncate
      simp only [h1, h2, h3, t0, t1, Int.cast_zero, Int.cast_one]
      unfold Tf.point M3.mulVec
      apply V3.ext <;> simp <;> ring
    unfold IntFrame.global
    rw [Tf.mul_point, e]

end Tracer
