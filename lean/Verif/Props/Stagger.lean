import Verif.Model.Heliostats
import Mathlib.Data.List.Nodup
import Mathlib.Algebra.Order.Floor.Semiring
import Mathlib.Tactic.Linarith
import Mathlib.Tactic.NormNum

/-!
# Radial stagger layouts (C69)
-/

namespace Tracer

open Real

theorem evens_getElem? {α : Type _} : ∀ (l : List α) (k : Nat), (evens l)[k]? = l[2 * k]?
  | [], k => by simp [evens]
  | [a], 0 => by simp [evens]
  | [a], k + 1 => by simp [evens]
  | a :: b :: l, 0 => by simp [evens]
  | a :: b :: l, k + 1 => by
    simp only [evens, List.getElem?_cons_succ, show 2 * (k + 1) = 2 * k + 1 + 1 by ring]
    exact evens_getElem? l k

theorem odds_getElem? {α : Type _} (l : List α) (k : Nat) : (odds l)[k]? = l[2 * k + 1]? := by
  cases l with
  | nil => simp [odds]
  | cons a l => simp only [odds, List.getElem?_cons_succ]; exact evens_getElem? l k

theorem mgridAxis_getElem? (start stop step : ℝ) (i : Nat) (x : ℝ) :
    (mgridAxis start stop step)[i]? = some x ↔ (i : ℝ) < (stop - start) / step ∧ x = start + (i : ℝ) * step := by
  unfold mgridAxis
  rw [List.getElem?_map, Option.map_eq_some_iff]
  constructor
  · rintro ⟨j, hj, rfl⟩
    obtain ⟨h, h2⟩ := List.getElem?_eq_some_iff.1 hj
    rw [List.getElem_range] at h2
    subst h2
    rw [List.length_range, Nat.lt_ceil] at h
    exact ⟨h, rfl⟩
  · rintro ⟨h, rfl⟩
    exact ⟨i, by rw [List.getElem?_range (Nat.lt_ceil.2 h)], rfl⟩

theorem mgridAxis_pos {step : ℝ} (h : 0 < step) (start stop : ℝ) (i : Nat) (x : ℝ) :
    (mgridAxis start stop step)[i]? = some x ↔ x < stop ∧ x = start + (i : ℝ) * step := by
  rw [mgridAxis_getElem?, lt_div_iff₀ h]
  constructor
  · rintro ⟨h1, rfl⟩; exact ⟨by linarith, rfl⟩
  · rintro ⟨h1, rfl⟩; exact ⟨by linarith, rfl⟩

variable {startAng endAng azSpace rmin rmax rSpace : ℝ}

/-- C69: the layout consists of exactly the points on the rings `rmin + i r_space` below `rmax`, at the angles
`start + j az_space/2` below `end`, with `i` and `j` of the same parity. -/
theorem C69_positions (ha : 0 < azSpace) (hr : 0 < rSpace) (p : ℝ × ℝ) :
    p ∈ radialStagger startAng endAng azSpace rmin rmax rSpace ↔
      ∃ (i j : Nat) (r a : ℝ), i % 2 = j % 2 ∧ r = rmin + i * rSpace ∧ r < rmax ∧
        a = startAng + j * (azSpace / 2) ∧ a < endAng ∧ p = (r * cos a, r * sin a) := by
  unfold radialStagger
  simp only [List.mem_append, List.mem_flatMap, List.mem_map]
  simp only [List.mem_iff_getElem?, evens_getElem?, odds_getElem?, mgridAxis_pos hr, mgridAxis_pos (half_pos ha)]
  constructor
  · rintro (⟨r, ⟨i, h1, h2⟩, a, ⟨j, h3, h4⟩, h5⟩ | ⟨r, ⟨i, h1, h2⟩, a, ⟨j, h3, h4⟩, h5⟩)
    · exact ⟨2 * i, 2 * j, r, a, by omega, h2, h1, h4, h3, h5.symm⟩
    · exact ⟨2 * i + 1, 2 * j + 1, r, a, by omega, h2, h1, h4, h3, h5.symm⟩
  · rintro ⟨i, j, r, a, hp, h1, h2, h3, h4, h5⟩
    rcases Nat.mod_two_eq_zero_or_one i with hi | hi
    · left
      obtain ⟨i', rfl⟩ : ∃ i', i = 2 * i' := ⟨i / 2, by omega⟩
      obtain ⟨j', rfl⟩ : ∃ j', j = 2 * j' := ⟨j / 2, by omega⟩
      exact ⟨r, ⟨i', h2, h1⟩, a, ⟨j', h4, h3⟩, h5.symm⟩
    · right
      obtain ⟨i', rfl⟩ : ∃ i', i = 2 * i' + 1 := ⟨i / 2, by omega⟩
      obtain ⟨j', rfl⟩ : ∃ j', j = 2 * j' + 1 := ⟨j / 2, by omega⟩
      exact ⟨r, ⟨i', h2, h1⟩, a, ⟨j', h4, h3⟩, h5.symm⟩

theorem polar_inj {r r' a a' : ℝ} (hr : 0 < r) (hr' : 0 < r') (hlt : |a - a'| < 2 * π)
    (h1 : r * cos a = r' * cos a') (h2 : r * sin a = r' * sin a') : r = r' ∧ a = a' := by
  have hsq : r ^ 2 = r' ^ 2 := by
    have e1 := sin_sq_add_cos_sq a
    have e2 := sin_sq_add_cos_sq a'
    calc r ^ 2 = (r * cos a) ^ 2 + (r * sin a) ^ 2 := by linear_combination -r ^ 2 * e1
      _ = (r' * cos a') ^ 2 + (r' * sin a') ^ 2 := by rw [h1, h2]
      _ = r' ^ 2 := by linear_combination r' ^ 2 * e2
  have hrr : r = r' := by
    have : (r - r') * (r + r') = 0 := by linear_combination hsq
    rcases mul_eq_zero.1 this with h | h <;> linarith
  subst hrr
  refine ⟨rfl, ?_⟩
  have hc : cos a = cos a' := mul_left_cancel₀ hr.ne' h1
  have hs : sin a = sin a' := mul_left_cancel₀ hr.ne' h2
  have h3 : cos (a - a') = 1 := by
    rw [cos_sub, hc, hs]; have := sin_sq_add_cos_sq a'; linear_combination this
  rw [cos_eq_one_iff] at h3
  obtain ⟨n, hn⟩ := h3
  have hpi := pi_pos
  have hn0 : n = 0 := by
    rw [← hn, abs_lt] at hlt
    have h4 : (n : ℝ) < 1 := by nlinarith
    have h5 : (-1 : ℝ) < n := by nlinarith
    have h4' : n < 1 := by exact_mod_cast h4
    have h5' : -1 < n := by exact_mod_cast h5
    omega
  rw [hn0] at hn
  simp at hn
  linarith

theorem mgridAxis_nodup {step : ℝ} (h : 0 < step) (start stop : ℝ) : (mgridAxis start stop step).Nodup := by
  unfold mgridAxis
  refine List.Nodup.map ?_ List.nodup_range
  intro i j hij
  simp only at hij
  have : (i : ℝ) * step = (j : ℝ) * step := by linarith
  exact_mod_cast mul_right_cancel₀ h.ne' this

theorem nodup_of_getElem? {α : Type _} {l l' : List α} {f : Nat → Nat} (hf : Function.Injective f) (h : l.Nodup)
    (hl : ∀ k : Nat, l'[k]? = l[f k]?) : l'.Nodup := by
  rw [List.nodup_iff_getElem?_ne_getElem?]
  intro i j hij hj
  rw [hl, hl]
  intro hc
  have hlen : f j < l.length := by
    by_contra hn
    have h1 := hl j
    rw [List.getElem?_eq_none (not_lt.1 hn), List.getElem?_eq_getElem hj] at h1
    simp at h1
  have hlen' : f i < l.length := by
    by_contra hn
    rw [List.getElem?_eq_none (not_lt.1 hn), List.getElem?_eq_getElem hlen] at hc
    simp at hc
  rw [List.getElem?_eq_getElem hlen, List.getElem?_eq_getElem hlen', Option.some.injEq] at hc
  have := hf ((List.Nodup.getElem_inj_iff h).1 hc)
  omega

/-- C69: no two heliostats are at the same place, if the field is less than a full turn. -/
theorem C69_distinct (ha : 0 < azSpace) (hr : 0 < rSpace) (h0 : 0 < rmin) (hfull : endAng - startAng ≤ 2 * π) :
    (radialStagger startAng endAng azSpace rmin rmax rSpace).Nodup := by
  have hrn := mgridAxis_nodup hr rmin rmax
  have han := mgridAxis_nodup (half_pos ha) startAng endAng
  have inj2 : Function.Injective fun k : Nat => 2 * k := fun a b h => by simp only at h; omega
  have inj3 : Function.Injective fun k : Nat => 2 * k + 1 := fun a b h => by simp only at h; omega
  have hr0 : ∀ r ∈ mgridAxis rmin rmax rSpace, 0 < r := by
    intro r h
    obtain ⟨i, hi⟩ := List.mem_iff_getElem?.1 h
    obtain ⟨_, rfl⟩ := (mgridAxis_pos hr _ _ _ _).1 hi
    positivity
  have hab : ∀ a ∈ mgridAxis startAng endAng (azSpace / 2), startAng ≤ a ∧ a < endAng := by
    intro a h
    obtain ⟨i, hi⟩ := List.mem_iff_getElem?.1 h
    obtain ⟨h1, h2⟩ := (mgridAxis_pos (half_pos ha) _ _ _ _).1 hi
    exact ⟨by rw [h2]; have : 0 ≤ (i : ℝ) * (azSpace / 2) := by positivity
              linarith, h1⟩
  have hdiff : ∀ a ∈ mgridAxis startAng endAng (azSpace / 2), ∀ a' ∈ mgridAxis startAng endAng (azSpace / 2),
      |a - a'| < 2 * π := by
    intro a h a' h'
    obtain ⟨h1, h2⟩ := hab a h
    obtain ⟨h3, h4⟩ := hab a' h'
    rw [abs_lt]; constructor <;> linarith
  have sub2 : ∀ {l : List ℝ}, ∀ x ∈ evens l, ∃ k, l[2 * k]? = some x := by
    intro l x h
    obtain ⟨k, hk⟩ := List.mem_iff_getElem?.1 h
    exact ⟨k, by rw [← evens_getElem?]; exact hk⟩
  have sub3 : ∀ {l : List ℝ}, ∀ x ∈ odds l, ∃ k, l[2 * k + 1]? = some x := by
    intro l x h
    obtain ⟨k, hk⟩ := List.mem_iff_getElem?.1 h
    exact ⟨k, by rw [← odds_getElem?]; exact hk⟩
  have block : ∀ rs as : List ℝ, rs.Nodup → as.Nodup → (∀ r ∈ rs, r ∈ mgridAxis rmin rmax rSpace) →
      (∀ a ∈ as, a ∈ mgridAxis startAng endAng (azSpace / 2)) →
      (rs.flatMap fun r => as.map fun a => (r * cos a, r * sin a)).Nodup := by
    intro rs as h1 h2 h3 h4
    rw [List.nodup_flatMap]
    constructor
    · intro r hrm
      refine List.Nodup.map_on ?_ h2
      intro a hA a' hA' he
      simp only [Prod.mk.injEq] at he
      exact (polar_inj (hr0 r (h3 r hrm)) (hr0 r (h3 r hrm)) (hdiff a (h4 a hA) a' (h4 a' hA')) he.1 he.2).2
    · refine List.Pairwise.imp_of_mem ?_ h1
      intro r r' hrm hrm' hne
      simp only [Function.onFun]
      intro p hp hp'
      rw [List.mem_map] at hp hp'
      obtain ⟨a, hA, rfl⟩ := hp
      obtain ⟨a', hA', he⟩ := hp'
      simp only [Prod.mk.injEq] at he
      exact hne (polar_inj (hr0 r (h3 r hrm)) (hr0 r' (h3 r' hrm')) (hdiff a (h4 a hA) a' (h4 a' hA')) he.1.symm he.2.symm).1
  unfold radialStagger
  simp only
  rw [List.nodup_append]
  refine ⟨block _ _ (nodup_of_getElem? inj2 hrn (evens_getElem? _)) (nodup_of_getElem? inj2 han (evens_getElem? _))
      (fun r h => ?_) (fun r h => ?_),
    block _ _ (nodup_of_getElem? inj3 hrn (odds_getElem? _)) (nodup_of_getElem? inj3 han (odds_getElem? _))
      (fun r h => ?_) (fun r h => ?_), ?_⟩
  · obtain ⟨k, hk⟩ := sub2 r h; exact List.mem_of_getElem? hk
  · obtain ⟨k, hk⟩ := sub2 r h; exact List.mem_of_getElem? hk
  · obtain ⟨k, hk⟩ := sub3 r h; exact List.mem_of_getElem? hk
  · obtain ⟨k, hk⟩ := sub3 r h; exact List.mem_of_getElem? hk
  · intro p hp p' hp' he
    subst he
    rw [List.mem_flatMap] at hp hp'
    obtain ⟨r, hrm, hp⟩ := hp
    obtain ⟨r', hrm', hp'⟩ := hp'
    rw [List.mem_map] at hp hp'
    obtain ⟨a, hA, rfl⟩ := hp
    obtain ⟨a', hA', he⟩ := hp'
    simp only [Prod.mk.injEq] at he
    obtain ⟨i, hi⟩ := sub2 r hrm
    obtain ⟨i', hi'⟩ := sub3 r' hrm'
    obtain ⟨j, hj⟩ := sub2 a hA
    obtain ⟨j', hj'⟩ := sub3 a' hA'
    have := (polar_inj (hr0 r (List.mem_of_getElem? hi)) (hr0 r' (List.mem_of_getElem? hi'))
      (hdiff a (List.mem_of_getElem? hj) a' (List.mem_of_getElem? hj')) he.1.symm he.2.symm).1
    obtain ⟨_, e1⟩ := (mgridAxis_pos hr _ _ _ _).1 hi
    obtain ⟨_, e2⟩ := (mgridAxis_pos hr _ _ _ _).1 hi'
    have e3 : ((2 * i : Nat) : ℝ) * rSpace = ((2 * i' + 1 : Nat) : ℝ) * rSpace := by linarith
    have e4 := mul_right_cancel₀ hr.ne' e3
    have e5 : 2 * i = 2 * i' + 1 := by exact_mod_cast e4
    omega

/-- A field with two rings that meets the hypotheses; the second ring is shifted by half the spacing. -/
example : ((2 : ℝ) * cos (1 / 4), (2 : ℝ) * sin (1 / 4)) ∈ radialStagger 0 1 (1 / 2) 1 3 1 ∧
    (radialStagger 0 1 (1 / 2) 1 3 1).Nodup := by
  refine ⟨(C69_positions (by norm_num) (by norm_num) _).2 ⟨1, 1, 2, 1 / 4, rfl, by norm_num, by norm_num, by norm_num,
    by norm_num, rfl⟩, C69_distinct (by norm_num) (by norm_num) (by norm_num) ?_⟩
  have := two_le_pi
  linarith

theorem sin_ge_of_between {c t : ℝ} (hc : 0 ≤ c) (h1 : c ≤ t) (h2 : t ≤ π - c) : sin c ≤ sin t := by
  have hcp : c ≤ π / 2 := by linarith
  rcases le_total t (π / 2) with h | h
  · exact sin_le_sin_of_le_of_le_pi_div_two (by linarith [pi_pos]) h h1
  · rw [← sin_pi_sub t]
    exact sin_le_sin_of_le_of_le_pi_div_two (by linarith [pi_pos]) (by linarith) (by linarith)

/-- The law of cosines. -/
theorem polar_law (r r' a a' : ℝ) : (r * cos a - r' * cos a') ^ 2 + (r * sin a - r' * sin a') ^ 2 =
    (r - r') ^ 2 + 4 * (r * r') * sin ((a - a') / 2) ^ 2 := by
  have h1 := sin_sq_add_cos_sq a
  have h2 := sin_sq_add_cos_sq a'
  have h3 := cos_sub a a'
  have h4 : cos (a - a') = 1 - 2 * sin ((a - a') / 2) ^ 2 := by
    have := cos_two_mul ((a - a') / 2)
    have h5 := sin_sq_add_cos_sq ((a - a') / 2)
    rw [show 2 * ((a - a') / 2) = a - a' by ring] at this
    linarith
  have h6 : cos a * cos a' + sin a * sin a' = 1 - 2 * sin ((a - a') / 2) ^ 2 := by rw [← h3, h4]
  linear_combination r ^ 2 * h1 + r' ^ 2 * h2 - 2 * r * r' * h6

/-- Angles `c` half steps apart. -/
theorem stagger_angle (ha : 0 < azSpace) {j j' : Nat} (hup : |(j : ℝ) - j'| * (azSpace / 2) ≤ 2 * π - azSpace) {c : ℝ} (hc : 0 ≤ c)
    (hc2 : c ≤ 2) (hle : c ≤ |(j : ℝ) - j'|) : sin (c * (azSpace / 4)) ^ 2 ≤ sin (((j : ℝ) - j') * (azSpace / 4)) ^ 2 := by
  have habs : sin (((j : ℝ) - j') * (azSpace / 4)) ^ 2 = sin (|(j : ℝ) - j'| * (azSpace / 4)) ^ 2 := by
    rcases abs_choice ((j : ℝ) - j') with h | h <;> rw [h]
    rw [neg_mul, sin_neg, neg_sq]
  rw [habs]
  refine pow_le_pow_left₀ (sin_nonneg_of_nonneg_of_le_pi (by positivity) ?_) (sin_ge_of_between (by positivity) ?_ ?_) 2
  · nlinarith
  · nlinarith
  · nlinarith

theorem stagger_rings (ha : 0 < azSpace) (hr : 0 < rSpace) (h0 : 0 < rmin) {i i' j j' : Nat} (hpar : i % 2 = j % 2)
    (hpar' : i' % 2 = j' % 2) (hup : |(j : ℝ) - j'| * (azSpace / 2) ≤ 2 * π - azSpace) (hlt : i < i') :
    (2 * rSpace) ^ 2 ≤ ((i' - i : ℝ) * rSpace) ^ 2 +
      4 * ((rmin + i * rSpace) * (rmin + i' * rSpace)) * sin (((j : ℝ) - j') * (azSpace / 4)) ^ 2 ∨
    rSpace ^ 2 + 4 * (rmin * (rmin + rSpace)) * sin (azSpace / 4) ^ 2 ≤ ((i' - i : ℝ) * rSpace) ^ 2 +
      4 * ((rmin + i * rSpace) * (rmin + i' * rSpace)) * sin (((j : ℝ) - j') * (azSpace / 4)) ^ 2 := by
  have m1 : 0 ≤ (i : ℝ) * rSpace := by positivity
  have m2 : 0 ≤ (i' : ℝ) * rSpace := by positivity
  rcases Nat.lt_or_ge (i + 1) i' with h2 | h2
  · left
    have : (2 : ℝ) ≤ i' - i := by
      have : ((i + 2 : Nat) : ℝ) ≤ i' := Nat.cast_le.2 h2
      push_cast at this; linarith
    have h3 : (2 * rSpace) ^ 2 ≤ ((i' - i : ℝ) * rSpace) ^ 2 := pow_le_pow_left₀ (by positivity) (by nlinarith) 2
    have h4 : 0 ≤ (rmin + i * rSpace) * (rmin + i' * rSpace) := by positivity
    have h5 : 0 ≤ 4 * ((rmin + i * rSpace) * (rmin + i' * rSpace)) * sin (((j : ℝ) - j') * (azSpace / 4)) ^ 2 := by positivity
    linarith
  · right
    obtain rfl : i' = i + 1 := by omega
    have hj : j ≠ j' := by omega
    have hj1 : (1 : ℝ) ≤ |(j : ℝ) - j'| := by
      have h : (1 : ℤ) ≤ |(j : ℤ) - j'| := Int.one_le_abs (by omega)
      have : ((1 : ℤ) : ℝ) ≤ ((|(j : ℤ) - j'| : ℤ) : ℝ) := Int.cast_le.2 h
      push_cast at this
      exact this
    have h3 := stagger_angle ha hup zero_le_one (by norm_num) hj1
    rw [one_mul] at h3
    push_cast
    have h4 : rmin * (rmin + rSpace) ≤ (rmin + i * rSpace) * (rmin + (i + 1) * rSpace) :=
      mul_le_mul (by linarith) (by linarith) (by positivity) (by linarith)
    have h5 := mul_le_mul h4 h3 (sq_nonneg _) (by positivity)
    have h6 : ((i + 1 - i : ℝ) * rSpace) ^ 2 = rSpace ^ 2 := by ring
    rw [h6]
    linarith

/-- C69: different heliostats are two rings apart, or on neighbouring rings and half a step of the angle apart, or on one ring and a
whole step apart, when the layout leaves a step of the circle free. -/
theorem C69_apart (ha : 0 < azSpace) (hr : 0 < rSpace) (h0 : 0 < rmin) (hfull : endAng - startAng ≤ 2 * π - azSpace) {p q : ℝ × ℝ}
    (hp : p ∈ radialStagger startAng endAng azSpace rmin rmax rSpace) (hq : q ∈ radialStagger startAng endAng azSpace rmin rmax rSpace)
    (hne : p ≠ q) :
    (2 * rSpace) ^ 2 ≤ (p.1 - q.1) ^ 2 + (p.2 - q.2) ^ 2 ∨
    rSpace ^ 2 + 4 * (rmin * (rmin + rSpace)) * sin (azSpace / 4) ^ 2 ≤ (p.1 - q.1) ^ 2 + (p.2 - q.2) ^ 2 ∨
    4 * rmin ^ 2 * sin (azSpace / 2) ^ 2 ≤ (p.1 - q.1) ^ 2 + (p.2 - q.2) ^ 2 := by
  obtain ⟨i, j, r, a, hpar, rfl, hrm, rfl, hae, rfl⟩ := (C69_positions ha hr p).1 hp
  obtain ⟨i', j', r', a', hpar', rfl, hrm', rfl, hae', rfl⟩ := (C69_positions ha hr q).1 hq
  simp only
  rw [polar_law]
  clear hp hq
  have e2 : (startAng + j * (azSpace / 2) - (startAng + j' * (azSpace / 2))) / 2 = (j - j') * (azSpace / 4) := by ring
  rw [e2]
  have m3 : 0 ≤ (j : ℝ) * (azSpace / 2) := by positivity
  have m4 : 0 ≤ (j' : ℝ) * (azSpace / 2) := by positivity
  have hup : |(j : ℝ) - j'| * (azSpace / 2) ≤ 2 * π - azSpace := by
    rcases abs_choice ((j : ℝ) - j') with h | h <;> rw [h] <;> nlinarith
  rcases lt_trichotomy i i' with hlt | heq | hlt
  · have := stagger_rings (rmin := rmin) ha hr h0 hpar hpar' hup hlt
    have e1 : (rmin + i * rSpace - (rmin + i' * rSpace)) ^ 2 = ((i' - i : ℝ) * rSpace) ^ 2 := by ring
    rw [e1]
    rcases this with h | h
    · exact Or.inl h
    · exact Or.inr (Or.inl h)
  · right; right
    subst heq
    have hj : j ≠ j' := fun h => hne (by rw [h])
    have hj1 : (2 : ℝ) ≤ |(j : ℝ) - j'| := by
      have h : (2 : ℤ) ≤ |(j : ℤ) - j'| := by
        rcases abs_choice ((j : ℤ) - j') with h | h
        · have := abs_nonneg ((j : ℤ) - j'); omega
        · have := abs_nonneg ((j : ℤ) - j'); omega
      have : ((2 : ℤ) : ℝ) ≤ ((|(j : ℤ) - j'| : ℤ) : ℝ) := Int.cast_le.2 h
      push_cast at this
      exact this
    have h3 := stagger_angle ha hup (by norm_num) le_rfl hj1
    rw [show (2 : ℝ) * (azSpace / 4) = azSpace / 2 by ring] at h3
    have m1 : 0 ≤ (i : ℝ) * rSpace := by positivity
    have hprod : rmin * rmin ≤ (rmin + i * rSpace) * (rmin + i * rSpace) := mul_le_mul (by linarith) (by linarith) h0.le (by linarith)
    have h5 := mul_le_mul hprod h3 (sq_nonneg _) (by positivity)
    rw [sub_self]
    linarith
  · have := stagger_rings (rmin := rmin) ha hr h0 hpar' hpar (by rw [abs_sub_comm]; exact hup) hlt
    have e1 : (rmin + i * rSpace - (rmin + i' * rSpace)) ^ 2 = ((i - i' : ℝ) * rSpace) ^ 2 := by ring
    have e3 : sin (((j' : ℝ) - j) * (azSpace / 4)) ^ 2 = sin (((j : ℝ) - j') * (azSpace / 4)) ^ 2 := by
      rw [show ((j' : ℝ) - j) * (azSpace / 4) = -(((j : ℝ) - j') * (azSpace / 4)) by ring, sin_neg, neg_sq]
    rw [e1, mul_comm (rmin + i * rSpace), ← e3]
    rcases this with h | h
    · exact Or.inl h
    · exact Or.inr (Or.inl h)

example : ∀ p ∈ radialStagger 0 1 (1 / 2) 1 3 1, ∀ q ∈ radialStagger 0 1 (1 / 2) 1 3 1, p ≠ q →
    (2 * 1) ^ 2 ≤ (p.1 - q.1) ^ 2 + (p.2 - q.2) ^ 2 ∨ 1 ^ 2 + 4 * (1 * (1 + 1)) * sin (1 / 2 / 4) ^ 2 ≤ (p.1 - q.1) ^ 2 + (p.2 - q.2) ^ 2 ∨
    4 * 1 ^ 2 * sin (1 / 2 / 2) ^ 2 ≤ (p.1 - q.1) ^ 2 + (p.2 - q.2) ^ 2 := fun p hp q hq hne =>
  C69_apart (by norm_num) (by norm_num) (by norm_num) (by linarith [two_le_pi]) hp hq hne

end Tracer
