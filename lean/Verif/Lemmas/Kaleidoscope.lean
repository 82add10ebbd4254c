import Verif.Spec.Kaleidoscope
import Mathlib.Tactic.Linarith
import Mathlib.Tactic.Ring
import Mathlib.Tactic.FieldSimp
import Mathlib.Tactic.LinearCombination
import Mathlib.Tactic.NormNum
import Mathlib.Algebra.Order.Floor.Semiring
import Mathlib.Algebra.Ring.Int.Parity

/-! Light between two parallel mirrors. -/

namespace Tracer

/-- One coordinate of light between two parallel mirrors: at `a`, changing at the rate `c` for the time `T`. -/
structure Lane (w a c T : ℝ) : Prop where
  pos : 0 < w
  inside : |a| ≤ w / 2
  inward : |a| = w / 2 → a * c < 0
  steep : c = 0 ∨ 1 / 10 ^ 10 < |c|
  slow : 1 / 10 ^ 6 * |c| < w
  ends : ∀ t : ℝ, 0 < t → t ≤ T → OnEdge w (a + t * c) → 1 / 10 ^ 6 < t ∧ t + 1 / 10 ^ 6 < T

theorem cellOf_mirror {w u : ℝ} (hw : 0 < w) (hu : ¬ OnEdge w u) (s : ℤ) : cellOf w (s * w - u) = s - cellOf w u := by
  unfold cellOf
  rw [Int.floor_eq_iff]
  have e : (s * w - u) / w = s - u / w := by field_simp
  rw [e]
  have h1 := Int.floor_le (u / w + 1 / 2)
  have h2 := Int.lt_floor_add_one (u / w + 1 / 2)
  push_cast
  constructor
  · linarith
  · have : (⌊u / w + 1 / 2⌋ : ℝ) ≠ u / w + 1 / 2 := by
      intro h
      refine hu ⟨⌊u / w + 1 / 2⌋ - 1, ?_⟩
      push_cast
      rw [h]
      field_simp
      ring
    have := lt_of_le_of_ne h1 this
    linarith

theorem foldInto_mirror {w u : ℝ} (hw : 0 < w) (hu : ¬ OnEdge w u) {s : ℤ} (hs : s = 1 ∨ s = -1) :
    foldInto w (s * w - u) = foldInto w u := by
  unfold foldInto
  rw [cellOf_mirror hw hu]
  have hpar : Even (s - cellOf w u) ↔ ¬ Even (cellOf w u) := by
    rcases hs with rfl | rfl <;> simp [Int.even_sub]
  by_cases h : Even (cellOf w u)
  · rw [if_pos h, if_neg fun h' => (hpar.1 h') h]
    push_cast
    ring
  · rw [if_neg h, if_pos (hpar.2 h)]
    push_cast
    ring

theorem onEdge_mirror {w u : ℝ} (s : ℤ) : OnEdge w (s * w - u) ↔ OnEdge w u := by
  constructor
  · rintro ⟨k, hk⟩
    refine ⟨s - k - 1, ?_⟩
    push_cast
    linear_combination -hk
  · rintro ⟨k, hk⟩
    refine ⟨s - k - 1, ?_⟩
    push_cast
    linear_combination -hk

theorem onEdge_half {w : ℝ} {s : ℤ} (hs : s = 1 ∨ s = -1) : OnEdge w (s * (w / 2)) := by
  rcases hs with rfl | rfl
  · exact ⟨0, by push_cast; ring⟩
  · exact ⟨-1, by push_cast; ring⟩

theorem cellOf_zero {w u : ℝ} (hw : 0 < w) (h : |u| < w / 2) : cellOf w u = 0 := by
  obtain ⟨h1, h2⟩ := abs_lt.1 h
  unfold cellOf
  rw [Int.floor_eq_iff]
  have e1 : -(1 / 2) < u / w := by rw [lt_div_iff₀ hw]; linarith
  have e2 : u / w < 1 / 2 := by rw [div_lt_iff₀ hw]; linarith
  push_cast
  constructor <;> linarith

theorem cellOf_pos {w u : ℝ} (hw : 0 < w) (h : w / 2 ≤ u) : 1 ≤ cellOf w u := by
  unfold cellOf
  rw [Int.le_floor]
  have e1 : 1 / 2 ≤ u / w := by rw [le_div_iff₀ hw]; linarith
  push_cast
  linarith

theorem cellOf_neg {w u : ℝ} (hw : 0 < w) (h : u < -(w / 2)) : cellOf w u ≤ -1 := by
  unfold cellOf
  have e1 : u / w < -(1 / 2) := by rw [div_lt_iff₀ hw]; linarith
  have : ⌊u / w + 1 / 2⌋ < 0 := by
    rw [Int.floor_lt]
    push_cast
    linarith
  omega

/-- Two edges are at least one width apart. -/
theorem onEdge_apart {w u u' : ℝ} (hw : 0 < w) (h : OnEdge w u) (h' : OnEdge w u') (hne : u ≠ u') : w ≤ |u - u'| := by
  obtain ⟨k, rfl⟩ := h
  obtain ⟨j, rfl⟩ := h'
  have hkj : k ≠ j := by
    rintro rfl
    exact hne rfl
  have e : ((k : ℝ) + 1 / 2) * w - (j + 1 / 2) * w = ((k - j : ℤ) : ℝ) * w := by push_cast; ring
  rw [e, abs_mul, abs_of_pos hw]
  have : (1 : ℤ) ≤ |k - j| := Int.one_le_abs (by omega)
  have : (1 : ℝ) ≤ |((k - j : ℤ) : ℝ)| := by exact_mod_cast this
  nlinarith

section
variable {w a c T : ℝ}

/-- Inside at both ends of a stretch means inside all along it. -/
theorem Lane.stay (L : Lane w a c T) {t1 : ℝ} (h1 : |a + t1 * c| < w / 2) {t : ℝ} (ht : 0 < t) (ht1 : t ≤ t1) : |a + t * c| < w / 2 := by
  obtain ⟨i1, i2⟩ := abs_le.1 L.inside
  obtain ⟨j1, j2⟩ := abs_lt.1 h1
  have ht10 : 0 < t1 := lt_of_lt_of_le ht ht1
  rw [abs_lt]
  have e : t1 * (a + t * c) = (t1 - t) * a + t * (a + t1 * c) := by ring
  constructor
  · by_contra hcon
    push Not at hcon
    nlinarith
  · by_contra hcon
    push Not at hcon
    nlinarith

/-- After a while during which no mirror is met. -/
theorem Lane.advance (L : Lane w a c T) {t1 : ℝ} (h0 : 0 < t1) (h1 : |a + t1 * c| < w / 2)
    (h2 : ∀ t : ℝ, t1 < t → t ≤ T → OnEdge w (a + t * c) → 1 / 10 ^ 6 < t - t1) : Lane w (a + t1 * c) c (T - t1) where
  pos := L.pos
  inside := h1.le
  inward h := absurd h h1.ne
  steep := L.steep
  slow := L.slow
  ends t ht htT he := by
    have e : a + t1 * c + t * c = a + (t1 + t) * c := by ring
    rw [e] at he
    have := h2 (t1 + t) (by linarith) (by linarith) he
    have := (L.ends (t1 + t) (by linarith) (by linarith) he).2
    constructor <;> linarith

/-- What happens between two mirrors: either nothing, or one of them is met, and after that the way goes on as in the mirror image. -/
theorem Lane.cases (L : Lane w a c T) (hT : 0 < T) :
    (cellOf w (a + T * c) = 0 ∧ |a + T * c| < w / 2) ∨
    ∃ (s : ℤ) (t1 : ℝ), (s = 1 ∨ s = -1) ∧ 1 / 10 ^ 6 < t1 ∧ t1 + 1 / 10 ^ 6 < T ∧ a + t1 * c = s * (w / 2) ∧ 0 < s * c ∧
      (∀ t, 0 < t → t < t1 → |a + t * c| < w / 2) ∧ Lane w (s * (w / 2)) (-c) (T - t1) ∧
      (∀ t, OnEdge w (s * (w / 2) + t * -c) ↔ OnEdge w (a + (t1 + t) * c)) ∧
      foldInto w (s * (w / 2) + (T - t1) * -c) = foldInto w (a + T * c) ∧
      (cellOf w (s * (w / 2) + (T - t1) * -c)).natAbs + 1 = (cellOf w (a + T * c)).natAbs := by
  have hedge : ¬ OnEdge w (a + T * c) := by
    intro h
    have := (L.ends T hT le_rfl h).2
    norm_num at this
  have hw := L.pos
  obtain ⟨i1, i2⟩ := abs_le.1 L.inside
  rcases lt_or_ge |a + T * c| (w / 2) with h | h
  · exact Or.inl ⟨cellOf_zero L.pos h, h⟩
  · right
    obtain ⟨s, hs, hsu⟩ : ∃ s : ℤ, (s = 1 ∨ s = -1) ∧ w / 2 < s * (a + T * c) := by
      rcases le_abs.1 h with h | h
      · refine ⟨1, Or.inl rfl, ?_⟩
        rcases h.lt_or_eq with h | h
        · push_cast; linarith
        · exact absurd ⟨0, by push_cast; linarith⟩ hedge
      · refine ⟨-1, Or.inr rfl, ?_⟩
        rcases h.lt_or_eq with h | h
        · push_cast; linarith
        · exact absurd ⟨-1, by push_cast; linarith⟩ hedge
    have hss : (s : ℝ) * s = 1 := by rcases hs with rfl | rfl <;> norm_num
    have hsa : s * a ≤ w / 2 := by rcases hs with rfl | rfl <;> push_cast <;> linarith
    have hsa' : -(w / 2) ≤ s * a := by rcases hs with rfl | rfl <;> push_cast <;> linarith
    have hsc : 0 < s * c := by
      by_contra hcon
      push Not at hcon
      nlinarith
    have hsa2 : s * a < w / 2 := by
      refine lt_of_le_of_ne hsa fun h => ?_
      have habs : |a| = w / 2 := by
        have : |s * a| = |a| := by rcases hs with rfl | rfl <;> simp
        rw [← this, h, abs_of_pos (by linarith)]
      have := L.inward habs
      have e : (s * a) * (s * c) = a * c := by linear_combination a * c * hss
      rw [h] at e
      nlinarith
    have hc0 : c ≠ 0 := by
      rintro rfl
      simp at hsc
    obtain ⟨t1, ht1⟩ : ∃ t1 : ℝ, a + t1 * c = s * (w / 2) := ⟨(s * (w / 2) - a) / c, by field_simp; ring⟩
    have hst : s * a + t1 * (s * c) = w / 2 := by linear_combination s * ht1 + w / 2 * hss
    have h10 : 0 < t1 := by
      by_contra hcon
      push Not at hcon
      nlinarith
    have h1T : t1 < T := by
      by_contra hcon
      push Not at hcon
      nlinarith
    obtain ⟨e1, e2⟩ := L.ends t1 h10 h1T.le (by rw [ht1]; exact onEdge_half hs)
    have hmir : ∀ t : ℝ, s * (w / 2) + t * -c = s * w - (a + (t1 + t) * c) := by
      intro t
      linear_combination ht1
    have hmirT : s * (w / 2) + (T - t1) * -c = s * w - (a + T * c) := by
      rw [hmir]
      ring
    have hedges : ∀ t, OnEdge w (s * (w / 2) + t * -c) ↔ OnEdge w (a + (t1 + t) * c) := by
      intro t
      rw [hmir]
      exact onEdge_mirror s
    refine ⟨s, t1, hs, e1, e2, ht1, hsc, ?_, ?_, hedges, ?_, ?_⟩
    · intro t ht htt
      have key : |s * (a + t * c)| < w / 2 := by
        rw [abs_lt]
        constructor <;> nlinarith
      have : |s * (a + t * c)| = |a + t * c| := by
        rcases hs with rfl | rfl
        · simp
        · push_cast
          rw [neg_one_mul, abs_neg]
      rwa [this] at key
    · refine ⟨hw, ?_, ?_, ?_, ?_, ?_⟩
      · rcases hs with rfl | rfl
        · push_cast; rw [one_mul, abs_of_pos (by linarith)]
        · push_cast; rw [neg_one_mul, abs_neg, abs_of_pos (by linarith)]
      · intro _
        nlinarith
      · rcases L.steep with h | h
        · exact absurd h hc0
        · exact Or.inr (by rwa [abs_neg])
      · rw [abs_neg]; exact L.slow
      · intro t ht htT he
        rw [hedges] at he
        have h1 := (L.ends (t1 + t) (by linarith) (by linarith) he).2
        refine ⟨?_, by linarith⟩
        have h2 : OnEdge w (a + t1 * c) := by rw [ht1]; exact onEdge_half hs
        have h3 := onEdge_apart hw he h2 (by
          intro h
          have : t * c = 0 := by linear_combination h
          rcases mul_eq_zero.1 this with h | h
          · exact ht.ne' h
          · exact hc0 h)
        have e : a + (t1 + t) * c - (a + t1 * c) = t * c := by ring
        rw [e, abs_mul, abs_of_pos ht] at h3
        have h4 := L.slow
        have h5 : 0 < |c| := abs_pos.2 hc0
        by_contra hcon
        push Not at hcon
        nlinarith
    · rw [hmirT]
      exact foldInto_mirror hw hedge hs
    · rw [hmirT, cellOf_mirror hw hedge]
      rcases hs with rfl | rfl
      · have := cellOf_pos hw (u := a + T * c) (by push_cast at hsu; linarith)
        omega
      · have := cellOf_neg hw (u := a + T * c) (by push_cast at hsu; linarith)
        omega

theorem foldInto_zero {w u : ℝ} (hw : 0 < w) (h : |u| < w / 2) : foldInto w u = u := by
  unfold foldInto
  rw [cellOf_zero hw h]
  simp

end
end Tracer
