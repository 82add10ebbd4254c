import Verif.Model.RoundedSphere
import Verif.Lemmas.Leak

/-! A hollow sphere that lets light through, for `Props/RoundedSphere.lean`. -/

set_option linter.unusedSectionVars false

namespace Tracer

variable {E σ : Type _}

/-- The value of a rounded square root. -/
theorem binary64_sqrt {x : ℝ} (m e : ℤ) (hm : 2 ^ 52 < m) (hm2 : m < 2 ^ 53) (h1 : ((m - 1 / 2) * 2 ^ e : ℝ) ^ 2 < x)
    (h2 : x < ((m + 1 / 2) * 2 ^ e : ℝ) ^ 2) : binary64 √x = m * (2 : ℝ) ^ e := by
  have hq : (0 : ℝ) < 2 ^ e := zpow_pos (by norm_num) _
  have hmr : (2 : ℝ) ^ 52 + 1 ≤ m := by exact_mod_cast hm
  have hmr2 : (m : ℝ) + 1 ≤ 2 ^ 53 := by exact_mod_cast hm2
  have l1 : (m - 1 / 2) * 2 ^ e < √x := Real.lt_sqrt_of_sq_lt h1
  have l2 : √x < (m + 1 / 2) * 2 ^ e := (Real.sqrt_lt' (mul_pos (by linarith [show (0 : ℝ) < 2 ^ 52 by norm_num]) hq)).2 h2
  have e1 : (2 : ℝ) ^ (e + 52) = 2 ^ 52 * 2 ^ e := by rw [zpow_add₀ (by norm_num), mul_comm]; norm_num
  have e2 : (2 : ℝ) ^ (e + 53) = 2 ^ 53 * 2 ^ e := by rw [zpow_add₀ (by norm_num), mul_comm]; norm_num
  apply binary64_eq
  · rw [abs_of_nonneg (Real.sqrt_nonneg _), e1]
    nlinarith
  · rw [abs_of_nonneg (Real.sqrt_nonneg _), e2]
    nlinarith
  · rw [abs_lt]
    constructor <;> linarith

/-- One iteration with one surface that the only ray meets where it starts. -/
theorem lone_drop {s : Surf σ ℝ E} {w : σ} {r : Ray ℝ E} {t minE : ℝ} (hreg : s.register [r] = [(t : WithTop ℝ)]) (h0 : 0 ≤ t)
    (ht : t ≤ 1 / 10 ^ 10) : iterate (lone s) [s] minE ⟨[r], [none], [[true]], w⟩ = .ok (⟨[], [], [[]], w⟩, [], []) := by
  have h1 : ((t : WithTop ℝ) ≤ ((1 / 10 ^ 10 : ℝ) : WithTop ℝ)) := by rw [WithTop.coe_le_coe]; exact ht
  have h3 : ((t : WithTop ℝ) ≤ ((1 / 10 ^ 6 : ℝ) : WithTop ℝ)) := by
    rw [WithTop.coe_le_coe]; exact ht.trans (by norm_num)
  have h2 : ¬ ((t : WithTop ℝ) < ((-(1 / 10 ^ 16) : ℝ) : WithTop ℝ)) := by
    rw [WithTop.coe_lt_coe]
    exact not_lt.2 (by linarith [show (0 : ℝ) < 1 / 10 ^ 16 by norm_num])
  have hreg' : stackRow [r] s [true] = [(t : WithTop ℝ)] := by simp [stackRow, hreg, Np.scatter]
  have hi : intersectRay [r] [s] (surfOwnership (lone s)) [none] [[true]] = .ok ([[false]], [[true]]) := by
    have hso : surfOwnership (lone s) = [0] := rfl
    have hom : ownedMask [none] 0 [true] = [true] := rfl
    unfold intersectRay
    simp only [hso, List.zipWith, hom, hreg', List.any, negTol, h2, dropSelfHits, selfTol, dropTol, h1]
    simp only [decide_true, Bool.or_false, if_true, List.map, h3]
    simp [frontMask, colMin]
  unfold iterate
  simp only [hi]
  have e1 : (Np.mask [true] [false]).any id = false := rfl
  simp only [surfLoop, e1, Bool.false_eq_true, if_false]
  rfl

theorem flSphere_one {fl : ℝ → ℝ} {R a t : ℝ} {p : V3 ℝ} {F : Tf ℝ} {r : Ray ℝ E} (h : flSphereHit fl R F r.vertex r.dir = some (t, p)) (w : σ) :
    (flSphere fl R a F : Surf σ ℝ E).register [r] = [(t : WithTop ℝ)] ∧
    (flSphere fl R a F : Surf σ ℝ E).outgoing w [r] [0] = .ok ([flSphereOne fl a F 0 r p], w) := by
  have e : [r][0]? = some r := rfl
  constructor
  · simp [flSphere, h]
  · unfold flSphere
    simp only [flSphereChildren, e, h]

/-! ### The two steps, for whatever the numbers are -/

theorem sphere_first {fl : ℝ → ℝ} {R Q s T H w W : ℝ} (f0 : fl 0 = 0) (f1 : fl 1 = 1) (fn1 : fl (-1) = -1) (f2 : fl 2 = 2) (f4 : fl 4 = 4) (fR : fl (R ^ 2) = Q) (fQ : fl (-Q) = -Q)
    (f4Q : fl (4 * -Q) = -(4 * Q)) (f4Q' : fl (4 * Q) = 4 * Q) (fs : fl √(4 * Q) = s) (fs' : fl s = s) (fns : fl (-s) = -s)
    (ft0 : fl (-s / 2) ≤ 0) (ft1 : fl (s / 2) = T) (fT : fl T = T) (fH : fl (1 + T) = H)
    (fw : fl (H - 1) = w) (fnw : fl (1 - H) = -w) (fnw' : fl (-w) = -w) (fW : fl (w * w) = W) (fW' : fl W = W) (fl' : fl √W = w)
    (hQ : 0 ≤ Q) (hT : 0 < T) (hw : 0 < w) :
    flSphereHit fl R ⟨1, ⟨1, 0, 0⟩⟩ ⟨1, 0, 0⟩ ⟨1, 0, 0⟩ = some (T, ⟨H, 0, 0⟩) ∧
    flReflection fl ⟨1, 0, 0⟩ (flSphereNormal fl ⟨1, ⟨1, 0, 0⟩⟩ ⟨H, 0, 0⟩ ⟨1, 0, 0⟩) = ⟨-1, 0, 0⟩ := by
  constructor
  · have habc : flSphereABC fl R ⟨1, ⟨1, 0, 0⟩⟩ ⟨1, 0, 0⟩ ⟨1, 0, 0⟩ = (1, 0, -Q) := by
      simp [flSphereABC, flDot, V3.rounded, f0, f1, fR, fQ]
    have hp : ¬ (1 : ℝ) ≤ planarTol := by unfold planarTol; norm_num
    have hd : fl (fl (0 ^ 2) - fl (fl (4 * 1) * -Q)) = 4 * Q := by
      rw [mul_one, f4, f4Q, zero_pow (by norm_num), f0, zero_sub, neg_neg, f4Q']
    have hcand : flCandidate fl (1, 0, -Q) ⟨1, 0, 0⟩ ⟨1, 0, 0⟩ = some ⟨fl (-s / 2), T, flHit fl ⟨1, 0, 0⟩ ⟨1, 0, 0⟩ (fl (-s / 2)), ⟨H, 0, 0⟩⟩ := by
      unfold flCandidate
      simp only [hd]
      rw [if_pos (by linarith), if_neg hp, fs]
      have e0 : fl (fl (-0 + -1 * s) / fl (2 * 1)) = fl (-s / 2) := by rw [neg_zero, zero_add, neg_one_mul, fns, mul_one, f2]
      have e1 : fl (fl (-0 + 1 * s) / fl (2 * 1)) = T := by rw [neg_zero, zero_add, one_mul, fs', mul_one, f2, ft1]
      rw [e0, e1]
      simp [flHit, V3.rounded, fT, fH, f0]
    unfold flSphereHit
    rw [habc, hcand]
    simp only
    rw [if_neg (not_lt.2 ft0), if_pos hT]
  · have hn : flSphereNormal fl ⟨1, ⟨1, 0, 0⟩⟩ ⟨H, 0, 0⟩ ⟨1, 0, 0⟩ = ⟨-1, 0, 0⟩ := by
      have hside : flDot fl ((⟨1, 0, 0⟩ - ⟨H, 0, 0⟩ : V3 ℝ).rounded fl) ⟨1, 0, 0⟩ = -w := by
        simp [flDot, V3.rounded, f0, fnw, fnw']
      unfold flSphereNormal
      simp only [hside]
      rw [if_pos (by linarith)]
      have hlen : flDot fl ((-1 : ℝ) • (⟨H, 0, 0⟩ - ⟨1, 0, 0⟩ : V3 ℝ).rounded fl) ((-1 : ℝ) • (⟨H, 0, 0⟩ - ⟨1, 0, 0⟩ : V3 ℝ).rounded fl) = W := by
        simp [flDot, V3.rounded, f0, fw, fW, fW']
      rw [hlen, fl']
      have : -w / w = -1 := by rw [neg_div, div_self hw.ne']
      simp [V3.rounded, f0, fw, this, fn1]
    rw [hn]
    have e : (1 : ℝ) - 2 = -1 := by norm_num
    simp [flReflection, flDot, V3.rounded, f0, f1, f2, fn1, e]

theorem sphere_second {fl : ℝ → ℝ} {R Q s H w W C y t : ℝ} (f0 : fl 0 = 0) (f1 : fl 1 = 1) (f2 : fl 2 = 2) (f4 : fl 4 = 4) (fR : fl (R ^ 2) = Q)
    (fs : fl √(4 * Q) = s) (fw : fl (H - 1) = w) (fnw' : fl (-w) = -w) (f2w : fl (-(2 * w)) = -(2 * w)) (fW : fl (w * w) = W) (fW' : fl W = W)
    (fC : fl (W - Q) = C) (f4W : fl ((2 * w) ^ 2) = 4 * W) (f4C : fl (4 * C) = 4 * C) (fD : fl (4 * W - 4 * C) = 4 * Q)
    (fy : fl (2 * w - s) = y) (ft : fl (y / 2) = t) (hQ : 0 ≤ Q) (ht : 0 < t) :
    ∃ p, flSphereHit fl R ⟨1, ⟨1, 0, 0⟩⟩ ⟨H, 0, 0⟩ ⟨-1, 0, 0⟩ = some (t, p) := by
  have habc : flSphereABC fl R ⟨1, ⟨1, 0, 0⟩⟩ ⟨H, 0, 0⟩ ⟨-1, 0, 0⟩ = (1, -(2 * w), C) := by
    simp [flSphereABC, flDot, V3.rounded, f0, f1, fR, fw, fnw', f2w, fW, fW', fC]
  have hp : ¬ (1 : ℝ) ≤ planarTol := by unfold planarTol; norm_num
  have hd : fl (fl ((-(2 * w)) ^ 2) - fl (fl (4 * 1) * C)) = 4 * Q := by
    rw [mul_one, f4, f4C, neg_sq, f4W, fD]
  unfold flSphereHit
  rw [habc]
  unfold flCandidate
  simp only [hd]
  rw [if_pos (by linarith), if_neg hp, fs]
  have e0 : fl (fl (- -(2 * w) + -1 * s) / fl (2 * 1)) = t := by rw [neg_neg, neg_one_mul, ← sub_eq_add_neg, fy, mul_one, f2, ft]
  simp only [e0]
  rw [if_pos ht]
  exact ⟨_, rfl⟩

/-! ### The numbers -/

theorem fl_two : binary64 2 = 2 := by
  rw [binary64_eq 4503599627370496 (-51)] <;> norm_num [abs_of_pos, abs_lt, zpow_neg]
theorem fl_four : binary64 4 = 4 := by
  rw [binary64_eq 4503599627370496 (-50)] <;> norm_num [abs_of_pos, abs_lt, zpow_neg]
theorem fl_neg_one : binary64 (-1) = -1 := by
  rw [binary64_eq (-4503599627370496) (-52)] <;> norm_num [abs_of_pos, abs_lt, zpow_neg]

/-- The number 0.1 in double precision. -/
noncomputable def tenth : ℝ := 7205759403792794 / 2 ^ 56

theorem fl_R : binary64 (tenth ^ 2) = 5764607523034236 / 2 ^ 59 := by
  rw [binary64_eq 5764607523034236 (-59)] <;> norm_num [abs_of_pos, abs_lt, zpow_neg, tenth]
theorem fl_Q : binary64 (-(5764607523034236 / 2 ^ 59)) = -(5764607523034236 / 2 ^ 59) := by
  rw [binary64_eq (-5764607523034236) (-59)] <;> norm_num [abs_of_pos, abs_lt, zpow_neg]
theorem fl_4Q : binary64 (4 * -(5764607523034236 / 2 ^ 59)) = -(4 * (5764607523034236 / 2 ^ 59)) := by
  rw [binary64_eq (-5764607523034236) (-57)] <;> norm_num [abs_of_pos, abs_lt, zpow_neg]
theorem fl_4Q' : binary64 (4 * (5764607523034236 / 2 ^ 59)) = 4 * (5764607523034236 / 2 ^ 59) := by
  rw [binary64_eq (5764607523034236) (-57)] <;> norm_num [abs_of_pos, abs_lt, zpow_neg]
theorem fl_s : binary64 √(4 * (5764607523034236 / 2 ^ 59)) = 7205759403792794 / 2 ^ 55 := by
  rw [binary64_sqrt 7205759403792794 (-55)] <;> norm_num [zpow_neg]
theorem fl_s' : binary64 (7205759403792794 / 2 ^ 55) = 7205759403792794 / 2 ^ 55 := by
  rw [binary64_eq (7205759403792794) (-55)] <;> norm_num [abs_of_pos, abs_lt, zpow_neg]
theorem fl_ns : binary64 (-(7205759403792794 / 2 ^ 55)) = -(7205759403792794 / 2 ^ 55) := by
  rw [binary64_eq (-7205759403792794) (-55)] <;> norm_num [abs_of_pos, abs_lt, zpow_neg]
theorem fl_t0 : binary64 (-(7205759403792794 / 2 ^ 55) / 2) ≤ 0 := by
  rw [binary64_eq (-7205759403792794) (-56)] <;> norm_num [abs_of_pos, abs_lt, zpow_neg]
theorem fl_t1 : binary64 (7205759403792794 / 2 ^ 55 / 2) = tenth := by
  rw [binary64_eq (7205759403792794) (-56)] <;> norm_num [abs_of_pos, abs_lt, zpow_neg, tenth]
theorem fl_tenth : binary64 tenth = tenth := by
  rw [binary64_eq (7205759403792794) (-56)] <;> norm_num [abs_of_pos, abs_lt, zpow_neg, tenth]
theorem fl_hit : binary64 (1 + tenth) = 4953959590107546 / 2 ^ 52 := by
  rw [binary64_eq (4953959590107546) (-52)] <;> norm_num [abs_of_pos, abs_lt, zpow_neg, tenth]
theorem fl_w : binary64 (4953959590107546 / 2 ^ 52 - 1) = 7205759403792800 / 2 ^ 56 := by
  rw [binary64_eq (7205759403792800) (-56)] <;> norm_num [abs_of_pos, abs_lt, zpow_neg]
theorem fl_nw : binary64 (1 - 4953959590107546 / 2 ^ 52) = -(7205759403792800 / 2 ^ 56) := by
  rw [binary64_eq (-7205759403792800) (-56)] <;> norm_num [abs_of_pos, abs_lt, zpow_neg]
theorem fl_nw' : binary64 (-(7205759403792800 / 2 ^ 56)) = -(7205759403792800 / 2 ^ 56) := by
  rw [binary64_eq (-7205759403792800) (-56)] <;> norm_num [abs_of_pos, abs_lt, zpow_neg]
theorem fl_2w : binary64 (-(2 * (7205759403792800 / 2 ^ 56))) = -(2 * (7205759403792800 / 2 ^ 56)) := by
  rw [binary64_eq (-7205759403792800) (-55)] <;> norm_num [abs_of_pos, abs_lt, zpow_neg]
theorem fl_W : binary64 (7205759403792800 / 2 ^ 56 * (7205759403792800 / 2 ^ 56)) = 5764607523034245 / 2 ^ 59 := by
  rw [binary64_eq (5764607523034245) (-59)] <;> norm_num [abs_of_pos, abs_lt, zpow_neg]
theorem fl_W' : binary64 (5764607523034245 / 2 ^ 59) = 5764607523034245 / 2 ^ 59 := by
  rw [binary64_eq (5764607523034245) (-59)] <;> norm_num [abs_of_pos, abs_lt, zpow_neg]
theorem fl_len : binary64 √(5764607523034245 / 2 ^ 59) = 7205759403792800 / 2 ^ 56 := by
  rw [binary64_sqrt 7205759403792800 (-56)] <;> norm_num [zpow_neg]
theorem fl_C : binary64 (5764607523034245 / 2 ^ 59 - 5764607523034236 / 2 ^ 59) = 9 / 2 ^ 59 := by
  rw [binary64_eq (5066549580791808) (-108)] <;> norm_num [abs_of_pos, abs_lt, zpow_neg]
theorem fl_4W : binary64 ((2 * (7205759403792800 / 2 ^ 56)) ^ 2) = 4 * (5764607523034245 / 2 ^ 59) := by
  rw [binary64_eq (5764607523034245) (-57)] <;> norm_num [abs_of_pos, abs_lt, zpow_neg]
theorem fl_4C : binary64 (4 * (9 / 2 ^ 59)) = 4 * (9 / 2 ^ 59) := by
  rw [binary64_eq (5066549580791808) (-106)] <;> norm_num [abs_of_pos, abs_lt, zpow_neg]
theorem fl_D2 : binary64 (4 * (5764607523034245 / 2 ^ 59) - 4 * (9 / 2 ^ 59)) = 4 * (5764607523034236 / 2 ^ 59) := by
  rw [binary64_eq (5764607523034236) (-57)] <;> norm_num [abs_of_pos, abs_lt, zpow_neg]
theorem fl_y : binary64 (2 * (7205759403792800 / 2 ^ 56) - 7205759403792794 / 2 ^ 55) = 6 / 2 ^ 55 := by
  rw [binary64_eq (6755399441055744) (-105)] <;> norm_num [abs_of_pos, abs_lt, zpow_neg]
theorem fl_t : binary64 (6 / 2 ^ 55 / 2) = 3 / 2 ^ 55 := by
  rw [binary64_eq (6755399441055744) (-106)] <;> norm_num [abs_of_pos, abs_lt, zpow_neg]

end Tracer
