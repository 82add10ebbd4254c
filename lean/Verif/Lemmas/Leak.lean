import Verif.Lemmas.Rounded
import Verif.Lemmas.OneSurface
import Mathlib.Tactic.NormNum

/-! A mirror that lets light through, for `Props/Rounded.lean`. -/

namespace Tracer
variable {E σ : Type _}

/-- The value of `binary64`, by its mantissa and exponent. -/
theorem binary64_eq {x : ℝ} (m e : ℤ) (h1 : (2 : ℝ) ^ (e + 52) ≤ |x|) (h2 : |x| < (2 : ℝ) ^ (e + 53))
    (h3 : |x - m * 2 ^ e| < 2 ^ e / 2) : binary64 x = m * (2 : ℝ) ^ e := by
  have hx : 0 < |x| := (zpow_pos (by norm_num) _).trans_le h1
  have hlog : Int.log 2 |x| = e + 52 := by
    apply le_antisymm
    · have := (Int.lt_zpow_iff_log_lt (b := 2) (by norm_num) hx).1 (by exact_mod_cast h2)
      omega
    · exact (Int.zpow_le_iff_le_log (b := 2) (by norm_num) hx).1 (by exact_mod_cast h1)
  have hu : ulp x = 2 ^ e := by unfold ulp; rw [hlog]; congr 1; ring
  have hq : (0 : ℝ) < 2 ^ e := zpow_pos (by norm_num) _
  have hr : round (x / 2 ^ e) = m := by
    rw [_root_.round_eq, Int.floor_eq_iff]
    obtain ⟨a, b⟩ := abs_lt.1 h3
    constructor
    · rw [← sub_le_iff_le_add, le_div_iff₀ hq]; nlinarith
    · rw [← lt_sub_iff_add_lt, div_lt_iff₀ hq]; nlinarith
  unfold binary64
  rw [hu, hr]

theorem binary64_zero : binary64 0 = 0 := by simp [binary64]

/-- One iteration with one surface and one ray. -/
theorem lone_step {s : Surf σ ℝ E} {w w' : σ} {r c : Ray ℝ E} {t minE : ℝ} (hreg : s.register [r] = [(t : WithTop ℝ)]) (ht : 1 / 10 ^ 10 < t)
    (hout : s.outgoing w [r] [0] = .ok ([c], w')) (hc : c.parent = 0) (hE : minE < c.energy) :
    iterate (lone s) [s] minE ⟨[r], [none], [[true]], w⟩ = .ok (⟨[c], [none], [[true]], w'⟩, [c], [c]) := by
  have h1 : ¬ ((t : WithTop ℝ) ≤ ((1 / 10 ^ 10 : ℝ) : WithTop ℝ)) := by
    rw [WithTop.coe_le_coe]; exact not_le.2 ht
  have h2 : ¬ ((t : WithTop ℝ) < ((-(1 / 10 ^ 16) : ℝ) : WithTop ℝ)) := by
    rw [WithTop.coe_lt_coe]
    exact not_lt.2 (by linarith [show (0 : ℝ) < 1 / 10 ^ 10 by norm_num, show (0 : ℝ) < 1 / 10 ^ 16 by norm_num])
  have hreg' : stackRow [r] s [true] = [(t : WithTop ℝ)] := by
    simp [stackRow, hreg, Np.scatter]
  have hi : intersectRay [r] [s] (surfOwnership (lone s)) [none] [[true]] = .ok ([[true]], [[true]]) := by
    have hso : surfOwnership (lone s) = [0] := rfl
    have hom : ownedMask [none] 0 [true] = [true] := rfl
    unfold intersectRay
    simp only [hso, List.zipWith, hom, hreg', List.any, negTol, h2, dropSelfHits, selfTol, h1]
    simp [frontMask, colMin]
  have hcE : ¬ c.energy ≤ minE := not_le.2 hE
  have hfix : fixParents [true] [c] = .ok [c] := by
    obtain ⟨v, d, e, rf, p, x⟩ := c
    simp only at hc
    subst hc
    rfl
  have hcon : contribute (lone s) minE [r] w 0 s [true] [true] = .ok (⟨[c], [c], [false], [none], [[true]]⟩, w') := by
    have e1 : Np.mask [true] [true] = [true] := rfl
    have e2 : Np.nonzero [true] = [0] := rfl
    unfold contribute
    simp only [e1, e2, List.any, Bool.not_true, Bool.or_self, Bool.false_eq_true, if_false, hout, hfix, List.map, hcE, decide_false, id]
    rfl
  unfold iterate
  simp only [hi]
  have e1 : (Np.mask [true] [true]).any id = true := rfl
  simp only [surfLoop, e1, if_true, hcon]
  rfl

/-! ### The mirror -/

/-- A horizontal mirror 800 m above the origin, in millimetres. -/
noncomputable def farMirror : Tf ℝ := ⟨1, ⟨0, 0, 800000⟩⟩

/-- The ray from the origin along (0.8, 0, 0.6). -/
noncomputable def farRay [Inhabited E] : Ray ℝ E := ⟨⟨0, 0, 0⟩, ⟨7205759403792794 / 2 ^ 53, 0, 5404319552844595 / 2 ^ 53⟩, 1, 0, none, default⟩

theorem fl_a : binary64 (7205759403792794 / 2 ^ 53) = 7205759403792794 / 2 ^ 53 := by
  rw [binary64_eq 7205759403792794 (-53)] <;> norm_num [abs_of_pos, abs_lt, zpow_neg]
theorem fl_D : binary64 (5404319552844595 / 2 ^ 53) = 5404319552844595 / 2 ^ 53 := by
  rw [binary64_eq 5404319552844595 (-53)] <;> norm_num [abs_of_pos, abs_lt, zpow_neg]
theorem fl_negD : binary64 (-(5404319552844595 / 2 ^ 53)) = -(5404319552844595 / 2 ^ 53) := by
  rw [binary64_eq (-5404319552844595) (-53)] <;> norm_num [abs_of_pos, abs_lt, zpow_neg]
theorem fl_2D : binary64 (2 * (5404319552844595 / 2 ^ 53)) = 2 * (5404319552844595 / 2 ^ 53) := by
  rw [binary64_eq 5404319552844595 (-52)] <;> norm_num [abs_of_pos, abs_lt, zpow_neg]
theorem fl_neg2D : binary64 (-(2 * (5404319552844595 / 2 ^ 53))) = -(2 * (5404319552844595 / 2 ^ 53)) := by
  rw [binary64_eq (-5404319552844595) (-52)] <;> norm_num [abs_of_pos, abs_lt, zpow_neg]
theorem fl_negZ : binary64 (-800000) = -800000 := by
  rw [binary64_eq (-6871947673600000) (-33)] <;> norm_num [abs_of_pos, abs_lt, zpow_neg]
theorem fl_T : binary64 (800000 / (5404319552844595 / 2 ^ 53)) = 5726623061333334 / 2 ^ 32 := by
  rw [binary64_eq 5726623061333334 (-32)] <;> norm_num [abs_of_pos, abs_lt, zpow_neg]
theorem fl_TD : binary64 (5726623061333334 / 2 ^ 32 * (5404319552844595 / 2 ^ 53)) = 800000 + 1 / 2 ^ 33 := by
  rw [binary64_eq 6871947673600001 (-33)] <;> norm_num [abs_of_pos, abs_lt, zpow_neg]
theorem fl_H : binary64 (800000 + 1 / 2 ^ 33) = 800000 + 1 / 2 ^ 33 := by
  rw [binary64_eq 6871947673600001 (-33)] <;> norm_num [abs_of_pos, abs_lt, zpow_neg]
theorem fl_q : binary64 (1 / 2 ^ 33) = 1 / 2 ^ 33 := by
  rw [binary64_eq 4503599627370496 (-85)] <;> norm_num [abs_of_pos, abs_lt, zpow_neg]
theorem fl_t2 : binary64 ((1 / 2 ^ 33) / (5404319552844595 / 2 ^ 53)) = 7505999378950827 / 2 ^ 85 := by
  rw [binary64_eq 7505999378950827 (-85)] <;> norm_num [abs_of_pos, abs_lt, zpow_neg]
theorem fl_t2D : binary64 (7505999378950827 / 2 ^ 85 * -(5404319552844595 / 2 ^ 53)) = -(1 / 2 ^ 33) := by
  rw [binary64_eq (-4503599627370496) (-85)] <;> norm_num [abs_of_pos, abs_lt, zpow_neg]
theorem fl_Z : binary64 800000 = 800000 := by
  rw [binary64_eq (6871947673600000) (-33)] <;> norm_num [abs_of_pos, abs_lt, zpow_neg]
theorem fl_one : binary64 1 = 1 := by
  rw [binary64_eq (4503599627370496) (-52)] <;> norm_num [abs_of_pos, abs_lt, zpow_neg]


/-- What is known of the roundings; `D` and `a` are 0.6 and 0.8, `T` is the parameter of the hit and `t` of the next one. -/
theorem leak_first {fl : ℝ → ℝ} {a D T Z q : ℝ} (f0 : fl 0 = 0) (fa : fl a = a) (fD : fl D = D) (fnD : fl (-D) = -D) (f2 : fl (2 * D) = 2 * D)
    (fZ : fl (-Z) = -Z) (fT : fl (Z / D) = T) (fTD : fl (T * D) = Z + q) (fH : fl (Z + q) = Z + q) (hD : parallelTol < D) (hD0 : 0 < D) (hT : 0 ≤ T) :
    flFlatParam fl ⟨1, ⟨0, 0, Z⟩⟩ ⟨0, 0, 0⟩ ⟨a, 0, D⟩ = (T : WithTop ℝ) ∧
    flHit fl ⟨0, 0, 0⟩ ⟨a, 0, D⟩ T = ⟨fl (fl (T * a)), 0, Z + q⟩ ∧
    flReflection fl ⟨a, 0, D⟩ (flNormal fl ⟨1, ⟨0, 0, Z⟩⟩ ⟨a, 0, D⟩) = ⟨a, 0, -D⟩ := by
  have hdt : flDt fl ⟨1, ⟨0, 0, Z⟩⟩ ⟨a, 0, D⟩ = D := by simp [flDt, flDot, f0, fD]
  have habs : |D| = D := abs_of_pos hD0
  have hsub : D - 2 * D = -D := by ring
  refine ⟨?_, ?_, ?_⟩
  · unfold flFlatParam
    simp only [hdt, habs, hD, if_true]
    have hvt : flDot fl (1 : M3 ℝ).c3 ((⟨0, 0, 0⟩ - ⟨0, 0, Z⟩ : V3 ℝ).rounded fl) = -Z := by simp [flDot, V3.rounded, f0, fZ]
    rw [hvt, neg_neg, fT, if_neg (not_lt.2 hT)]
  · simp [flHit, V3.rounded, f0, fTD, fH]
  · unfold flNormal
    rw [hdt, if_pos hD0]
    simp [flReflection, flDot, V3.rounded, f0, fD, fnD, f2, fa, hsub]

theorem leak_second {fl : ℝ → ℝ} {a D t x Z q : ℝ} (f0 : fl 0 = 0) (fa : fl a = a) (fD : fl D = D) (fnD : fl (-D) = -D) (fn2 : fl (-(2 * D)) = -(2 * D))
    (fq : fl q = q) (ft : fl (q / D) = t) (ftD : fl (t * -D) = -q) (fZ : fl Z = Z) (hD : parallelTol < D) (hD0 : 0 < D) (ht : 0 ≤ t) :
    flFlatParam fl ⟨1, ⟨0, 0, Z⟩⟩ ⟨x, 0, Z + q⟩ ⟨a, 0, -D⟩ = (t : WithTop ℝ) ∧
    (flHit fl ⟨x, 0, Z + q⟩ ⟨a, 0, -D⟩ t).z = Z ∧
    flReflection fl ⟨a, 0, -D⟩ (flNormal fl ⟨1, ⟨0, 0, Z⟩⟩ ⟨a, 0, -D⟩) = ⟨a, 0, D⟩ := by
  have hdt : flDt fl ⟨1, ⟨0, 0, Z⟩⟩ ⟨a, 0, -D⟩ = -D := by simp [flDt, flDot, f0, fnD]
  have habs : |-D| = D := by rw [abs_neg, abs_of_pos hD0]
  have hsub : -D + 2 * D = D := by ring
  refine ⟨?_, ?_, ?_⟩
  · unfold flFlatParam
    simp only [hdt, habs, hD, if_true]
    have hvt : flDot fl (1 : M3 ℝ).c3 ((⟨x, 0, Z + q⟩ - ⟨0, 0, Z⟩ : V3 ℝ).rounded fl) = q := by simp [flDot, V3.rounded, f0, fq]
    rw [hvt, neg_div_neg_eq, ft, if_neg (not_lt.2 ht)]
  · simp only [flHit, V3.rounded, V3.smul_z, V3.add_z, ftD]
    rw [add_neg_cancel_right, fZ]
  · unfold flNormal
    rw [hdt, if_neg (by linarith)]
    simp [flReflection, flDot, V3.rounded, f0, fD, fnD, fn2, fa, hsub]

theorem flMirror_one {fl : ℝ → ℝ} {a t : ℝ} {F : Tf ℝ} {r : Ray ℝ E} (h : flFlatParam fl F r.vertex r.dir = (t : WithTop ℝ)) (w : σ) :
    (flMirror fl a F : Surf σ ℝ E).register [r] = [(t : WithTop ℝ)] ∧
    (flMirror fl a F : Surf σ ℝ E).outgoing w [r] [0] = .ok ([flReflectOne fl a F 0 r t], w) := by
  have e : [r][0]? = some r := rfl
  constructor
  · exact congrArg (fun x => [x]) h
  · unfold flMirror
    simp only [flChildren, e, h]

end Tracer
