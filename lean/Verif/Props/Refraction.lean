import Verif.Model.Refraction
import Verif.Spec.Optics
import Verif.Lemmas.Rigid
import Mathlib.Tactic.FieldSimp
import Mathlib.Tactic.NormNum
import Mathlib.Tactic.Linarith
import Mathlib.Tactic.Positivity

/-!
# Reflection and refraction (C44, C45, C46)
-/

set_option linter.unusedSectionVars false

namespace Tracer

open Real

section
variable {K : Type _} [Field K]

/-- C44: for a unit normal, `reflections` reverses the normal component and keeps the tangential one. -/
theorem C44_mirrored {m : V3 K} (hm : m.IsUnit) (d : V3 K) : Mirrored d m (reflection d m) := by
  unfold V3.IsUnit V3.dot at hm
  unfold reflection
  constructor
  · simp only [V3.dot, V3.sub_x, V3.sub_y, V3.sub_z, V3.smul_x, V3.smul_y, V3.smul_z]
    linear_combination -2 * (d.x * m.x + d.y * m.y + d.z * m.z) * hm
  · apply V3.ext <;>
      simp only [V3.cross, V3.dot, V3.sub_x, V3.sub_y, V3.sub_z, V3.smul_x, V3.smul_y, V3.smul_z] <;> ring

/-- C44: there is only one direction that obeys the law of reflection. -/
theorem C44_unique {m d e e' : V3 K} (hm : m.IsUnit) (h : Mirrored d m e) (h' : Mirrored d m e') : e = e' := by
  have hn := h.normal.trans h'.normal.symm
  have ht := h.tangent.trans h'.tangent.symm
  unfold V3.IsUnit V3.dot at hm
  simp only [V3.dot] at hn
  simp only [V3.cross, V3.mk.injEq] at ht
  obtain ⟨h1, h2, h3⟩ := ht
  apply V3.ext
  · linear_combination -(e.x - e'.x) * hm + m.x * hn + m.y * h3 - m.z * h2
  · linear_combination -(e.y - e'.y) * hm + m.y * hn + m.z * h1 - m.x * h3
  · linear_combination -(e.z - e'.z) * hm + m.z * hn + m.x * h2 - m.y * h1

/-- C44: lengths and mutual angles are preserved. -/
theorem C44_isometry {m : V3 K} (hm : m.IsUnit) (d d' : V3 K) :
    V3.dot (reflection d m) (reflection d' m) = V3.dot d d' := by
  unfold V3.IsUnit V3.dot at hm
  simp only [reflection, V3.dot, V3.sub_x, V3.sub_y, V3.sub_z, V3.smul_x, V3.smul_y, V3.smul_z]
  linear_combination 4 * (d.x * m.x + d.y * m.y + d.z * m.z) * (d'.x * m.x + d'.y * m.y + d'.z * m.z) * hm

/-- C44: reflecting twice restores the direction; the sign of the normal does not matter. -/
theorem C44_involution {m : V3 K} (hm : m.IsUnit) (d : V3 K) :
    reflection (reflection d m) m = d ∧ reflection d (-m) = reflection d m := by
  unfold V3.IsUnit V3.dot at hm
  constructor
  · apply V3.ext <;>
      simp only [reflection, V3.dot, V3.sub_x, V3.sub_y, V3.sub_z, V3.smul_x, V3.smul_y, V3.smul_z]
    · linear_combination 4 * (d.x * m.x + d.y * m.y + d.z * m.z) * m.x * hm
    · linear_combination 4 * (d.x * m.x + d.y * m.y + d.z * m.z) * m.y * hm
    · linear_combination 4 * (d.x * m.x + d.y * m.y + d.z * m.z) * m.z * hm
  · apply V3.ext <;>
      simp only [reflection, V3.dot, V3.sub_x, V3.sub_y, V3.sub_z, V3.smul_x, V3.smul_y, V3.smul_z,
        V3.neg_x, V3.neg_y, V3.neg_z] <;> ring

end

example : Mirrored (⟨3/5, 0, -4/5⟩ : V3 ℚ) ⟨0, 0, 1⟩ ⟨3/5, 0, 4/5⟩ ∧
    reflection (⟨3/5, 0, -4/5⟩ : V3 ℚ) ⟨0, 0, 1⟩ = ⟨3/5, 0, 4/5⟩ := by
  refine ⟨⟨?_, ?_⟩, ?_⟩
  · norm_num [V3.dot]
  · apply V3.ext <;> norm_num [V3.cross]
  · decide +kernel

/-! ### Refraction -/

section
variable {n1 n2 : ℝ} {d m : V3 ℝ}

/-- Lagrange's identity for unit vectors. -/
theorem cross_sq (hd : d.IsUnit) (hm : m.IsUnit) :
    V3.dot (V3.cross d m) (V3.cross d m) = 1 - V3.dot d m ^ 2 := by
  unfold V3.IsUnit at hd hm
  have : V3.dot (V3.cross d m) (V3.cross d m) = V3.dot d d * V3.dot m m - V3.dot d m ^ 2 := by
    unfold V3.dot V3.cross; ring
  rw [this, hd, hm]; ring

theorem dot_sq_le_one (hd : d.IsUnit) (hm : m.IsUnit) : V3.dot d m ^ 2 ≤ 1 := by
  have h := cross_sq hd hm
  have : 0 ≤ V3.dot (V3.cross d m) (V3.cross d m) := by
    unfold V3.dot; nlinarith [sq_nonneg (V3.cross d m).x, sq_nonneg (V3.cross d m).y, sq_nonneg (V3.cross d m).z]
  linarith

theorem V3.dot_comm' {K : Type _} [Field K] (a b : V3 K) : V3.dot a b = V3.dot b a := by
  unfold V3.dot; ring

theorem sin_incidence (hd : d.IsUnit) (hm : m.IsUnit) : sin (incidence d m) ^ 2 = 1 - V3.dot d m ^ 2 := by
  unfold incidence
  rw [sin_arccos, sq_sqrt, sq_abs]
  rw [sq_abs]; linarith [dot_sq_le_one hd hm]

theorem sin_incidence_nonneg : 0 ≤ sin (incidence d m) := by
  unfold incidence
  rw [sin_arccos]; exact sqrt_nonneg _

theorem cos_incidence (hd : d.IsUnit) (hm : m.IsUnit) : cos (incidence d m) = |V3.dot d m| := by
  unfold incidence
  apply cos_arccos
  · linarith [abs_nonneg (V3.dot d m)]
  · exact abs_le_one_iff_mul_self_le_one.2 (by linarith [dot_sq_le_one hd hm, sq (V3.dot d m)])

/-- C46: `refractions` marks a ray refracted iff `n1 * sin(incidence) <= n2`. -/
theorem C46_refracted_iff (h1 : 0 < n1) (h2 : 0 < n2) (hd : d.IsUnit) (hm : m.IsUnit) :
    refractedOne n1 n2 d m = true ↔ n1 * sin (incidence d m) ≤ n2 := by
  unfold refractedOne
  rw [decide_eq_true_iff, V3.dot_comm' m d]
  have hs := sin_incidence hd hm
  have hs0 : 0 ≤ sin (incidence d m) := sin_incidence_nonneg
  rw [mul_comm n1, ← le_div_iff₀ h1, ← sq_le_sq₀ hs0 (div_pos h2 h1).le, hs]
  constructor <;> intro h <;> linarith

/-- The ray is refracted exactly if the radicand of `cos2` is not negative. -/
theorem refracted_radicand (h1 : 0 < n1) (h2 : 0 < n2) (h : refractedOne n1 n2 d m = true) :
    0 ≤ 1 - 1 / (n2 / n1) ^ 2 * (1 - V3.dot m d ^ 2) := by
  unfold refractedOne at h
  rw [decide_eq_true_iff] at h
  have hn : 0 < (n2 / n1) ^ 2 := pow_pos (div_pos h2 h1) 2
  have : 1 / (n2 / n1) ^ 2 * (1 - V3.dot m d ^ 2) ≤ 1 / (n2 / n1) ^ 2 * (n2 / n1) ^ 2 :=
    mul_le_mul_of_nonneg_left (by linarith) (one_div_pos.2 hn).le
  rw [one_div_mul_cancel hn.ne'] at this
  linarith

/-- The components of the refracted direction, with `i = n1/n2`, `k = cos2` and `s` the sign. -/
theorem refractOne_eq (h1 : 0 < n1) (h2 : 0 < n2) (h : refractedOne n1 n2 d m = true) :
    ∃ i k s : ℝ, n2 * i = n1 ∧ 0 ≤ k ∧ k ^ 2 = 1 - i ^ 2 * (1 - V3.dot m d ^ 2) ∧
      (s = if V3.dot m d < 0 then -1 else 1) ∧
      (refractOne n1 n2 d m).x = i * (d.x - V3.dot m d * m.x) + m.x * k * s ∧
      (refractOne n1 n2 d m).y = i * (d.y - V3.dot m d * m.y) + m.y * k * s ∧
      (refractOne n1 n2 d m).z = i * (d.z - V3.dot m d * m.z) + m.z * k * s := by
  refine ⟨n1 / n2, √(1 - 1 / (n2 / n1) ^ 2 * (1 - V3.dot m d ^ 2)), _, ?_, sqrt_nonneg _, ?_, rfl, ?_, ?_, ?_⟩
  · field_simp
  · rw [sq_sqrt (refracted_radicand h1 h2 h)]
    field_simp
  all_goals
    unfold refractOne
    simp only
    congr 1
    field_simp

/-- C45: every refracted ray obeys Snell's law. -/
theorem C45_snell (h1 : 0 < n1) (h2 : 0 < n2) (hd : d.IsUnit) (hm : m.IsUnit)
    (h : refractedOne n1 n2 d m = true) : Snell n1 n2 d m (refractOne n1 n2 d m) := by
  obtain ⟨i, k, s, hi, hk0, hk, hs, hx, hy, hz⟩ := refractOne_eq h1 h2 h
  have hs2 : s ^ 2 = 1 := by rw [hs]; split <;> norm_num
  have hcs : 0 ≤ V3.dot m d * s := by
    rw [hs]; split
    · nlinarith
    · rename_i hc; push Not at hc; linarith
  unfold V3.IsUnit at hd hm
  generalize hc : V3.dot m d = c at *
  generalize refractOne n1 n2 d m = e at *
  unfold V3.dot at hd hm hc
  have hem : V3.dot e m = k * s := by
    unfold V3.dot
    rw [hx, hy, hz]
    linear_combination (-i * c + k * s) * hm + i * hc
  constructor
  · unfold V3.IsUnit V3.dot
    rw [hx, hy, hz]
    linear_combination i ^ 2 * hd + (i ^ 2 * c ^ 2 - 2 * i * k * s * c + k ^ 2 * s ^ 2) * hm +
      (-2 * i ^ 2 * c + 2 * i * k * s) * hc + k ^ 2 * hs2 + hk
  · apply V3.ext <;> simp only [V3.cross, V3.smul_x, V3.smul_y, V3.smul_z, hx, hy, hz]
    · linear_combination -(d.y * m.z - d.z * m.y) * hi
    · linear_combination -(d.z * m.x - d.x * m.z) * hi
    · linear_combination -(d.x * m.y - d.y * m.x) * hi
  · rw [hem, V3.dot_comm']
    have : V3.dot m d = c := hc
    rw [this]
    calc 0 ≤ k * (c * s) := mul_nonneg hk0 hcs
      _ = _ := by ring

/-- Snell's law as it is usually written. -/
theorem Snell.sines {e : V3 ℝ} (h1 : 0 ≤ n1) (h2 : 0 ≤ n2) (hd : d.IsUnit) (hm : m.IsUnit) (h : Snell n1 n2 d m e) :
    n1 * sin (incidence d m) = n2 * sin (incidence e m) := by
  have h3 := congrArg (fun v => V3.dot v v) h.law
  have e1 : ∀ (a : ℝ) (v : V3 ℝ), V3.dot (a • v) (a • v) = a ^ 2 * V3.dot v v := by
    intro a v; unfold V3.dot; simp only [V3.smul_x, V3.smul_y, V3.smul_z]; ring
  simp only [e1, cross_sq hd hm, cross_sq h.unit hm, ← sin_incidence hd hm, ← sin_incidence h.unit hm, ← mul_pow] at h3
  exact (pow_left_inj₀ (mul_nonneg h1 sin_incidence_nonneg) (mul_nonneg h2 sin_incidence_nonneg) two_ne_zero).1 h3

/-- C45: `n1*sin(in) = n2*sin(out)`. -/
theorem C45_sines (h1 : 0 < n1) (h2 : 0 < n2) (hd : d.IsUnit) (hm : m.IsUnit)
    (h : refractedOne n1 n2 d m = true) :
    n1 * sin (incidence d m) = n2 * sin (incidence (refractOne n1 n2 d m) m) :=
  (C45_snell h1 h2 hd hm h).sines h1.le h2.le hd hm

/-- C45: unless the ray grazes the surface, the law leaves no choice. -/
theorem C45_unique {e e' : V3 ℝ} (h2 : 0 < n2) (hm : m.IsUnit) (hc : V3.dot d m ≠ 0)
    (h : Snell n1 n2 d m e) (h' : Snell n1 n2 d m e') : e = e' := by
  have hl := h.law.symm.trans h'.law
  have hx : V3.cross e m = V3.cross e' m := by
    rw [V3.ext_iff] at hl ⊢
    simp only [V3.smul_x, V3.smul_y, V3.smul_z, mul_right_inj' h2.ne'] at hl
    exact hl
  have hsq : V3.dot e m ^ 2 = V3.dot e' m ^ 2 := by
    have a := cross_sq h.unit hm
    have b := cross_sq h'.unit hm
    rw [hx] at a
    linarith
  have hn : V3.dot e m = V3.dot e' m := by
    rcases sq_eq_sq_iff_eq_or_eq_neg.1 hsq with hh | hh
    · exact hh
    · have t := h.through
      have t' := h'.through
      rw [hh] at t
      have : V3.dot d m * V3.dot e' m = 0 := by linarith
      rcases mul_eq_zero.1 this with h0 | h0
      · exact absurd h0 hc
      · rw [hh, h0, neg_zero]
  have hm' := hm
  unfold V3.IsUnit V3.dot at hm'
  simp only [V3.dot] at hn
  simp only [V3.cross, V3.mk.injEq] at hx
  obtain ⟨a1, a2, a3⟩ := hx
  apply V3.ext
  · linear_combination -(e.x - e'.x) * hm' + m.x * hn + m.y * a3 - m.z * a2
  · linear_combination -(e.y - e'.y) * hm' + m.y * hn + m.z * a1 - m.x * a3
  · linear_combination -(e.z - e'.z) * hm' + m.z * hn + m.x * a2 - m.y * a1

/-- C46: a ray is marked as not refracted exactly if Snell's law has no solution for it. -/
theorem C46_total_reflection (h1 : 0 < n1) (h2 : 0 < n2) (hd : d.IsUnit) (hm : m.IsUnit) :
    refractedOne n1 n2 d m = false ↔ TotallyReflected n1 n2 d m := by
  constructor
  · rintro h ⟨e, he⟩
    have hs := he.sines h1.le h2.le hd hm
    have : n1 * sin (incidence d m) ≤ n2 := by
      rw [hs]; exact mul_le_of_le_one_right h2.le (sin_le_one _)
    rw [(C46_refracted_iff h1 h2 hd hm).2 this] at h
    cases h
  · intro h
    by_contra hr
    exact h ⟨_, C45_snell h1 h2 hd hm (by simpa using hr)⟩

/-- C46: entering a denser medium (or an equal one), every ray refracts. -/
theorem C46_denser (h1 : 0 < n1) (h12 : n1 ≤ n2) (hd : d.IsUnit) (hm : m.IsUnit) :
    refractedOne n1 n2 d m = true := by
  rw [C46_refracted_iff h1 (h1.trans_le h12) hd hm]
  exact (mul_le_of_le_one_right h1.le (sin_le_one _)).trans h12

/-- C45: with equal indices, every ray goes straight on. -/
theorem C45_equal (h1 : 0 < n1) : refractOne n1 n1 d m = d := by
  unfold refractOne
  have hn : n1 / n1 = 1 := div_self h1.ne'
  have hk : √(1 - 1 / (n1 / n1) ^ 2 * (1 - V3.dot m d ^ 2)) = |V3.dot m d| := by
    rw [hn, ← sqrt_sq_eq_abs]; congr 1; ring
  have hs : |V3.dot m d| * (if V3.dot m d < 0 then -1 else 1) = V3.dot m d := by
    split
    · rename_i h; rw [abs_of_neg h]; ring
    · rename_i h; rw [abs_of_nonneg (not_lt.1 h)]; ring
  apply V3.ext <;> simp only <;> rw [mul_assoc, hk, hs, hn] <;> ring

/-- Snell's law read backwards, for the reversed ray. -/
theorem Snell.reverse {e : V3 ℝ} (hd : d.IsUnit) (h : Snell n1 n2 d m e) : Snell n2 n1 (-e) m (-d) := by
  refine ⟨?_, ?_, ?_⟩
  · unfold V3.IsUnit V3.dot at *
    simpa using hd
  · have := h.law
    rw [V3.ext_iff] at this ⊢
    simp only [V3.cross, V3.smul_x, V3.smul_y, V3.smul_z, V3.neg_x, V3.neg_y, V3.neg_z] at this ⊢
    refine ⟨?_, ?_, ?_⟩
    · linear_combination this.1
    · linear_combination this.2.1
    · linear_combination this.2.2
  · have := h.through
    have e1 : V3.dot (-e) m * V3.dot (-d) m = V3.dot d m * V3.dot e m := by
      unfold V3.dot; simp only [V3.neg_x, V3.neg_y, V3.neg_z]; ring
    rw [e1]; exact this

/-- C45: the way light takes can be reversed: the reversed refracted ray refracts into the reversed
incoming ray (unless it leaves exactly along the surface). -/
theorem C45_reverse (h1 : 0 < n1) (h2 : 0 < n2) (hd : d.IsUnit) (hm : m.IsUnit)
    (h : refractedOne n1 n2 d m = true) (hg : V3.dot (refractOne n1 n2 d m) m ≠ 0) :
    refractedOne n2 n1 (-refractOne n1 n2 d m) m = true ∧
    refractOne n2 n1 (-refractOne n1 n2 d m) m = -d := by
  have hr := (C45_snell h1 h2 hd hm h).reverse hd
  have hu := (C45_snell h1 h2 hd hm h).unit
  generalize refractOne n1 n2 d m = e at *
  have hu' : (-e).IsUnit := by unfold V3.IsUnit V3.dot at *; simpa using hu
  have hr' : refractedOne n2 n1 (-e) m = true := by
    by_contra hf
    exact (C46_total_reflection h2 h1 hu' hm).1 (by simpa using hf) ⟨_, hr⟩
  refine ⟨hr', C45_unique h1 hm ?_ (C45_snell h2 h1 hu' hm hr') hr⟩
  unfold V3.dot at hg ⊢
  simp only [V3.neg_x, V3.neg_y, V3.neg_z]
  intro h0; apply hg; linarith

/-- C45: behind a second parallel face the ray has its old direction again (a plane-parallel plate only shifts
rays), whichever sign the second normal has. -/
theorem C45_plate (h1 : 0 < n1) (h2 : 0 < n2) (hd : d.IsUnit) (hm : m.IsUnit)
    (h : refractedOne n1 n2 d m = true) (hg : V3.dot (refractOne n1 n2 d m) m ≠ 0)
    {m' : V3 ℝ} (hm' : m' = m ∨ m' = -m) :
    refractedOne n2 n1 (refractOne n1 n2 d m) m' = true ∧
    refractOne n2 n1 (refractOne n1 n2 d m) m' = d := by
  have hr := C45_snell h1 h2 hd hm h
  generalize refractOne n1 n2 d m = e at *
  have hmu : m'.IsUnit := by
    rcases hm' with rfl | rfl
    · exact hm
    · unfold V3.IsUnit V3.dot at *; simpa using hm
  have hsn : Snell n2 n1 e m' d := by
    have hl := hr.law
    have ht := hr.through
    rw [V3.ext_iff] at hl
    rcases hm' with rfl | rfl
    · exact ⟨hd, hr.law.symm, by rw [mul_comm]; exact ht⟩
    · refine ⟨hd, ?_, ?_⟩
      · rw [V3.ext_iff]
        simp only [V3.cross, V3.smul_x, V3.smul_y, V3.smul_z, V3.neg_x, V3.neg_y, V3.neg_z] at hl ⊢
        refine ⟨?_, ?_, ?_⟩
        · linear_combination hl.1
        · linear_combination hl.2.1
        · linear_combination hl.2.2
      · have e1 : V3.dot e (-m) * V3.dot d (-m) = V3.dot d m * V3.dot e m := by
          unfold V3.dot; simp only [V3.neg_x, V3.neg_y, V3.neg_z]; ring
        rw [e1]; exact ht
  have hr' : refractedOne n2 n1 e m' = true := by
    by_contra hf
    exact (C46_total_reflection h2 h1 hr.unit hmu).1 (by simpa using hf) ⟨_, hsn⟩
  refine ⟨hr', C45_unique h1 hmu ?_ (C45_snell h2 h1 hr.unit hmu hr') hsn⟩
  rcases hm' with rfl | rfl
  · exact hg
  · unfold V3.dot at hg ⊢
    simp only [V3.neg_x, V3.neg_y, V3.neg_z]
    intro h0; apply hg; linarith

/-- The sign of the normal does not matter for rays that do not graze the surface. -/
theorem C45_normal_sign (h1 : 0 < n1) (h2 : 0 < n2) (hd : d.IsUnit) (hm : m.IsUnit) (hc : V3.dot d m ≠ 0) :
    refractedOne n1 n2 d (-m) = refractedOne n1 n2 d m ∧
    (refractedOne n1 n2 d m = true → refractOne n1 n2 d (-m) = refractOne n1 n2 d m) := by
  have hr : refractedOne n1 n2 d (-m) = refractedOne n1 n2 d m := by
    unfold refractedOne
    have : V3.dot (-m) d = -V3.dot m d := by unfold V3.dot; simp only [V3.neg_x, V3.neg_y, V3.neg_z]; ring
    simp only [this, neg_sq]
  refine ⟨hr, fun h => ?_⟩
  have hm' : (-m).IsUnit := by unfold V3.IsUnit V3.dot at *; simpa using hm
  have hs := C45_snell h1 h2 hd hm' (hr.trans h)
  refine C45_unique h2 hm hc ?_ (C45_snell h1 h2 hd hm h)
  have hl := hs.law
  rw [V3.ext_iff] at hl
  refine ⟨hs.unit, ?_, ?_⟩
  · rw [V3.ext_iff]
    simp only [V3.cross, V3.smul_x, V3.smul_y, V3.smul_z, V3.neg_x, V3.neg_y, V3.neg_z] at hl ⊢
    refine ⟨?_, ?_, ?_⟩
    · linear_combination -hl.1
    · linear_combination -hl.2.1
    · linear_combination -hl.2.2
  · have e1 : ∀ e : V3 ℝ, V3.dot d (-m) * V3.dot e (-m) = V3.dot d m * V3.dot e m := by
      intro e; unfold V3.dot; simp only [V3.neg_x, V3.neg_y, V3.neg_z]; ring
    have ht := hs.through
    rw [e1] at ht
    exact ht

end

/-- C45/C46 for a whole call: the mask has one entry per ray, and the directions are those of the refracted rays,
in order. -/
theorem C46_list (rays : List Incidence) :
    (∀ (i : Nat) r, rays[i]? = some r → (refractions rays).1[i]? = some (refractedOne r.n1 r.n2 r.dir r.normal)) ∧
    (refractions rays).1.length = rays.length ∧
    (refractions rays).2 =
      (rays.filter fun r => refractedOne r.n1 r.n2 r.dir r.normal).map fun r => refractOne r.n1 r.n2 r.dir r.normal := by
  refine ⟨fun i r h => ?_, by simp [refractions], ?_⟩
  · simp [refractions, h]
  · unfold refractions
    simp only
    congr 1
    induction rays with
    | nil => rfl
    | cons r l ih =>
      rw [List.map_cons]
      cases hr : refractedOne r.n1 r.n2 r.dir r.normal <;> simp [Np.mask, hr, ih]

/-- From air into glass of index 4/3 at sine 4/5: refracted, with sine 3/5. -/
example : refractedOne 1 (4/3) ⟨4/5, 0, -3/5⟩ ⟨0, 0, 1⟩ = true ∧
    refractOne 1 (4/3) ⟨4/5, 0, -3/5⟩ ⟨0, 0, 1⟩ = ⟨3/5, 0, -4/5⟩ ∧
    Snell 1 (4/3) ⟨4/5, 0, -3/5⟩ ⟨0, 0, 1⟩ ⟨3/5, 0, -4/5⟩ ∧
    refractedOne (4/3) 1 ⟨4/5, 0, -3/5⟩ ⟨0, 0, 1⟩ = false := by
  have hd : V3.IsUnit (⟨4/5, 0, -3/5⟩ : V3 ℝ) := by norm_num [V3.IsUnit, V3.dot]
  have hm : V3.IsUnit (⟨0, 0, 1⟩ : V3 ℝ) := by norm_num [V3.IsUnit, V3.dot]
  have hr : refractedOne 1 (4/3) ⟨4/5, 0, -3/5⟩ ⟨0, 0, 1⟩ = true :=
    C46_denser one_pos (by norm_num) hd hm
  have hs : Snell 1 (4/3) ⟨4/5, 0, -3/5⟩ ⟨0, 0, 1⟩ ⟨3/5, 0, -4/5⟩ := by
    refine ⟨by norm_num [V3.IsUnit, V3.dot], ?_, by norm_num [V3.dot]⟩
    apply V3.ext <;> simp only [V3.cross, V3.smul_x, V3.smul_y, V3.smul_z] <;> norm_num
  refine ⟨hr, ?_, hs, ?_⟩
  · exact C45_unique (by norm_num) hm (by norm_num [V3.dot]) (C45_snell one_pos (by norm_num) hd hm hr) hs
  · unfold refractedOne V3.dot; norm_num

/-- The conditions of the other statements, for the same direction and indices. -/
example : sin (incidence (⟨4/5, 0, -3/5⟩ : V3 ℝ) ⟨0, 0, 1⟩) = 4/3 * sin (incidence (refractOne 1 (4/3) ⟨4/5, 0, -3/5⟩ ⟨0, 0, 1⟩) ⟨0, 0, 1⟩) ∧
    (1 : ℝ) * sin (incidence (⟨4/5, 0, -3/5⟩ : V3 ℝ) ⟨0, 0, 1⟩) ≤ 4/3 ∧
    TotallyReflected (4/3) 1 ⟨4/5, 0, -3/5⟩ ⟨0, 0, 1⟩ ∧
    refractOne (4/3) 1 (-refractOne 1 (4/3) ⟨4/5, 0, -3/5⟩ ⟨0, 0, 1⟩) ⟨0, 0, 1⟩ = -⟨4/5, 0, -3/5⟩ ∧
    refractOne (4/3) 1 (refractOne 1 (4/3) ⟨4/5, 0, -3/5⟩ ⟨0, 0, 1⟩) (-⟨0, 0, 1⟩) = ⟨4/5, 0, -3/5⟩ ∧
    refractOne 1 (4/3) ⟨4/5, 0, -3/5⟩ (-⟨0, 0, 1⟩) = refractOne 1 (4/3) ⟨4/5, 0, -3/5⟩ ⟨0, 0, 1⟩ := by
  have hd : V3.IsUnit (⟨4/5, 0, -3/5⟩ : V3 ℝ) := by norm_num [V3.IsUnit, V3.dot]
  have hm : V3.IsUnit (⟨0, 0, 1⟩ : V3 ℝ) := by norm_num [V3.IsUnit, V3.dot]
  have hr : refractedOne 1 (4/3) ⟨4/5, 0, -3/5⟩ ⟨0, 0, 1⟩ = true := C46_denser one_pos (by norm_num) hd hm
  have hs : Snell 1 (4/3) ⟨4/5, 0, -3/5⟩ ⟨0, 0, 1⟩ ⟨3/5, 0, -4/5⟩ := by
    refine ⟨by norm_num [V3.IsUnit, V3.dot], ?_, by norm_num [V3.dot]⟩
    apply V3.ext <;> simp only [V3.cross, V3.smul_x, V3.smul_y, V3.smul_z] <;> norm_num
  have he : refractOne 1 (4/3) ⟨4/5, 0, -3/5⟩ ⟨0, 0, 1⟩ = (⟨3/5, 0, -4/5⟩ : V3 ℝ) :=
    C45_unique (by norm_num) hm (by norm_num [V3.dot]) (C45_snell one_pos (by norm_num) hd hm hr) hs
  have hg : V3.dot (refractOne 1 (4/3) ⟨4/5, 0, -3/5⟩ ⟨0, 0, 1⟩) (⟨0, 0, 1⟩ : V3 ℝ) ≠ 0 := by rw [he]; norm_num [V3.dot]
  refine ⟨?_, (C46_refracted_iff one_pos (by norm_num) hd hm).1 hr,
    (C46_total_reflection (by norm_num) one_pos hd hm).1 (by unfold refractedOne V3.dot; norm_num),
    (C45_reverse one_pos (by norm_num) hd hm hr hg).2, (C45_plate one_pos (by norm_num) hd hm hr hg (Or.inr rfl)).2,
    (C45_normal_sign one_pos (by norm_num) hd hm (by norm_num [V3.dot])).2 hr⟩
  have := C45_sines one_pos (by norm_num) hd hm hr
  rwa [one_mul] at this

example : Mirrored (⟨3/5, 0, -4/5⟩ : V3 ℚ) ⟨0, 0, 1⟩ (reflection ⟨3/5, 0, -4/5⟩ ⟨0, 0, 1⟩) ∧
    (∀ e, Mirrored (⟨3/5, 0, -4/5⟩ : V3 ℚ) ⟨0, 0, 1⟩ e → e = reflection ⟨3/5, 0, -4/5⟩ ⟨0, 0, 1⟩) ∧
    reflection (reflection (⟨3/5, 0, -4/5⟩ : V3 ℚ) ⟨0, 0, 1⟩) ⟨0, 0, 1⟩ = ⟨3/5, 0, -4/5⟩ ∧
    V3.dot (reflection (⟨3/5, 0, -4/5⟩ : V3 ℚ) ⟨0, 0, 1⟩) (reflection ⟨1, 0, 0⟩ ⟨0, 0, 1⟩) = V3.dot ⟨3/5, 0, -4/5⟩ ⟨1, 0, 0⟩ ∧
    refractOne (3/2) (3/2) (⟨4/5, 0, -3/5⟩ : V3 ℝ) ⟨0, 0, 1⟩ = ⟨4/5, 0, -3/5⟩ := by
  have hm : V3.IsUnit (⟨0, 0, 1⟩ : V3 ℚ) := by norm_num [V3.IsUnit, V3.dot]
  exact ⟨C44_mirrored hm _, fun e h => C44_unique hm h (C44_mirrored hm _), (C44_involution hm _).1, C44_isometry hm _ _,
    C45_equal (by norm_num)⟩

end Tracer
