import Verif.Spec.Window
import Verif.Props.Specular
import Verif.Props.Fresnel
import Verif.Props.Variation

/-! One face of a pane, and the ways of light between two of them. -/

namespace Tracer

open Real

variable {E σ : Type _}

/-! ### Vectors -/

theorem dot_flipAlong {m v : V3 ℝ} (hm : m.IsUnit) : V3.dot (flipAlong m v) m = -V3.dot v m := by
  unfold V3.IsUnit at hm
  have : V3.dot (flipAlong m v) m = V3.dot v m - 2 * V3.dot v m * V3.dot m m := by
    unfold flipAlong V3.dot
    simp only [V3.sub_x, V3.sub_y, V3.sub_z, V3.smul_x, V3.smul_y, V3.smul_z]
    ring
  rw [this, hm]
  ring

theorem cross_flipAlong (m v : V3 ℝ) : V3.cross (flipAlong m v) m = V3.cross v m := by
  unfold flipAlong V3.cross
  simp only [V3.sub_x, V3.sub_y, V3.sub_z, V3.smul_x, V3.smul_y, V3.smul_z, V3.mk.injEq]
  refine ⟨?_, ?_, ?_⟩ <;> ring

theorem flipAlong_unit {m v : V3 ℝ} (hm : m.IsUnit) (hv : v.IsUnit) : (flipAlong m v).IsUnit := by
  unfold V3.IsUnit at *
  have : V3.dot (flipAlong m v) (flipAlong m v) = V3.dot v v - 4 * V3.dot v m ^ 2 + 4 * V3.dot v m ^ 2 * V3.dot m m := by
    unfold flipAlong V3.dot
    simp only [V3.sub_x, V3.sub_y, V3.sub_z, V3.smul_x, V3.smul_y, V3.smul_z]
    ring
  rw [this, hm, hv]
  ring

theorem flipAlong_flipAlong {m v : V3 ℝ} (hm : m.IsUnit) : flipAlong m (flipAlong m v) = v := by
  have h := dot_flipAlong (v := v) hm
  change flipAlong m v - (2 * V3.dot (flipAlong m v) m) • m = v
  rw [h]
  unfold flipAlong
  apply V3.ext <;> simp

theorem flipAlong_neg (m v : V3 ℝ) : flipAlong (-m) v = flipAlong m v := by
  unfold flipAlong V3.dot
  apply V3.ext <;> simp <;> ring

theorem reflection_eq_flip {d m n : V3 ℝ} (hn : n = m ∨ n = -m) : reflection d n = flipAlong m d := by
  have : ∀ n : V3 ℝ, reflection d n = flipAlong n d := by
    intro n
    unfold reflection flipAlong
    apply V3.ext <;> simp <;> ring
  rcases hn with rfl | rfl
  · exact this _
  · rw [this, flipAlong_neg]

/-! ### Snell's law -/

section
variable {n1 n2 : ℝ} {d m e : V3 ℝ}

theorem Snell.back (hd : d.IsUnit) (h : Snell n1 n2 d m e) : Snell n2 n1 e m d :=
  ⟨hd, h.law.symm, by rw [mul_comm]; exact h.through⟩

theorem Snell.neg (h : Snell n1 n2 d m e) : Snell n1 n2 d (-m) e := by
  have hl := h.law
  rw [V3.ext_iff] at hl
  refine ⟨h.unit, ?_, ?_⟩
  · rw [V3.ext_iff]
    simp only [V3.cross, V3.smul_x, V3.smul_y, V3.smul_z, V3.neg_x, V3.neg_y, V3.neg_z] at hl ⊢
    refine ⟨?_, ?_, ?_⟩
    · linear_combination -hl.1
    · linear_combination -hl.2.1
    · linear_combination -hl.2.2
  · have e1 : V3.dot d (-m) * V3.dot e (-m) = V3.dot d m * V3.dot e m := by
      unfold V3.dot; simp only [V3.neg_x, V3.neg_y, V3.neg_z]; ring
    rw [e1]; exact h.through

theorem Snell.flip (hm : m.IsUnit) (h : Snell n1 n2 d m e) : Snell n1 n2 (flipAlong m d) m (flipAlong m e) := by
  refine ⟨flipAlong_unit hm h.unit, ?_, ?_⟩
  · rw [cross_flipAlong, cross_flipAlong]; exact h.law
  · rw [dot_flipAlong hm, dot_flipAlong hm]
    have := h.through
    nlinarith

theorem Snell.refracted (h1 : 0 < n1) (h2 : 0 < n2) (hd : d.IsUnit) (hm : m.IsUnit) (hc : V3.dot d m ≠ 0) (h : Snell n1 n2 d m e) :
    refractedOne n1 n2 d m = true ∧ refractOne n1 n2 d m = e := by
  have hr : refractedOne n1 n2 d m = true := by
    by_contra hf
    exact (C46_total_reflection h1 h2 hd hm).1 (by simpa using hf) ⟨_, h⟩
  exact ⟨hr, C45_unique h2 hm hc (C45_snell h1 h2 hd hm hr) h⟩

theorem Snell.cos (h1 : 0 < n1) (h2 : 0 < n2) (hd : d.IsUnit) (hm : m.IsUnit) (h : Snell n1 n2 d m e) :
    cosBehind n1 n2 d m = |V3.dot e m| := by
  have hsin := h.sines h1.le h2.le hd hm
  rw [← cos_incidence h.unit hm]
  unfold cosBehind
  have : n1 / n2 * sin (incidence d m) = sin (incidence e m) := by
    rw [div_mul_eq_mul_div, hsin]; field_simp
  rw [this, ← abs_of_nonneg (a := Real.cos (incidence e m)), ← sqrt_sq_eq_abs]
  · congr 1; linarith [sin_sq_add_cos_sq (incidence e m)]
  · rw [cos_incidence h.unit hm]; exact abs_nonneg _

theorem Snell.reflectance (h1 : 0 < n1) (h2 : 0 < n2) (hd : d.IsUnit) (hm : m.IsUnit) (h : Snell n1 n2 d m e) :
    fresnelOne d m n1 n2 = fresnelMean n1 n2 |V3.dot d m| |V3.dot e m| := by
  rw [fresnelOne_eq hd hm, h.cos h1 h2 hd hm]
  rfl

theorem fresnelMean_comm (n1 n2 c c' : ℝ) : fresnelMean n2 n1 c' c = fresnelMean n1 n2 c c' := by
  unfold fresnelMean
  have a : ∀ p q : ℝ, ((p - q) / (p + q)) ^ 2 = ((q - p) / (q + p)) ^ 2 := by
    intro p q
    rw [div_pow, div_pow, add_comm p q]
    congr 1; ring
  rw [a (n2 * c'), a (n2 * c)]

end

/-! ### One face -/

theorem flatNormal_cases (F : Tf ℝ) (p d : V3 ℝ) : flatNormal F p d = F.rot.c3 ∨ flatNormal F p d = -F.rot.c3 := by
  unfold flatNormal
  split
  · exact Or.inr rfl
  · exact Or.inl rfl

/-- What a ray that meets a face becomes: it is in the medium `a` of the two media `n1` and `n2` and goes on into `b`. -/
theorem face_alone {g : Geometry ℝ E} {n1 n2 a b : ℝ} (ha : 0 < a) (hb : 0 < b) (hab : a ≠ b) (htog : toggleRefIdx n1 n2 a = b)
    {F : Tf ℝ} (hm : F.rot.c3.IsUnit) (hn : g.normal F = flatNormal F) (w : σ) {r : Ray ℝ E} {t : ℝ} (hfind : g.find F [r] = [(t : WithTop ℝ)])
    (hd : r.dir.IsUnit) (href : r.ref = some a) {e : V3 ℝ} (hs : Snell a b r.dir F.rot.c3 e) (hc : V3.dot r.dir F.rot.c3 ≠ 0) :
    (mkSurf g (refractiveHomogenous n1 n2) F).alone w r =
      [{ r with vertex := r.at t, dir := flipAlong F.rot.c3 r.dir, energy := r.energy * fresnelMean a b |V3.dot r.dir F.rot.c3| |V3.dot e F.rot.c3|, parent := 0 },
       { r with vertex := r.at t, dir := e, energy := r.energy * (1 - fresnelMean a b |V3.dot r.dir F.rot.c3| |V3.dot e F.rot.c3|), ref := some b, parent := 0 }] := by
  generalize hN : flatNormal F (r.at t) r.dir = N
  have hNc : N = F.rot.c3 ∨ N = -F.rot.c3 := hN ▸ flatNormal_cases F _ _
  generalize F.rot.c3 = m at *
  have hNu : N.IsUnit := by
    rcases hNc with rfl | rfl
    · exact hm
    · unfold V3.IsUnit V3.dot at *; simpa using hm
  have hsN : Snell a b r.dir N e := by
    rcases hNc with rfl | rfl
    · exact hs
    · exact hs.neg
  have habs : ∀ v : V3 ℝ, |V3.dot v N| = |V3.dot v m| := by
    intro v
    rcases hNc with rfl | rfl
    · rfl
    · have : V3.dot v (-m) = -V3.dot v m := by unfold V3.dot; simp only [V3.neg_x, V3.neg_y, V3.neg_z]; ring
      rw [this, abs_neg]
  have hcN : V3.dot r.dir N ≠ 0 := by
    rw [← abs_pos, habs, abs_pos]; exact hc
  obtain ⟨hr, hdir⟩ := hsN.refracted ha hb hd hNu hcN
  have hR := hsN.reflectance ha hb hd hNu
  rw [habs, habs] at hR
  have hdef := fresnelDefined_of ha hb hab hd hNu hr
  have hrec : hitRecs g F [r] [0] = .ok [⟨0, r, r.at t, N⟩] := by
    unfold hitRecs
    rw [hfind]
    change Except.ok [(⟨0, r, r.at t, g.normal F (r.at t) r.dir⟩ : HitRec ℝ E)] = _
    rw [hn, hN]
  have hin : idxIn (⟨0, r, r.at t, N⟩ : HitRec ℝ E) = a := by unfold idxIn; rw [href]; rfl
  have hout : idxOut n1 n2 (⟨0, r, r.at t, N⟩ : HitRec ℝ E) = b := by unfold idxOut; rw [hin, htog]
  have hrefr : hitRefr n1 n2 (⟨0, r, r.at t, N⟩ : HitRec ℝ E) = true := by
    unfold hitRefr; rw [hin, hout]; exact hr
  have hhR : hitR n1 n2 (⟨0, r, r.at t, N⟩ : HitRec ℝ E) = fresnelMean a b |V3.dot r.dir m| |V3.dot e m| := by
    unfold hitR; rw [hrefr, if_pos rfl, hin, hout]; exact hR
  have hcall : ∀ up, refractiveHomogenous n1 n2 w up [(⟨0, r, r.at t, N⟩ : HitRec ℝ E)] =
      .ok ([hitReflected n1 n2 ⟨0, r, r.at t, N⟩, hitRefracted n1 n2 ⟨0, r, r.at t, N⟩], w) := by
    intro up
    rw [refractive_eq n1 n2 w up _ (by simp) (by simp [href])]
    simp [hrefr, hin, hout, hdef]
  have hrun : (mkSurf g (refractiveHomogenous n1 n2) F).outgoing w [r] [0] =
      .ok ([hitReflected n1 n2 ⟨0, r, r.at t, N⟩, hitRefracted n1 n2 ⟨0, r, r.at t, N⟩], w) := by
    unfold mkSurf
    simp only [hrec]
    exact hcall _
  unfold Surf.alone
  rw [hrun]
  simp only [hitReflected, hitRefracted, reflectedRay, refractedRay, hhR, hin, hout, hdir, reflection_eq_flip hNc]

end Tracer
