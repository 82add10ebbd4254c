import Verif.Lemmas.LensBatch

/-! # Rays close to the axis of a lens -/

set_option linter.unusedSectionVars false

namespace Tracer

open Real Filter Topology

variable {E σ : Type _}

/-- A line close to the axis crosses a face once. -/
theorem cap_only {P d : ℝ → V3 ℝ} {pa p da δ : ℝ} (nP : Near P pa p) (nd : Near d da δ) (hδ : δ ^ 2 = 1)
    (hu : ∀ᶠ h in 𝓝[≠] 0, (d h).IsUnit) {diameter apex R : ℝ} (hd : 0 < diameter) (hR : R ≠ 0) (hdR : diameter ^ 2 / 4 ≤ R ^ 2) :
    ∃ t : ℝ → ℝ, Tendsto t (𝓝[≠] 0) (𝓝 (δ * (apex - p))) ∧
      ∀ᶠ h in 𝓝[≠] 0, lensFaceSet diameter apex R (P h + t h • d h) ∧ ∀ s : ℝ, lensFaceSet diameter apex R (P h + s • d h) → s = t h := by
  let w : ℝ → V3 ℝ := fun h => P h - ⟨0, 0, apex - R⟩
  have nw : Near w pa (p - (apex - R)) := nP.subAxis (apex - R)
  let b : ℝ → ℝ := fun h => V3.dot (w h) (d h)
  have tb : Tendsto b (𝓝[≠] 0) (𝓝 ((p - (apex - R)) * δ)) := nw.dot nd
  let disc : ℝ → ℝ := fun h => b h ^ 2 - (V3.dot (w h) (w h) - R ^ 2)
  have tdisc : Tendsto disc (𝓝[≠] 0) (𝓝 (R ^ 2)) := by
    have := (tb.pow 2).sub ((nw.dot nw).sub (tendsto_const_nhds (x := R ^ 2)))
    rwa [show ((p - (apex - R)) * δ) ^ 2 - ((p - (apex - R)) * (p - (apex - R)) - R ^ 2) = R ^ 2 by
      linear_combination (p - (apex - R)) ^ 2 * hδ] at this
  have tsq : Tendsto (fun h => √(disc h)) (𝓝[≠] 0) (𝓝 |R|) := by
    have := (Real.continuous_sqrt.tendsto _).comp tdisc
    rwa [Real.sqrt_sq_eq_abs] at this
  obtain ⟨ε, hε, hεR⟩ : ∃ ε : ℝ, ε ^ 2 = 1 ∧ ε * |R| = δ * R := by
    rcases abs_choice R with h | h
    · exact ⟨δ, hδ, by rw [h]⟩
    · exact ⟨-δ, by rw [neg_sq, hδ], by rw [h]; ring⟩
  let t : ℝ → ℝ := fun h => -b h + ε * √(disc h)
  let t' : ℝ → ℝ := fun h => -b h - ε * √(disc h)
  have tt : Tendsto t (𝓝[≠] 0) (𝓝 (δ * (apex - p))) := by
    have := tb.neg.add (tsq.const_mul ε)
    rwa [hεR, show -((p - (apex - R)) * δ) + δ * R = δ * (apex - p) by ring] at this
  have tt' : Tendsto t' (𝓝[≠] 0) (𝓝 (δ * (apex - p) - 2 * (δ * R))) := by
    have := tb.neg.sub (tsq.const_mul ε)
    rwa [hεR, show -((p - (apex - R)) * δ) - δ * R = δ * (apex - p) - 2 * (δ * R) by ring] at this
  have nQ := nP.add (nd.smul tt)
  have nQ' := nP.add (nd.smul tt')
  have ez : ∀ᶠ h in 𝓝[≠] 0, √(R ^ 2 - diameter ^ 2 / 4) / |R| < ((P h + t h • d h).z - (apex - R)) / R := by
    have := (nQ.z.sub (tendsto_const_nhds (x := apex - R))).div_const R
    rw [show (p + δ * (apex - p) * δ - (apex - R)) / R = 1 by
      field_simp
      linear_combination (apex - p) * hδ] at this
    exact this.eventually_const_lt (rim_lt hd hR)
  have ez' : ∀ᶠ h in 𝓝[≠] 0, ((P h + t' h • d h).z - (apex - R)) / R < 0 := by
    have := (nQ'.z.sub (tendsto_const_nhds (x := apex - R))).div_const R
    rw [show (p + (δ * (apex - p) - 2 * (δ * R)) * δ - (apex - R)) / R = -1 by
      field_simp
      linear_combination (apex - p - 2 * R) * hδ] at this
    exact this.eventually_lt_const (by norm_num)
  refine ⟨t, tt, ?_⟩
  filter_upwards [hu, ez, ez', tdisc.eventually_const_lt (show 0 < R ^ 2 by positivity)] with h hu hz hz' hdisc
  have hsq := Real.sq_sqrt hdisc.le
  have hroot : ∀ s : ℝ, (P h + s • d h).x ^ 2 + (P h + s • d h).y ^ 2 + ((P h + s • d h).z - (apex - R)) ^ 2 - R ^ 2 =
      (s + b h) ^ 2 - disc h := by
    intro s
    unfold V3.IsUnit V3.dot at hu
    simp only [disc, b, w, V3.dot, V3.add_x, V3.add_y, V3.add_z, V3.smul_x, V3.smul_y, V3.smul_z, V3.sub_x, V3.sub_y, V3.sub_z]
    linear_combination s ^ 2 * hu
  refine ⟨?_, fun s hS => ?_⟩
  · apply on_face hd hR hdR _ hz.le
    have := hroot (t h)
    have e : (t h + b h) ^ 2 - disc h = 0 := by
      simp only [t]
      linear_combination √(disc h) ^ 2 * hε + hsq
    rw [e] at this
    linarith
  · obtain ⟨hs1, hs2⟩ := face_side hd hR hdR hS
    have := hroot s
    rw [hs1, sub_self] at this
    have hfac : (s - t h) * (s - t' h) = 0 := by
      simp only [t, t']
      linear_combination -this - √(disc h) ^ 2 * hε - hsq
    rcases mul_eq_zero.1 hfac with h' | h'
    · linarith
    · exfalso
      have : s = t' h := by linarith
      rw [this] at hs2
      exact absurd hs2 (not_le.2 hz')

/-- A line close to the axis does not meet the side. -/
theorem wall_none {P d : ℝ → V3 ℝ} {pa p da δ : ℝ} (nP : Near P pa p) (nd : Near d da δ) (hδ : δ ^ 2 = 1) {diameter : ℝ} (hd : 0 < diameter)
    (mid height : ℝ) :
    ∀ᶠ h in 𝓝[≠] 0, ∀ t : ℝ, ¬ (0 < t ∧ |(P h).z + t * (d h).z - mid| ≤ height / 2 ∧
      (((d h).x ^ 2 + (d h).y ^ 2) * t ^ 2 + 2 * ((d h).x * (P h).x + (d h).y * (P h).y) * t + ((P h).x ^ 2 + (P h).y ^ 2 - (diameter / 2) ^ 2) = 0 ∨
        2 * ((d h).x * (P h).x + (d h).y * (P h).y) * t + ((P h).x ^ 2 + (P h).y ^ 2 - (diameter / 2) ^ 2) = 0)) := by
  let M : ℝ := 2 * (height / 2 + |mid| + (|p| + 1))
  have hx := nP.x0
  have hdx := nd.x0
  have lim : Tendsto (fun h => (d h).x ^ 2 * M ^ 2 + |2 * ((d h).x * (P h).x)| * M + ((P h).x ^ 2 - (diameter / 2) ^ 2)) (𝓝[≠] 0)
      (𝓝 (0 ^ 2 * M ^ 2 + |2 * (0 * 0)| * M + (0 ^ 2 - (diameter / 2) ^ 2))) :=
    (((hdx.pow 2).mul_const _).add (((hdx.mul hx).const_mul 2).abs.mul_const _)).add ((hx.pow 2).sub tendsto_const_nhds)
  have hneg := lim.eventually_lt_const (u := 0) (by
    have : 0 < (diameter / 2) ^ 2 := by positivity
    simp only [mul_zero, abs_zero, zero_mul, ne_eq, OfNat.ofNat_ne_zero, not_false_eq_true, zero_pow]
    linarith)
  have hz := nd.z.abs.eventually_const_lt (u := 1 / 2) (by
    have : |δ| = 1 := by
      have := sq_abs δ
      rw [hδ] at this
      nlinarith [abs_nonneg δ]
    rw [this]; norm_num)
  have hp := nP.z.abs.eventually_lt_const (u := |p| + 1) (by linarith)
  filter_upwards [hneg, hz, hp] with h h1 h2 h3 t
  rintro ⟨ht, hb, heq⟩
  rw [nP.y h, nd.y h] at heq
  have htM : t ≤ M := by
    have e : t * (d h).z = ((P h).z + t * (d h).z - mid) + mid - (P h).z := by ring
    have h4 : |t * (d h).z| ≤ height / 2 + |mid| + |(P h).z| := by
      rw [e]
      calc _ ≤ |((P h).z + t * (d h).z - mid) + mid| + |(P h).z| := abs_sub _ _
        _ ≤ |(P h).z + t * (d h).z - mid| + |mid| + |(P h).z| := by linarith [abs_add_le ((P h).z + t * (d h).z - mid) mid]
        _ ≤ _ := by linarith
    rw [abs_mul, abs_of_pos ht] at h4
    have h5 : t * (1 / 2) ≤ t * |(d h).z| := mul_le_mul_of_nonneg_left h2.le ht.le
    simp only [M]
    linarith
  have hA : (d h).x ^ 2 * t ^ 2 ≤ (d h).x ^ 2 * M ^ 2 := mul_le_mul_of_nonneg_left (pow_le_pow_left₀ ht.le htM 2) (sq_nonneg _)
  have hA0 : 0 ≤ (d h).x ^ 2 * M ^ 2 := by positivity
  have hB : 2 * ((d h).x * (P h).x) * t ≤ |2 * ((d h).x * (P h).x)| * M :=
    le_trans (mul_le_mul_of_nonneg_right (le_abs_self _) ht.le) (mul_le_mul_of_nonneg_left htM (abs_nonneg _))
  simp only [mul_zero, add_zero, ne_eq, OfNat.ofNat_ne_zero, not_false_eq_true, zero_pow] at heq
  rcases heq with heq | heq <;> linarith

theorem Near.reflect {v w : ℝ → V3 ℝ} {a c : ℝ} (hv : Near v a (-1)) (hw : Near w c 1) :
    Near (fun h => reflection (v h) (w h)) (a + 2 * c) 1 := by
  have hdot := hv.dot hw
  rw [mul_one] at hdot
  have key := hv.add (hw.smul (hdot.const_mul (-2)))
  refine ⟨fun h => ?_, ?_, ?_⟩
  · unfold reflection
    simp [hv.y h, hw.y h]
  · have := key.x
    rw [show a + -2 * -1 * c = a + 2 * c by ring] at this
    refine this.congr fun h => ?_
    unfold reflection
    simp only [V3.add_x, V3.smul_x, V3.sub_x]
    ring
  · have := key.z
    rw [show (-1 : ℝ) + -2 * -1 * 1 = 1 by ring] at this
    refine this.congr fun h => ?_
    unfold reflection
    simp only [V3.add_z, V3.smul_z, V3.sub_z]
    ring

theorem reflection_rot {M : M3 ℝ} (h : M.IsRotation) (d m : V3 ℝ) :
    reflection (M.mulVec d) (M.mulVec m) = M.mulVec (reflection d m) := by
  unfold reflection
  rw [M3.IsRotation.dot h]
  generalize V3.dot d m = c
  apply V3.ext <;> simp <;> ring

theorem reflection_isUnit {d m : V3 ℝ} (hd : d.IsUnit) (hm : m.IsUnit) : (reflection d m).IsUnit := by
  unfold V3.IsUnit at *
  have e : V3.dot (reflection d m) (reflection d m) = V3.dot d d + 4 * V3.dot d m ^ 2 * (V3.dot m m - 1) := by
    unfold reflection V3.dot
    simp only [V3.sub_x, V3.sub_y, V3.sub_z, V3.smul_x, V3.smul_y, V3.smul_z]
    ring
  rw [e, hd, hm]
  ring

/-- The reflectance close to the axis. -/
theorem fresnel_near {v w : ℝ → V3 ℝ} {a c : ℝ} (hv : Near v a (-1)) (hw : Near w c 1) {n1 n2 : ℝ} (h1 : 0 < n1) (h2 : 0 < n2) :
    Tendsto (fun h => fresnelOne (v h) (w h) n1 n2) (𝓝[≠] 0) (𝓝 (((n1 - n2) / (n1 + n2)) ^ 2)) := by
  have hdot := (hw.dot hv).abs
  rw [show |(1 : ℝ) * -1| = 1 by norm_num] at hdot
  have hθ : Tendsto (fun h => arccos |V3.dot (w h) (v h)|) (𝓝[≠] 0) (𝓝 0) := by
    have := (Real.continuous_arccos.tendsto 1).comp hdot
    rwa [Real.arccos_one] at this
  have hfoo : Tendsto (fun h => cos (arccos |V3.dot (w h) (v h)|)) (𝓝[≠] 0) (𝓝 1) := by
    have := (Real.continuous_cos.tendsto 0).comp hθ
    rwa [Real.cos_zero] at this
  have hsin : Tendsto (fun h => sin (arccos |V3.dot (w h) (v h)|)) (𝓝[≠] 0) (𝓝 0) := by
    have := (Real.continuous_sin.tendsto 0).comp hθ
    rwa [Real.sin_zero] at this
  have hbar : Tendsto (fun h => √(1 - (n1 / n2 * sin (arccos |V3.dot (w h) (v h)|)) ^ 2)) (𝓝[≠] 0) (𝓝 1) := by
    have := (Real.continuous_sqrt.tendsto _).comp ((tendsto_const_nhds (x := (1 : ℝ))).sub ((hsin.const_mul (n1 / n2)).pow 2))
    rwa [show √(1 - (n1 / n2 * 0) ^ 2) = (1 : ℝ) by norm_num] at this
  have hs : n1 * 1 + n2 * 1 ≠ 0 := by positivity
  have key := (((((hfoo.const_mul n1).sub (hbar.const_mul n2)).div ((hfoo.const_mul n1).add (hbar.const_mul n2)) hs).pow 2).add
    ((((hbar.const_mul n1).sub (hfoo.const_mul n2)).div ((hbar.const_mul n1).add (hfoo.const_mul n2)) hs).pow 2)).div_const 2
  rw [show (((n1 * 1 - n2 * 1) / (n1 * 1 + n2 * 1)) ^ 2 + ((n1 * 1 - n2 * 1) / (n1 * 1 + n2 * 1)) ^ 2) / 2 = ((n1 - n2) / (n1 + n2)) ^ 2 by
    rw [mul_one, mul_one]; ring] at key
  exact key

theorem fresnelOne_rot {M : M3 ℝ} (h : M.IsRotation) (d m : V3 ℝ) (n1 n2 : ℝ) :
    fresnelOne (M.mulVec d) (M.mulVec m) n1 n2 = fresnelOne d m n1 n2 := by
  unfold fresnelOne
  rw [M3.IsRotation.dot h]

/-- What a face makes of a ray of a bundle that meets it. -/
theorem face_out {T : Tf ℝ} (hT : T.Rigid) {diameter n apex R n1 n2 : ℝ} (hd : 0 ≤ diameter) (hR : R ≠ 0)
    (hdR : diameter ^ 2 / 4 ≤ R ^ 2) {s : SceneSurf σ ℝ E} (hs : s.IsLensFace T diameter n apex R) {rays : Bundle ℝ E} {i : Nat} {r : Ray ℝ E}
    (hr : rays[i]? = some r) {v d q m : V3 ℝ} {t : ℝ} (hv : r.vertex = T.point v) (hrd : r.dir = T.dir d) (hu : d.IsUnit)
    (href : r.ref = some n1) (htog : toggleRefIdx 1 n n1 = n2) (h1 : 0 < n1) (h2 : 0 < n2) (hq : q = v + t • d)
    (hqS : lensFaceSet diameter apex R q) (hreg : (s.surf.register rays)[i]? = some (t : WithTop ℝ))
    (hm : m = (1 / R) • (q - ⟨0, 0, apex - R⟩)) (hneg : V3.dot m d < 0) (hrefr : refractedOne n1 n2 d m = true) (w : σ) :
    s.surf.outgoing w rays [i] = .ok
      ([⟨T.point q, T.dir (reflection d m), r.energy * fresnelOne d m n1 n2, i, r.ref, r.extra⟩,
        ⟨T.point q, T.dir (refractOne n1 n2 d m), r.energy * (1 - fresnelOne d m n1 n2), i, some n2, r.extra⟩], w) := by
  have hrot : T.rot.IsRotation := hT
  have hur : r.dir.IsUnit := by rw [hrd]; exact M3.IsRotation.unit hT hu
  have hqp : r.vertex + t • r.dir = T.point q := by rw [hv, hrd, ← Tf.point_add_smul, hq]
  have hqpl : Placed T (lensFaceSet diameter apex R) (T.point q) := ⟨q, hqS, rfl⟩
  obtain ⟨c, hc, hn, hface⟩ := hs.normal (T.point q) r.dir hqpl
  have hnm : T.point q - T.point ⟨0, 0, apex - R⟩ = T.dir (q - ⟨0, 0, apex - R⟩) := Tf.Rigid.point_sub _ _ _
  have hnormal : s.data.1.normal s.temp (T.point q) r.dir = T.dir m := by
    rcases hc with rfl | rfl
    · rw [hn, hnm, hm]
      exact (M3.mulVec_smul _ _ _).symm
    · exfalso
      rw [hn, hnm, hrd] at hface
      have e : (-(1 / R)) • T.dir (q - ⟨0, 0, apex - R⟩) = T.dir (-m) := by
        rw [hm]
        unfold Tf.dir
        rw [M3.mulVec_neg, M3.mulVec_smul]
        apply V3.ext <;> simp
      rw [e] at hface
      unfold Tf.dir at hface
      rw [M3.IsRotation.dot hrot] at hface
      have : V3.dot d (-m) = -V3.dot m d := by unfold V3.dot; simp; ring
      rw [this] at hface
      linarith
  have hreg' : (s.data.1.find s.temp rays)[i]? = some (some t) := hreg
  have hrec : hitRecs s.data.1 s.temp rays [i] = .ok [⟨i, r, T.point q, T.dir m⟩] := by
    have : r.at t = T.point q := hqp
    simp only [hitRecs, hr, hreg', this, hnormal]
  have hmu : m.IsUnit := by
    have hsph := ((face_shape hd hR hdR (apex - R) ⟨q.x, q.y, q.z - (apex - R)⟩).2 (by
      rw [show apex - R + R = apex by ring]
      simpa using hqS)).1
    unfold sphereSet at hsph
    simp only [sq_abs] at hsph
    rw [hm]
    unfold V3.IsUnit V3.dot
    simp only [V3.smul_x, V3.smul_y, V3.smul_z, V3.sub_x, V3.sub_y, V3.sub_z]
    field_simp
    linarith
  have hrefr' : refractedOne n1 n2 r.dir (T.dir m) = true := by
    rw [hrd]
    exact (refractedOne_rot hrot _ _ _ _).trans hrefr
  have hfd : fresnelDefined r.dir (T.dir m) n1 n2 = true := by
    apply (C47_defined_iff h1 h2 hur (M3.IsRotation.unit hT hmu) hrefr').2
    rintro ⟨h0, _⟩
    rw [hrd] at h0
    unfold Tf.dir at h0
    rw [M3.IsRotation.dot hrot, V3.dot_comm'] at h0
    linarith
  have key := refractive_single (σ := σ) w s.temp.rot.c3 (hit := ⟨i, r, T.point q, T.dir m⟩) href htog hrefr' hfd
  unfold SurfNode.surf mkSurf
  simp only [hrec, hs.optics]
  rw [key]
  have e1 : fresnelOne r.dir (T.dir m) n1 n2 = fresnelOne d m n1 n2 := by rw [hrd]; exact fresnelOne_rot hrot _ _ _ _
  have e2 : reflection r.dir (T.dir m) = T.dir (reflection d m) := by rw [hrd]; exact reflection_rot hrot _ _
  have e3 : refractOne n1 n2 r.dir (T.dir m) = T.dir (refractOne n1 n2 d m) := by rw [hrd]; exact refractOne_rot hrot _ _ _ _
  unfold reflectedRay refractedRay
  simp only [e1, e2, e3]

end Tracer
