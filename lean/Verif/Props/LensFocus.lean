import Verif.Props.Lens
import Verif.Props.Fresnel

/-! # Spherical lenses: the focus (C62) -/

set_option linter.unusedSectionVars false

namespace Tracer

open Real Filter Topology

variable {E σ : Type _}

/-! ## Refraction of one ray at a face -/

theorem refractOne_rot {M : M3 ℝ} (h : M.IsRotation) (n1 n2 : ℝ) (d m : V3 ℝ) :
    refractOne n1 n2 (M.mulVec d) (M.mulVec m) = M.mulVec (refractOne n1 n2 d m) := by
  unfold refractOne
  rw [M3.IsRotation.dot h]
  simp only
  generalize √(1 - 1 / (n2 / n1) ^ 2 * (1 - V3.dot m d ^ 2)) = k
  generalize (if V3.dot m d < 0 then (-1 : ℝ) else 1) = s
  generalize V3.dot m d = c
  apply V3.ext <;> simp <;> ring

theorem refractedOne_rot {M : M3 ℝ} (h : M.IsRotation) (n1 n2 : ℝ) (d m : V3 ℝ) :
    refractedOne n1 n2 (M.mulVec d) (M.mulVec m) = refractedOne n1 n2 d m := by
  unfold refractedOne
  rw [M3.IsRotation.dot h]

theorem refractive_single {a b n1 n2 : ℝ} (w : σ) (up : V3 ℝ) {hit : HitRec ℝ E} (href : hit.ray.ref = some n1)
    (ht : toggleRefIdx a b n1 = n2) (hrefr : refractedOne n1 n2 hit.ray.dir hit.normal = true)
    (hdef : fresnelDefined hit.ray.dir hit.normal n1 n2 = true) :
    refractiveHomogenous a b w up [hit] = .ok
      ([reflectedRay hit (fresnelOne hit.ray.dir hit.normal n1 n2),
        refractedRay hit (fresnelOne hit.ray.dir hit.normal n1 n2) n2 (refractOne n1 n2 hit.ray.dir hit.normal)], w) := by
  have h1 : refIndices [hit] = .ok [n1] := by simp [refIndices, href]
  unfold refractiveHomogenous
  simp only [h1, List.isEmpty_cons, Bool.false_eq_true, if_false, List.map_cons, List.map_nil, ht, List.zip_cons_cons,
    List.zip_nil_right, List.zipWith_cons_cons, List.zipWith_nil_right, refractions, hrefr, List.any_cons, List.any_nil,
    id_eq, Bool.or_false, Bool.not_true, Np.mask_true, hdef]
  rfl

theorem face_step {T : Tf ℝ} (hT : T.Rigid) {diameter n apex R n1 n2 : ℝ} (hd : 0 ≤ diameter) (hR : R ≠ 0)
    (hdR : diameter ^ 2 / 4 ≤ R ^ 2) {s : SceneSurf σ ℝ E}
    (hs : s.IsLensFace T diameter n apex R) {r : Ray ℝ E} {v d q m : V3 ℝ} {t : ℝ} (hv : r.vertex = T.point v)
    (hrd : r.dir = T.dir d) (hu : d.IsUnit) (href : r.ref = some n1) (htog : toggleRefIdx 1 n n1 = n2) (h1 : 0 < n1) (h2 : 0 < n2)
    (hq : q = v + t • d) (ht : 0 < t) (hqS : lensFaceSet diameter apex R q)
    (hfirst : ∀ s : ℝ, 0 < s → lensFaceSet diameter apex R (v + s • d) → s = t)
    (hm : m = (1 / R) • (q - ⟨0, 0, apex - R⟩)) (hneg : V3.dot m d < 0) (hrefr : refractedOne n1 n2 d m = true) :
    ∃ out, s.Refracts r out n2 ∧ out.vertex = T.point q ∧ out.dir = T.dir (refractOne n1 n2 d m) := by
  have hdet := M3.IsRotation.det_ne hT
  have hrot : T.rot.IsRotation := hT
  have hur : r.dir.IsUnit := by rw [hrd]; exact M3.IsRotation.unit hT hu
  obtain ⟨p, hp, hfa⟩ := hs.lies r hur
  have hat : ∀ s : ℝ, Placed T (lensFaceSet diameter apex R) (r.vertex + s • r.dir) ↔ lensFaceSet diameter apex R (v + s • d) := by
    intro s
    rw [hv, hrd, ← Tf.point_add_smul, placed_iff hdet, Tf.inv_point_point hdet]
  have hpt : p = (t : WithTop ℝ) := by
    cases p with
    | top => exact absurd ((hat t).2 (hq ▸ hqS)) (hfa t ht)
    | coe u => rw [hfirst u hfa.1 ((hat u).1 hfa.2.1)]
  subst hpt
  have hqp : r.vertex + t • r.dir = T.point q := by rw [hv, hrd, ← Tf.point_add_smul, hq]
  have hqpl : Placed T (lensFaceSet diameter apex R) (T.point q) := ⟨q, hqS, rfl⟩
  obtain ⟨c, hc, hn, hface⟩ := hs.normal (T.point q) r.dir hqpl
  have hnm : T.point q - T.point ⟨0, 0, apex - R⟩ = T.dir (q - ⟨0, 0, apex - R⟩) := Tf.Rigid.point_sub _ _ _
  have hnormal : s.data.1.normal s.temp (T.point q) r.dir = T.dir m := by
    rcases hc with rfl | rfl
    · rw [hn, hnm, hm]
      exact (M3.mulVec_smul _ _ _).symm
    · exfalso
      rw [hn, hnm, hrd] at hface
      have e : (-(1 / R)) • T.dir (q - ⟨0, 0, apex - R⟩) = T.dir (-m) := by
        rw [hm]
        unfold Tf.dir
        rw [M3.mulVec_neg, M3.mulVec_smul]
        apply V3.ext <;> simp
      rw [e] at hface
      unfold Tf.dir at hface
      rw [M3.IsRotation.dot hrot] at hface
      have : V3.dot d (-m) = -V3.dot m d := by unfold V3.dot; simp; ring
      rw [this] at hface
      linarith
  have hreg : s.data.1.find s.temp [r] = [(t : WithTop ℝ)] := hp
  have hrec : hitRecs s.data.1 s.temp [r] [0] = .ok [⟨0, r, T.point q, T.dir m⟩] := by
    unfold hitRecs
    rw [hreg]
    simp only [List.getElem?_cons_zero]
    have : r.at t = T.point q := hqp
    have hsome : ((t : WithTop ℝ) : Option ℝ) = some t := rfl
    simp only [hitRecs, this, hnormal]
  have hmu : m.IsUnit := by
    have hsph := ((face_shape hd hR hdR (apex - R) ⟨q.x, q.y, q.z - (apex - R)⟩).2 (by
      rw [show apex - R + R = apex by ring]
      simpa using hqS)).1
    unfold sphereSet at hsph
    simp only [sq_abs] at hsph
    rw [hm]
    unfold V3.IsUnit V3.dot
    simp only [V3.smul_x, V3.smul_y, V3.smul_z, V3.sub_x, V3.sub_y, V3.sub_z]
    field_simp
    linarith
  have hfd : fresnelDefined r.dir (T.dir m) n1 n2 = true := by
    apply (C47_defined_iff h1 h2 hur (M3.IsRotation.unit hT hmu) (hrd ▸ (refractedOne_rot hrot _ _ _ _).trans hrefr)).2
    rintro ⟨h0, _⟩
    rw [hrd] at h0
    unfold Tf.dir at h0
    rw [M3.IsRotation.dot hrot, V3.dot_comm'] at h0
    linarith
  have hrefr' : refractedOne n1 n2 r.dir (T.dir m) = true := by
    rw [hrd]
    exact (refractedOne_rot hrot _ _ _ _).trans hrefr
  refine ⟨refractedRay ⟨0, r, T.point q, T.dir m⟩ (fresnelOne r.dir (T.dir m) n1 n2) n2 (refractOne n1 n2 r.dir (T.dir m)),
    ⟨rfl, fun w => ⟨reflectedRay ⟨0, r, T.point q, T.dir m⟩ (fresnelOne r.dir (T.dir m) n1 n2), ?_⟩⟩, rfl, ?_⟩
  · unfold SurfNode.surf mkSurf
    simp only [hrec, hs.optics]
    exact refractive_single w _ (hit := ⟨0, r, T.point q, T.dir m⟩) href htog hrefr' hfd
  · show refractOne n1 n2 r.dir (T.dir m) = _
    rw [hrd]
    exact refractOne_rot hrot _ _ _ _

/-! ## Rays close to the axis -/

/-- Near the axis: a vector in the XZ plane that depends on the distance `h` from the axis, with `x/h → a` and
`z → b`. -/
structure Near (v : ℝ → V3 ℝ) (a b : ℝ) : Prop where
  y : ∀ h, (v h).y = 0
  x : Tendsto (fun h => (v h).x / h) (𝓝[≠] 0) (𝓝 a)
  z : Tendsto (fun h => (v h).z) (𝓝[≠] 0) (𝓝 b)

theorem tendsto_h : Tendsto (fun h : ℝ => h) (𝓝[≠] 0) (𝓝 0) := tendsto_nhdsWithin_of_tendsto_nhds tendsto_id

namespace Near

variable {v w : ℝ → V3 ℝ} {a b c d : ℝ}

theorem x0 (hv : Near v a b) : Tendsto (fun h => (v h).x) (𝓝[≠] 0) (𝓝 0) := by
  have h1 := hv.x.mul tendsto_h
  rw [mul_zero] at h1
  apply h1.congr'
  filter_upwards [self_mem_nhdsWithin] with h hh
  exact div_mul_cancel₀ _ hh

theorem dot (hv : Near v a b) (hw : Near w c d) : Tendsto (fun h => V3.dot (v h) (w h)) (𝓝[≠] 0) (𝓝 (b * d)) := by
  have := (hv.x0.mul hw.x0).add (hv.z.mul hw.z)
  simp only [mul_zero, zero_add] at this
  apply this.congr
  intro h
  unfold V3.dot
  rw [hv.y h]
  ring

theorem smul (hv : Near v a b) {f : ℝ → ℝ} {k : ℝ} (hf : Tendsto f (𝓝[≠] 0) (𝓝 k)) : Near (fun h => f h • v h) (k * a) (k * b) := by
  refine ⟨fun h => by simp [hv.y h], ?_, ?_⟩
  · apply (hf.mul hv.x).congr
    intro h
    simp only [V3.smul_x]
    ring
  · exact hf.mul hv.z

theorem add (hv : Near v a b) (hw : Near w c d) : Near (fun h => v h + w h) (a + c) (b + d) := by
  refine ⟨fun h => by simp [hv.y h, hw.y h], ?_, ?_⟩
  · apply (hv.x.add hw.x).congr
    intro h
    simp only [V3.add_x]
    ring
  · exact hv.z.add hw.z

theorem axis (z : ℝ) : Near (fun _ => ⟨0, 0, z⟩) 0 z :=
  ⟨fun _ => rfl, by simp, tendsto_const_nhds⟩

theorem subAxis (hv : Near v a b) (z : ℝ) : Near (fun h => v h - ⟨0, 0, z⟩) a (b - z) := by
  refine ⟨fun h => by simp [hv.y h], ?_, ?_⟩
  · simpa using hv.x
  · exact hv.z.sub tendsto_const_nhds

theorem congr (hv : Near v a b) (ha : a = c) (hb : b = d) : Near v c d := by subst ha hb; exact hv

/-- Paraxial refraction. -/
theorem refract (hv : Near v a (-1)) (hw : Near w c 1) {n1 n2 : ℝ} :
    Near (fun h => refractOne n1 n2 (v h) (w h)) ((a + c) / (n2 / n1) - c) (-1) ∧
    (∀ᶠ h in 𝓝[≠] 0, V3.dot (w h) (v h) < 0) ∧
    (0 < n1 → 0 < n2 → ∀ᶠ h in 𝓝[≠] 0, refractedOne n1 n2 (v h) (w h) = true) := by
  have hdot := hw.dot hv
  rw [one_mul] at hdot
  have hneg : ∀ᶠ h in 𝓝[≠] 0, V3.dot (w h) (v h) < 0 := hdot.eventually_lt_const (by norm_num)
  have hcos2 : Tendsto (fun h => √(1 - 1 / (n2 / n1) ^ 2 * (1 - V3.dot (w h) (v h) ^ 2))) (𝓝[≠] 0) (𝓝 1) := by
    have h1 : Tendsto (fun h => 1 - 1 / (n2 / n1) ^ 2 * (1 - V3.dot (w h) (v h) ^ 2)) (𝓝[≠] 0)
        (𝓝 (1 - 1 / (n2 / n1) ^ 2 * (1 - (-1) ^ 2))) :=
      tendsto_const_nhds.sub (tendsto_const_nhds.mul (tendsto_const_nhds.sub (hdot.pow 2)))
    have h2 := (Real.continuous_sqrt.tendsto _).comp h1
    have e : √(1 - 1 / (n2 / n1) ^ 2 * (1 - (-1) ^ 2)) = 1 := by norm_num
    rw [e] at h2
    exact h2
  refine ⟨⟨fun h => ?_, ?_, ?_⟩, hneg, fun h1 h2 => ?_⟩
  · unfold refractOne
    simp [hv.y h, hw.y h]
  · have key := ((hv.x.sub (hdot.mul hw.x)).div_const (n2 / n1)).sub (hw.x.mul hcos2)
    have e : (a - -1 * c) / (n2 / n1) - c * 1 = (a + c) / (n2 / n1) - c := by ring
    rw [e] at key
    apply key.congr'
    filter_upwards [hneg] with h hh
    unfold refractOne
    simp only [if_pos hh]
    ring
  · have key := ((hv.z.sub (hdot.mul hw.z)).div_const (n2 / n1)).sub (hw.z.mul hcos2)
    have e : ((-1 : ℝ) - -1 * 1) / (n2 / n1) - 1 * 1 = -1 := by ring
    rw [e] at key
    apply key.congr'
    filter_upwards [hneg] with h hh
    unfold refractOne
    simp only [if_pos hh]
    ring
  · have h3 := hdot.pow 2
    have hpos : 0 < (n2 / n1) ^ 2 := pow_pos (div_pos h2 h1) 2
    have := h3.eventually_const_lt (u := 1 - (n2 / n1) ^ 2) (by linarith)
    filter_upwards [this] with h hh
    unfold refractedOne
    rw [decide_eq_true_iff]
    exact hh.le

end Near

/-! ## C62 -/

theorem on_face {diameter R : ℝ} (hd : 0 < diameter) (hR : R ≠ 0) (hdR : diameter ^ 2 / 4 ≤ R ^ 2) {apex : ℝ} {q : V3 ℝ}
    (hs : q.x ^ 2 + q.y ^ 2 + (q.z - (apex - R)) ^ 2 = R ^ 2) (hz : √(R ^ 2 - diameter ^ 2 / 4) / |R| ≤ (q.z - (apex - R)) / R) :
    lensFaceSet diameter apex R q := by
  have := (face_shape hd.le hR hdR (apex - R) ⟨q.x, q.y, q.z - (apex - R)⟩).1 ⟨by
    unfold sphereSet
    rw [sq_abs]
    exact hs, ?_, ?_⟩
  · rw [show apex - R + R = apex by ring] at this
    simpa using this
  · intro h
    rw [abs_of_pos h, div_le_div_iff_of_pos_right h] at hz
    exact hz
  · intro h
    have hneg : R < 0 := lt_of_le_of_ne (not_lt.1 h) hR
    rw [abs_of_neg hneg, div_neg, ← neg_div, div_le_div_right_of_neg hneg] at hz
    exact hz

theorem face_side {diameter R : ℝ} (hd : 0 < diameter) (hR : R ≠ 0) (hdR : diameter ^ 2 / 4 ≤ R ^ 2) {apex : ℝ} {q : V3 ℝ}
    (h : lensFaceSet diameter apex R q) :
    q.x ^ 2 + q.y ^ 2 + (q.z - (apex - R)) ^ 2 = R ^ 2 ∧ 0 ≤ (q.z - (apex - R)) / R := by
  have := (face_shape hd.le hR hdR (apex - R) ⟨q.x, q.y, q.z - (apex - R)⟩).2 (by
    rw [show apex - R + R = apex by ring]
    simpa using h)
  obtain ⟨h1, h2, h3⟩ := this
  unfold sphereSet at h1
  rw [sq_abs] at h1
  refine ⟨h1, ?_⟩
  have hs := Real.sqrt_nonneg (R ^ 2 - diameter ^ 2 / 4)
  by_cases hp : 0 < R
  · exact div_nonneg (le_trans hs (h2 hp)) hp.le
  · have := h3 hp
    exact div_nonneg_of_nonpos (by simp only at this; linarith) (not_lt.1 hp)

theorem rim_lt {diameter R : ℝ} (hd : 0 < diameter) (hR : R ≠ 0) : √(R ^ 2 - diameter ^ 2 / 4) / |R| < 1 := by
  rw [div_lt_one (abs_pos.2 hR), ← Real.sqrt_sq_eq_abs]
  apply (Real.sqrt_lt_sqrt_iff_of_pos (by positivity)).2
  have : 0 < diameter ^ 2 := by positivity
  linarith

/-- Where light is focused: paraxial light coming down the axis through two spherical faces, whose apexes are
`depth` apart, is brought to the height `a + A/B` of the classical ray transfer calculation. -/
theorem focus_general {T : Tf ℝ} (hT : T.Rigid) {diameter n a depth R1 R2 : ℝ} (hd : 0 < diameter) (hR1 : R1 ≠ 0) (hR2 : R2 ≠ 0)
    (h1 : diameter ^ 2 / 4 ≤ R1 ^ 2) (h2 : diameter ^ 2 / 4 ≤ R2 ^ 2) (hn : 0 < n) (hn1 : n ≠ 1) (hdep : 0 < depth)
    {front back : SceneSurf σ ℝ E} (hf : front.IsLensFace T diameter n (a + depth) R1) (hb : back.IsLensFace T diameter n a R2)
    {A B : ℝ} (hA : A = 1 + depth * ((1 - n) / (n * R1))) (hB : B = (1 - n) / R1 + (n - 1) * A / R2) (hB0 : B ≠ 0)
    {start : ℝ} (hstart : a + depth < start) :
    Focuses front back T n start (a + A / B) := by
  intro energy extra
  -- the first face
  let P1 : ℝ → V3 ℝ := fun h => ⟨h, 0, faceHeight (a + depth) R1 (h ^ 2)⟩
  have nP1 : Near P1 1 (a + depth) := by
    refine ⟨fun _ => rfl, ?_, ?_⟩
    · apply (tendsto_const_nhds (x := (1 : ℝ))).congr'
      filter_upwards [self_mem_nhdsWithin] with h hh
      exact (div_self hh).symm
    · have c : Continuous fun h : ℝ => faceHeight (a + depth) R1 (h ^ 2) :=
        (faceHeight_continuous (a + depth) R1).comp (continuous_pow 2)
      have := (c.tendsto 0).mono_left (nhdsWithin_le_nhds (s := {0}ᶜ))
      simpa [faceHeight_zero] using this
  let m1 : ℝ → V3 ℝ := fun h => (1 / R1) • (P1 h - ⟨0, 0, a + depth - R1⟩)
  have nm1 : Near m1 (1 / R1) 1 :=
    ((nP1.subAxis (a + depth - R1)).smul (tendsto_const_nhds (x := 1 / R1))).congr (by ring) (by field_simp; ring)
  obtain ⟨nd1, neg1, refr1⟩ := (Near.axis (-1)).refract nm1 (n1 := 1) (n2 := n)
  have refr1 := refr1 one_pos hn
  let d1 : ℝ → V3 ℝ := fun h => refractOne 1 n ⟨0, 0, -1⟩ (m1 h)
  have nd1 : Near d1 ((1 - n) / (n * R1)) (-1) := nd1.congr (by field_simp; ring) rfl
  -- where the refracted ray meets the second face
  let w : ℝ → V3 ℝ := fun h => P1 h - ⟨0, 0, a - R2⟩
  have nw : Near w 1 (depth + R2) := (nP1.subAxis (a - R2)).congr rfl (by ring)
  let b : ℝ → ℝ := fun h => V3.dot (w h) (d1 h)
  have tb : Tendsto b (𝓝[≠] 0) (𝓝 (-(depth + R2))) := by
    have := nw.dot nd1
    rwa [mul_neg_one] at this
  let disc : ℝ → ℝ := fun h => b h ^ 2 - (V3.dot (w h) (w h) - R2 ^ 2)
  have tdisc : Tendsto disc (𝓝[≠] 0) (𝓝 (R2 ^ 2)) := by
    have := (tb.pow 2).sub ((nw.dot nw).sub (tendsto_const_nhds (x := R2 ^ 2)))
    rwa [show (-(depth + R2)) ^ 2 - ((depth + R2) * (depth + R2) - R2 ^ 2) = R2 ^ 2 by ring] at this
  have tsq : Tendsto (fun h => √(disc h)) (𝓝[≠] 0) (𝓝 |R2|) := by
    have := (Real.continuous_sqrt.tendsto _).comp tdisc
    rwa [Real.sqrt_sq_eq_abs] at this
  obtain ⟨ε, hε, hεR⟩ : ∃ ε : ℝ, ε ^ 2 = 1 ∧ ε * |R2| = R2 := by
    rcases abs_choice R2 with h | h
    · exact ⟨1, by norm_num, by rw [h]; ring⟩
    · exact ⟨-1, by norm_num, by rw [h]; ring⟩
  let t : ℝ → ℝ := fun h => -b h - ε * √(disc h)
  let t' : ℝ → ℝ := fun h => -b h + ε * √(disc h)
  have tt : Tendsto t (𝓝[≠] 0) (𝓝 depth) := by
    have := tb.neg.sub (tsq.const_mul ε)
    rwa [hεR, show - -(depth + R2) - R2 = depth by ring] at this
  have tt' : Tendsto t' (𝓝[≠] 0) (𝓝 (depth + 2 * R2)) := by
    have := tb.neg.add (tsq.const_mul ε)
    rwa [hεR, show - -(depth + R2) + R2 = depth + 2 * R2 by ring] at this
  let P2 : ℝ → V3 ℝ := fun h => P1 h + t h • d1 h
  have nP2 : Near P2 A a := (nP1.add (nd1.smul tt)).congr hA.symm (by ring)
  let Q2 : ℝ → V3 ℝ := fun h => P1 h + t' h • d1 h
  have nQ2 : Near Q2 (1 + (depth + 2 * R2) * ((1 - n) / (n * R1))) (a - 2 * R2) :=
    (nP1.add (nd1.smul tt')).congr rfl (by ring)
  let m2 : ℝ → V3 ℝ := fun h => (1 / R2) • (P2 h - ⟨0, 0, a - R2⟩)
  have nm2 : Near m2 (A / R2) 1 :=
    ((nP2.subAxis (a - R2)).smul (tendsto_const_nhds (x := 1 / R2))).congr (by ring) (by field_simp; ring)
  obtain ⟨nd2, neg2, refr2⟩ := nd1.refract nm2 (n1 := n) (n2 := 1)
  have refr2 := refr2 hn one_pos
  let d2 : ℝ → V3 ℝ := fun h => refractOne n 1 (d1 h) (m2 h)
  have nd2 : Near d2 B (-1) := nd2.congr (by rw [hB]; field_simp; ring) rfl
  -- the crossing
  let z : ℝ → ℝ := fun h => (P2 h).z - ((P2 h).x / h) / ((d2 h).x / h) * (d2 h).z
  have tz : Tendsto z (𝓝[≠] 0) (𝓝 (a + A / B)) := by
    have := nP2.z.sub ((nP2.x.div nd2.x hB0).mul nd2.z)
    rwa [show a - A / B * -1 = a + A / B by ring] at this
  refine ⟨z, tz, ?_⟩
  have ez2 : ∀ᶠ h in 𝓝[≠] 0, √(R2 ^ 2 - diameter ^ 2 / 4) / |R2| < ((P2 h).z - (a - R2)) / R2 := by
    have := (nP2.z.sub (tendsto_const_nhds (x := a - R2))).div_const R2
    rw [show (a - (a - R2)) / R2 = 1 by field_simp; ring] at this
    exact this.eventually_const_lt (rim_lt hd hR2)
  have eq2 : ∀ᶠ h in 𝓝[≠] 0, ((Q2 h).z - (a - R2)) / R2 < 0 := by
    have := (nQ2.z.sub (tendsto_const_nhds (x := a - R2))).div_const R2
    rw [show (a - 2 * R2 - (a - R2)) / R2 = -1 by field_simp; ring] at this
    exact this.eventually_lt_const (by norm_num)
  have eh : ∀ᶠ h in 𝓝[≠] (0 : ℝ), h ^ 2 < (diameter / 2) ^ 2 := by
    have := tendsto_h.pow 2
    rw [zero_pow two_ne_zero] at this
    exact this.eventually_lt_const (by positivity)
  filter_upwards [self_mem_nhdsWithin, neg1, refr1, neg2, refr2, ez2, eq2, eh, tt.eventually_const_lt hdep,
    tdisc.eventually_const_lt (show 0 < R2 ^ 2 by positivity), nd2.x.eventually_ne hB0,
    nP1.z.eventually_lt_const hstart] with h hh hneg1 hrefr1 hneg2 hrefr2 hz2 hq2 hhd ht hdisc hx hlow
  have hu0 : (⟨0, 0, -1⟩ : V3 ℝ).IsUnit := by unfold V3.IsUnit V3.dot; norm_num
  have hP1S : lensFaceSet diameter (a + depth) R1 (P1 h) := by
    unfold lensFaceSet
    simp only [P1]
    rw [show h ^ 2 + (0 : ℝ) ^ 2 = h ^ 2 by ring]
    exact ⟨hhd.le, rfl⟩
  have hP1m : P1 h = ⟨h, 0, start⟩ + (start - (P1 h).z) • (⟨0, 0, -1⟩ : V3 ℝ) := by
    apply V3.ext <;> simp [P1]
  obtain ⟨inside, hins, hiv, hid⟩ := face_step (n1 := 1) (n2 := n) hT hd.le hR1 h1 hf
    (r := downRay T h start energy extra) (v := ⟨h, 0, start⟩) (d := ⟨0, 0, -1⟩)
    (q := P1 h) (m := m1 h) (t := start - (P1 h).z) rfl rfl hu0 rfl (if_pos rfl) one_pos hn hP1m (by linarith) hP1S
    (fun s _ hS => by
      have e : (⟨h, 0, start⟩ : V3 ℝ) + s • (⟨0, 0, -1⟩ : V3 ℝ) = ⟨h, 0, start - s⟩ := by
        apply V3.ext <;> simp
        ring
      rw [e] at hS
      have := hS.2
      simp only [show h ^ 2 + (0 : ℝ) ^ 2 = h ^ 2 by ring] at this
      simp only [P1]
      linarith)
    rfl hneg1 hrefr1
  have hm1u : (m1 h).IsUnit := by
    have := (face_side hd hR1 h1 hP1S).1
    simp only [m1]
    unfold V3.IsUnit V3.dot
    simp only [V3.smul_x, V3.smul_y, V3.smul_z, V3.sub_x, V3.sub_y, V3.sub_z]
    field_simp
    linarith
  have hd1u : (d1 h).IsUnit := (C45_snell one_pos hn hu0 hm1u hrefr1).unit
  have hsq := Real.sq_sqrt hdisc.le
  have hroot : ∀ s : ℝ, (P1 h + s • d1 h).x ^ 2 + (P1 h + s • d1 h).y ^ 2 + ((P1 h + s • d1 h).z - (a - R2)) ^ 2 - R2 ^ 2 =
      (s + b h) ^ 2 - disc h := by
    intro s
    have hu := hd1u
    unfold V3.IsUnit V3.dot at hu
    simp only [disc, b, w, V3.dot, V3.add_x, V3.add_y, V3.add_z, V3.smul_x, V3.smul_y, V3.smul_z, V3.sub_x, V3.sub_y, V3.sub_z]
    linear_combination s ^ 2 * hu
  have hP2S : lensFaceSet diameter a R2 (P2 h) := by
    apply on_face hd hR2 h2 _ hz2.le
    have := hroot (t h)
    have e : (t h + b h) ^ 2 - disc h = 0 := by
      simp only [t]
      linear_combination √(disc h) ^ 2 * hε + hsq
    rw [e] at this
    show (P1 h + t h • d1 h).x ^ 2 + (P1 h + t h • d1 h).y ^ 2 + ((P1 h + t h • d1 h).z - (a - R2)) ^ 2 = R2 ^ 2
    linarith
  obtain ⟨out, hout, hov, hod⟩ := face_step (n1 := n) (n2 := 1) hT hd.le hR2 h2 hb (r := inside) (v := P1 h) (d := d1 h)
    (q := P2 h) (m := m2 h) (t := t h) hiv hid hd1u hins.1 (if_neg hn1) hn one_pos rfl ht hP2S
    (fun s _ hS => by
      obtain ⟨hs1, hs2⟩ := face_side hd hR2 h2 hS
      have := hroot s
      rw [hs1, sub_self] at this
      have hfac : (s - t h) * (s - t' h) = 0 := by
        simp only [t, t']
        linear_combination -this - √(disc h) ^ 2 * hε - hsq
      rcases mul_eq_zero.1 hfac with h' | h'
      · linarith
      · exfalso
        have : s = t' h := by linarith
        rw [this] at hs2
        exact absurd hs2 (not_le.2 hq2))
    rfl hneg2 hrefr2
  have hh' : h ≠ 0 := hh
  have hx' : (d2 h).x / h ≠ 0 := hx
  have hx2 : (d2 h).x ≠ 0 := fun e => hx' (by rw [e, zero_div])
  refine ⟨inside, out, hins, hout, ?_, -((P2 h).x / h) / ((d2 h).x / h), ?_⟩
  · rw [hod]
    intro h0
    have := (offAxis_zero hT h0).1
    have e : T.inv.dir (T.dir (refractOne n 1 (d1 h) (m2 h))) = d2 h := M3.inv_mulVec_mulVec (M3.IsRotation.det_ne hT) _
    rw [e] at this
    exact hx2 this
  rw [hov, hod, ← Tf.point_add_smul]
  congr 1
  apply V3.ext
  · show (P2 h).x + -((P2 h).x / h) / ((d2 h).x / h) * (d2 h).x = 0
    field_simp
    ring
  · show (P2 h).y + -((P2 h).x / h) / ((d2 h).x / h) * (d2 h).y = 0
    rw [nP2.y h, nd2.y h]
    ring
  · show (P2 h).z + -((P2 h).x / h) / ((d2 h).x / h) * (d2 h).z = z h
    simp only [z]
    ring

/-- There is at most one focus. -/
theorem focuses_unique [Nonempty σ] [Nonempty E] {T : Tf ℝ} (hT : T.Rigid) {front back : SceneSurf σ ℝ E}
    {n start z1 z2 : ℝ} (h1 : Focuses front back T n start z1) (h2 : Focuses front back T n start z2) : z1 = z2 := by
  obtain ⟨w⟩ := ‹Nonempty σ›
  obtain ⟨x⟩ := ‹Nonempty E›
  have hdet := M3.IsRotation.det_ne hT
  obtain ⟨f, hf, ef⟩ := h1 1 x
  obtain ⟨g, hg, eg⟩ := h2 1 x
  refine tendsto_nhds_unique_of_eventuallyEq hf hg ?_
  filter_upwards [ef, eg] with h hf hg
  obtain ⟨i1, o1, ⟨_, a1⟩, ⟨_, b1⟩, c1, s1, e1⟩ := hf
  obtain ⟨i2, o2, ⟨_, a2⟩, ⟨_, b2⟩, c2, s2, e2⟩ := hg
  obtain ⟨r1, a1⟩ := a1 w
  obtain ⟨r2, a2⟩ := a2 w
  rw [a1] at a2
  have hi : i1 = i2 := by simpa using (Prod.mk.inj (Except.ok.inj a2)).1 |> fun h => (by simpa using h : r1 = r2 ∧ i1 = i2).2
  subst hi
  obtain ⟨q1, b1⟩ := b1 w
  obtain ⟨q2, b2⟩ := b2 w
  rw [b1] at b2
  have ho : o1 = o2 := (by simpa using (Prod.mk.inj (Except.ok.inj b2)).1 : q1 = q2 ∧ o1 = o2).2
  subst ho
  have l1 := congrArg T.inv.point e1
  have l2 := congrArg T.inv.point e2
  rw [Tf.inv_point_point hdet, Tf.point_add_smul] at l1 l2
  have hne : (T.inv.dir o1.dir).x ^ 2 + (T.inv.dir o1.dir).y ^ 2 ≠ 0 := by
    rw [← localDir_eq hT, local_sq hT]; exact c1
  generalize T.inv.point o1.vertex = v at l1 l2
  generalize T.inv.dir o1.dir = d at l1 l2 hne
  rw [V3.ext_iff] at l1 l2
  simp only [V3.add_x, V3.add_y, V3.add_z, V3.smul_x, V3.smul_y, V3.smul_z] at l1 l2
  have hs : s1 = s2 := by
    by_contra hs
    have hs' : s1 - s2 ≠ 0 := sub_ne_zero.2 hs
    have hx : d.x = 0 := by
      have : (s1 - s2) * d.x = 0 := by linear_combination l1.1 - l2.1
      exact (mul_eq_zero.1 this).resolve_left hs'
    have hy : d.y = 0 := by
      have : (s1 - s2) * d.y = 0 := by linear_combination l1.2.1 - l2.2.1
      exact (mul_eq_zero.1 this).resolve_left hs'
    exact hne (by rw [hx, hy]; ring)
  subst hs
  linear_combination -l1.2.2 + l2.2.2

/-- C62, in part.  `focal_length()` is the value of the lensmaker's equation, for two curved faces (for a planar back see
`C61_planar_back`).  Parallel paraxial light that comes down the axis is brought to a focus; the back principal
point of the lens is at the distance `pd` from its back apex, and the focus is at `-focal_length() + 2*pd`.
Missing: the focus should be at `-focal_length()`, which is false of the code, see `C62_fails`. -/
theorem C62_partial {T : Tf ℝ} (hT : T.Rigid) {diameter depth R1 R2 n : ℝ} (hd : 0 < diameter) (hR1 : R1 ≠ 0) (hR2 : R2 ≠ 0)
    (h1 : diameter ≤ 2 * |R1|) (h2 : diameter ≤ 2 * |R2|) (hn : 0 < n) (hdep : 0 < depth)
    (hpow : (n - 1) * (1 / R1 - 1 / R2 + (n - 1) * depth / (n * R1 * R2)) ≠ 0) :
    ∃ (o : SceneObj σ ℝ E) (f pd : ℝ) (front back : SceneSurf σ ℝ E) (wall : List (SceneSurf σ ℝ E)),
      sphericalLens diameter depth (some R1) (some R2) n T = .ok (o, f) ∧ o.surfs = front :: back :: wall ∧
      1 / f = (n - 1) * (1 / R1 - 1 / R2 + (n - 1) * depth / (n * R1 * R2)) ∧
      pd = f * depth * (n - 1) / (n * R1) ∧
      front.IsLensFace T diameter n (pd + depth) R1 ∧ back.IsLensFace T diameter n pd R2 ∧
      ∀ start, pd + depth < start → Focuses front back T n start (-f + 2 * pd) := by
  obtain ⟨o, f, pd, front, back, wall, hok, ⟨hf, hpd⟩, hs, hF, hB, _⟩ :=
    lens_curved (σ := σ) (E := E) hT hd hR1 hR2 h1 h2 hn.ne' hpow
  refine ⟨o, f, pd, front, back, wall, hok, hs, by rw [hf, one_div_one_div], hpd, hF, hB, fun start hst => ?_⟩
  have hn1 : n ≠ 1 := by
    rintro rfl
    apply hpow
    ring
  have hBp : (1 - n) / R1 + (n - 1) * (1 + depth * ((1 - n) / (n * R1))) / R2 =
      -((n - 1) * (1 / R1 - 1 / R2 + (n - 1) * depth / (n * R1 * R2))) := by
    have := hn.ne'
    field_simp
    ring
  have key := focus_general hT hd hR1 hR2 (sq_of_abs hd h1) (sq_of_abs hd h2) hn hn1 hdep hF hB rfl rfl
    (by rw [hBp]; exact neg_ne_zero.2 hpow) hst
  have e : pd + (1 + depth * ((1 - n) / (n * R1))) / ((1 - n) / R1 + (n - 1) * (1 + depth * ((1 - n) / (n * R1))) / R2) =
      -f + 2 * pd := by
    rw [hBp, hpd, hf]
    generalize (n - 1) * (1 / R1 - 1 / R2 + (n - 1) * depth / (n * R1 * R2)) = P at hpow
    have := hn.ne'
    field_simp
    ring
  rwa [e] at key

/-- C62 fails: no lens with two curved faces and some depth brings light to `-focal_length()`. -/
theorem C62_fails [Nonempty σ] [Nonempty E] {T : Tf ℝ} (hT : T.Rigid) {diameter depth R1 R2 n : ℝ} (hd : 0 < diameter)
    (hR1 : R1 ≠ 0) (hR2 : R2 ≠ 0) (h1 : diameter ≤ 2 * |R1|) (h2 : diameter ≤ 2 * |R2|) (hn : 0 < n) (hdep : 0 < depth)
    (hpow : (n - 1) * (1 / R1 - 1 / R2 + (n - 1) * depth / (n * R1 * R2)) ≠ 0) :
    ∃ (o : SceneObj σ ℝ E) (f top : ℝ) (front back : SceneSurf σ ℝ E) (wall : List (SceneSurf σ ℝ E)),
      sphericalLens diameter depth (some R1) (some R2) n T = .ok (o, f) ∧ o.surfs = front :: back :: wall ∧
      ∀ start, top < start → ¬ Focuses front back T n start (-f) := by
  obtain ⟨o, f, pd, front, back, wall, hok, hs, hf, hpd, _, _, hfoc⟩ :=
    C62_partial (σ := σ) (E := E) hT hd hR1 hR2 h1 h2 hn hdep hpow
  refine ⟨o, f, pd + depth, front, back, wall, hok, hs, fun start hst hbad => ?_⟩
  have h := focuses_unique hT (hfoc start hst) hbad
  have hpd0 : pd = 0 := by linarith
  have hf0 : f ≠ 0 := by
    rintro rfl
    rw [div_zero] at hf
    exact hpow hf.symm
  have hn1 : n - 1 ≠ 0 := fun h => hpow (by rw [h]; ring)
  rw [hpd0] at hpd
  have := hn.ne'
  have h3 : f * depth * (n - 1) / (n * R1) ≠ 0 := by positivity
  exact h3 hpd.symm

/-- A biconvex lens of index 1.5 satisfies the hypotheses: its focal length is 12/11, its paraxial focus is at -8/11. -/
example : ∃ (o : SceneObj Unit ℝ Unit) (front back : SceneSurf Unit ℝ Unit) (wall : List (SceneSurf Unit ℝ Unit)),
    sphericalLens 1 (1 / 2) (some 1) (some (-1)) (3 / 2) 1 = .ok (o, 12 / 11) ∧ o.surfs = front :: back :: wall ∧
    Focuses front back 1 (3 / 2) 5 (-8 / 11) := by
  obtain ⟨o, f, pd, front, back, wall, hok, hs, hf, hpd, _, _, hfoc⟩ := C62_partial (σ := Unit) (E := Unit) (T := 1)
    Tf.Rigid.one (diameter := 1) (depth := 1 / 2) (R1 := 1) (R2 := -1) (n := 3 / 2) (by norm_num) (by norm_num) (by norm_num)
    (by norm_num) (by norm_num) (by norm_num) (by norm_num) (by norm_num)
  have hf' : f = 12 / 11 := by
    rw [← one_div_one_div f, hf]
    norm_num
  subst hf'
  refine ⟨o, front, back, wall, hok, hs, ?_⟩
  have hpd' : pd = 2 / 11 := by rw [hpd]; norm_num
  have := hfoc 5 (by rw [hpd']; norm_num)
  rwa [hpd', show (-(12 / 11) + 2 * (2 / 11) : ℝ) = -8 / 11 by norm_num] at this

/-- So the rays do not meet at the distance of the focal length from the origin. -/
example : ∃ (o : SceneObj Unit ℝ Unit) (f top : ℝ) (front back : SceneSurf Unit ℝ Unit) (wall : List (SceneSurf Unit ℝ Unit)),
    sphericalLens 1 (1 / 2) (some 1) (some (-1)) (3 / 2) 1 = .ok (o, f) ∧ o.surfs = front :: back :: wall ∧
    ∀ start, top < start → ¬ Focuses front back 1 (3 / 2) start (-f) :=
  C62_fails Tf.Rigid.one (by norm_num) (by norm_num) (by norm_num) (by norm_num) (by norm_num) (by norm_num) (by norm_num) (by norm_num)

end Tracer
