import Verif.Spec.Reversal
import Verif.Lemmas.WindowScene
import Verif.Lemmas.TubeScene

/-! Flat surfaces answer a ray sent back along its way. -/

namespace Tracer

open Real

variable {E σ : Type _}

/-! ### Meeting a flat surface -/

theorem finiteParam_iff {out : Tf ℝ → V3 ℝ → Bool} {F : Tf ℝ} {v d : V3 ℝ} {t : ℝ} :
    finiteParam out F v d = (t : WithTop ℝ) ↔
      1 / 10 ^ 10 < |V3.dot d F.rot.c3| ∧ t * V3.dot d F.rot.c3 = -V3.dot (v - F.loc) F.rot.c3 ∧ 0 ≤ t ∧ out F (v + t • d) = false := by
  have hdot : V3.dot F.rot.c3 (v - F.loc) = V3.dot (v - F.loc) F.rot.c3 := V3.dot_comm' _ _
  unfold finiteParam flatParam
  simp only [hdot]
  generalize V3.dot (v - F.loc) F.rot.c3 = z
  generalize V3.dot d F.rot.c3 = c
  by_cases hc : (parallelTol : ℝ) < |c|
  · have hc0 : c ≠ 0 := by
      rintro rfl
      rw [abs_zero] at hc
      unfold parallelTol at hc
      norm_num at hc
    have heq : ∀ t : ℝ, t * c = -z ↔ t = -z / c := fun t => (eq_div_iff hc0).symm
    rw [if_pos hc, heq]
    have hc' : 1 / 10 ^ 10 < |c| := hc
    by_cases hneg : -z / c < 0
    · rw [if_pos hneg]
      constructor
      · intro h; exact absurd h (by simp)
      · rintro ⟨-, rfl, h, -⟩; exact absurd h (not_le.2 hneg)
    · rw [if_neg hneg]
      change (if out F (v + (-z / c) • d) = true then (⊤ : WithTop ℝ) else ((-z / c : ℝ) : WithTop ℝ)) = _ ↔ _
      split
      · rename_i ho
        constructor
        · intro h; exact absurd h (by simp)
        · rintro ⟨-, rfl, -, h⟩; rw [ho] at h; exact absurd h (by simp)
      · rename_i ho
        constructor
        · intro h
          obtain rfl := WithTop.coe_injective h
          exact ⟨hc', rfl, not_lt.1 hneg, by simpa using ho⟩
        · rintro ⟨-, rfl, -, -⟩; rfl
  · rw [if_neg hc]
    constructor
    · intro h; exact absurd h (by simp)
    · rintro ⟨h, -⟩; exact absurd h hc

theorem flatParam_eq_finite (F : Tf ℝ) (v d : V3 ℝ) : flatParam F v d = finiteParam (fun _ _ => false) F v d := by
  unfold finiteParam
  generalize flatParam F v d = x
  cases x with
  | top => rfl
  | coe t => rfl

/-- Where a flat surface is met. -/
theorem FlatGeometry.meets {g : Geometry ℝ E} (h : FlatGeometry g) :
    g.normal = flatNormal ∧ ∃ f, g.PerRay f ∧ ∃ out : Tf ℝ → V3 ℝ → Bool, ∀ F v d, f F v d = finiteParam out F v d := by
  cases h with
  | flat => exact ⟨rfl, _, flatGM_perRay, _, flatParam_eq_finite⟩
  | rect width height g h => rw [rect_eq h]; exact ⟨rfl, _, finiteFlatGM_perRay _, _, fun _ _ _ => rfl⟩
  | round R g h => rw [round_eq h]; exact ⟨rfl, _, finiteFlatGM_perRay _, _, fun _ _ _ => rfl⟩
  | triangle a b => exact ⟨rfl, _, finiteFlatGM_perRay _, _, fun _ _ _ => rfl⟩

theorem single_of_perRay {g : Geometry ℝ E} {f} (hg : g.PerRay f) (opt : Optics σ ℝ E) (F : Tf ℝ) (r : Ray ℝ E) :
    (mkSurf g opt F).single r = f F r.vertex r.dir := by
  unfold Surf.single
  rw [mkSurf_perRay hg opt F]
  rfl

/-- A ray sent back meets a flat surface as far from its end. -/
theorem FlatFace.single_back {n1 n2 : ℝ} {s : Surf σ ℝ E} (hs : FlatFace n1 n2 s) {r back : Ray ℝ E} {l t : ℝ}
    (hv : back.vertex = r.at l) (hd : back.dir = -r.dir) (htl : t ≤ l) (h : s.single r = (t : WithTop ℝ)) :
    s.single back = ((l - t : ℝ) : WithTop ℝ) := by
  obtain ⟨g, opt, F, rfl, hg, -, -⟩ := hs
  obtain ⟨-, f, hf, out, hout⟩ := hg.meets
  rw [single_of_perRay hf, hout, finiteParam_iff] at h ⊢
  obtain ⟨h1, h2, h3, h4⟩ := h
  have hpt : back.vertex + (l - t) • back.dir = r.vertex + t • r.dir := by
    rw [hv, hd]
    unfold Ray.at
    apply V3.ext <;> simp <;> ring
  have hdd : V3.dot back.dir F.rot.c3 = -V3.dot r.dir F.rot.c3 := by
    rw [hd]; unfold V3.dot; simp only [V3.neg_x, V3.neg_y, V3.neg_z]; ring
  refine ⟨by rw [hdd, abs_neg]; exact h1, ?_, by linarith, by rw [hpt]; exact h4⟩
  rw [hdd, hv]
  unfold Ray.at
  simp only [V3.dot, V3.add_x, V3.add_y, V3.add_z, V3.sub_x, V3.sub_y, V3.sub_z, V3.smul_x, V3.smul_y, V3.smul_z] at h2 ⊢
  linear_combination h2

theorem FlatFace.single_nonneg {n1 n2 : ℝ} {s : Surf σ ℝ E} (hs : FlatFace n1 n2 s) {r : Ray ℝ E} {t : ℝ}
    (h : s.single r = (t : WithTop ℝ)) : 0 ≤ t := by
  obtain ⟨g, opt, F, rfl, hg, -, -⟩ := hs
  obtain ⟨-, f, hf, out, hout⟩ := hg.meets
  rw [single_of_perRay hf, hout, finiteParam_iff] at h
  exact h.2.2.1

/-- A free flight back. -/
theorem FreeFlight.back {n1 n2 : ℝ} {surfs : List (Surf σ ℝ E)} (hs : ∀ s ∈ surfs, FlatFace n1 n2 s) {a z : Option (Surf σ ℝ E)}
    {r back : Ray ℝ E} {l : ℝ} (h : FreeFlight surfs a r l z) (hv : back.vertex = r.at l) (hd : back.dir = -r.dir) :
    FreeFlight surfs z back l a := by
  have h0 : r.vertex = back.at l := by
    unfold Ray.at
    rw [hv, hd]
    unfold Ray.at
    apply V3.ext <;> simp
  have hd0 : r.dir = -back.dir := by rw [hd]; apply V3.ext <;> simp
  have hl : 0 ≤ l := by have := h.long; have : (0 : ℝ) < 1 / 10 ^ 6 := by norm_num
                        linarith
  refine ⟨h.long, ?_, ?_, ?_⟩
  · intro s e
    obtain ⟨h1, h2⟩ := h.stop s e
    have := (hs s h1).single_back hv hd le_rfl h2
    rw [sub_self] at this
    exact ⟨h1, this⟩
  · intro s e
    obtain ⟨h1, h2⟩ := h.start s e
    have := (hs s h1).single_back hv hd hl h2
    rw [sub_zero] at this
    exact ⟨h1, this⟩
  · intro s hmem t ht htl
    have h0t := (hs s hmem).single_nonneg ht
    have := (hs s hmem).single_back h0 hd0 htl ht
    rcases h.free s hmem _ this (by linarith) with ⟨e, e'⟩ | ⟨e, e'⟩
    · exact Or.inr ⟨e, by linarith⟩
    · exact Or.inl ⟨e, by linarith⟩

/-! ### One turn -/

theorem PassiveOptics.specular {n1 n2 : ℝ} {opt : Optics σ ℝ E} (h : PassiveOptics n1 n2 opt) : SpecularOptics n1 n2 opt := by
  induction h with
  | mirror a => exact .mirror a
  | oneSided a => exact .oneSided a
  | refractive => exact .refractive
  | receiver a get set opt _ ih => exact .receiver a get set opt ih

theorem FlatGeometry.plain {g : Geometry ℝ E} (h : FlatGeometry g) : PlainGeometry g := by
  cases h with
  | flat => exact .flat
  | rect width height g h => exact .rect width height g h
  | round R g h => exact .round R g h
  | triangle a b => exact .triangle a b

theorem FlatFace.specular {n1 n2 : ℝ} {s : Surf σ ℝ E} (h : FlatFace n1 n2 s) : SpecularSurf s := by
  obtain ⟨g, opt, F, rfl, hg, ho, -⟩ := h
  exact ⟨g, opt, F, n1, n2, rfl, hg.plain, ho.specular⟩

section
variable {m n d e : V3 ℝ} {n1 n2 : ℝ}

theorem dot_neg_left (v m : V3 ℝ) : V3.dot (-v) m = -V3.dot v m := by
  unfold V3.dot; simp only [V3.neg_x, V3.neg_y, V3.neg_z]; ring

theorem dot_neg_right (v m : V3 ℝ) : V3.dot v (-m) = -V3.dot v m := by
  unfold V3.dot; simp only [V3.neg_x, V3.neg_y, V3.neg_z]; ring

theorem isUnit_neg (h : d.IsUnit) : (-d).IsUnit := by
  unfold V3.IsUnit at *
  rw [dot_neg_left, dot_neg_right]; linarith

theorem normal_unit (hm : m.IsUnit) (hn : n = m ∨ n = -m) : n.IsUnit := by
  rcases hn with rfl | rfl
  · exact hm
  · exact isUnit_neg hm

theorem flipAlong_back (hm : m.IsUnit) : flipAlong m (-flipAlong m d) = -d := by
  have h : flipAlong m (-flipAlong m d) = -flipAlong m (flipAlong m d) := by
    have e : ∀ v : V3 ℝ, flipAlong m (-v) = -flipAlong m v := by
      intro v
      unfold flipAlong
      rw [dot_neg_left]
      apply V3.ext <;> simp <;> ring
    exact e _
  rw [h, flipAlong_flipAlong hm]

/-- Light sent back obeys Snell's law. -/
theorem Snell.reversed (hd : d.IsUnit) (h : Snell n1 n2 d m e) : Snell n2 n1 (-e) m (-d) := by
  have hb := h.back hd
  have hl := hb.law
  rw [V3.ext_iff] at hl
  refine ⟨isUnit_neg hd, ?_, ?_⟩
  · rw [V3.ext_iff]
    simp only [V3.cross, V3.smul_x, V3.smul_y, V3.smul_z, V3.neg_x, V3.neg_y, V3.neg_z] at hl ⊢
    refine ⟨?_, ?_, ?_⟩
    · linear_combination -hl.1
    · linear_combination -hl.2.1
    · linear_combination -hl.2.2
  · rw [dot_neg_left, dot_neg_left, neg_mul_neg]
    exact hb.through

theorem refractedOne_congr {d' n' : V3 ℝ} (h : V3.dot d' n' ^ 2 = V3.dot d n ^ 2) : refractedOne n1 n2 d' n' = refractedOne n1 n2 d n := by
  unfold refractedOne
  simp only [V3.dot_comm' n d, V3.dot_comm' n' d', h]

theorem fresnelOne_congr {d' n' : V3 ℝ} (h : V3.dot d' n' ^ 2 = V3.dot d n ^ 2) : fresnelOne d' n' n1 n2 = fresnelOne d n n1 n2 := by
  unfold fresnelOne
  simp only [V3.dot_comm' n d, V3.dot_comm' n' d', (sq_eq_sq_iff_abs_eq_abs _ _).1 h]

theorem dot_normal_sq {v : V3 ℝ} (hn : n = m ∨ n = -m) : V3.dot v n ^ 2 = V3.dot v m ^ 2 := by
  rcases hn with rfl | rfl
  · rfl
  · rw [dot_neg_right]; ring

theorem toggle_cases (hne : n1 ≠ n2) {a : ℝ} (ha : a = n1 ∨ a = n2) :
    (toggleRefIdx n1 n2 a = n1 ∨ toggleRefIdx n1 n2 a = n2) ∧ toggleRefIdx n1 n2 a ≠ a ∧ toggleRefIdx n1 n2 (toggleRefIdx n1 n2 a) = a := by
  unfold toggleRefIdx
  rcases ha with rfl | rfl
  · simp [hne.symm]
  · simp [hne.symm, hne]

end

/-- What a refracting surface makes of one hit. -/
theorem refractive_call {n1 n2 : ℝ} (h1 : 0 < n1) (h2 : 0 < n2) (hne : n1 ≠ n2) (w : σ) (up : V3 ℝ) {h : HitRec ℝ E} (hN : h.normal.IsUnit)
    (hu : h.ray.dir.IsUnit) (hr : h.ray.ref = some n1 ∨ h.ray.ref = some n2) :
    refractiveHomogenous n1 n2 w up [h] =
      .ok (hitReflected n1 n2 h :: (if hitRefr n1 n2 h then [hitRefracted n1 n2 h] else []), w) := by
  have hsome : h.ray.ref = some (idxIn h) := by
    unfold idxIn
    rcases hr with e | e <;> rw [e] <;> rfl
  have hc : idxIn h = n1 ∨ idxIn h = n2 := by
    rw [hsome] at hr
    exact hr.imp Option.some.inj Option.some.inj
  obtain ⟨ht1, ht2, -⟩ := toggle_cases hne hc
  have p1 : 0 < idxIn h := by rcases hc with e | e <;> rw [e] <;> assumption
  have p2 : 0 < idxOut n1 n2 h := by unfold idxOut; rcases ht1 with e | e <;> rw [e] <;> assumption
  rw [refractive_eq n1 n2 w up [h] (by simp) (by simp [hsome])]
  simp only [List.any_cons, List.any_nil, Bool.or_false]
  by_cases hr : hitRefr n1 n2 h = true
  · have hdf := fresnelDefined_of p1 p2 (fun e => ht2 e.symm) hu hN hr
    simp [hr, hdf]
  · simp [hr]

/-- What the callable makes of one hit, and what it makes of the ray sent back. -/
theorem PassiveOptics.turn {n1 n2 : ℝ} (h1 : 0 < n1) (h2 : 0 < n2) (hne : n1 ≠ n2) {opt : Optics σ ℝ E} (ho : PassiveOptics n1 n2 opt)
    {m : V3 ℝ} (hm : m.IsUnit) {w w' : σ} {h : HitRec ℝ E} {raw : Bundle ℝ E} (hcall : opt w m [h] = .ok (raw, w')) {q : Ray ℝ E}
    (hq : q ∈ raw) (hleg : LegalRay n1 n2 h.ray) (hN : h.normal = m ∨ h.normal = -m) (hqd : V3.dot q.dir m ≠ 0) :
    LegalRay n1 n2 q ∧ q.vertex = h.point ∧ ∃ φ : ℝ, 0 ≤ φ ∧ φ ≤ 1 ∧ q.energy = φ * h.ray.energy ∧
      ∀ (w2 : σ) (h' : HitRec ℝ E), (h'.normal = m ∨ h'.normal = -m) → h'.ray.dir = -q.dir → h'.ray.ref = q.ref →
        ∃ raw2 w2', opt w2 m [h'] = .ok (raw2, w2') ∧ ∃ p ∈ raw2, p.vertex = h'.point ∧ p.dir = -h.ray.dir ∧ p.ref = h.ray.ref ∧
          p.energy = φ * h'.ray.energy := by
  obtain ⟨hd, href⟩ := hleg
  induction ho generalizing w w' with
  | mirror a ha0 ha1 =>
    obtain ⟨rfl, rfl⟩ := Prod.mk.inj (Except.ok.inj hcall)
    obtain rfl := List.mem_singleton.1 hq
    have hdir : (reflectOne a h).dir = flipAlong m h.ray.dir := reflection_eq_flip hN
    refine ⟨⟨by rw [hdir]; exact flipAlong_unit hm hd, href⟩, rfl, 1 - a, by linarith, by linarith, mul_comm _ _, ?_⟩
    intro w2 h' hN' hd' hr'
    refine ⟨_, _, rfl, reflectOne a h', by simp, rfl, ?_, hr', mul_comm _ _⟩
    change reflection h'.ray.dir h'.normal = _
    rw [reflection_eq_flip hN', hd', hdir, flipAlong_back hm]
  | oneSided a ha0 ha1 =>
    obtain ⟨rfl, rfl⟩ := Prod.mk.inj (Except.ok.inj hcall)
    have hq' := List.mem_singleton.1 hq
    have hdir : q.dir = flipAlong m h.ray.dir := by
      rw [hq']; simp only; split <;> exact reflection_eq_flip hN
    have hv : q.vertex = h.point := by rw [hq']; simp only; split <;> rfl
    have hr : q.ref = h.ray.ref := by rw [hq']; simp only; split <;> rfl
    have hsame : ∀ h' : HitRec ℝ E, h'.ray.dir = -q.dir → V3.dot h'.ray.dir m = V3.dot h.ray.dir m := by
      intro h' e
      rw [e, hdir, dot_neg_left, dot_flipAlong hm, neg_neg]
    refine ⟨⟨by rw [hdir]; exact flipAlong_unit hm hd, by rw [hr]; exact href⟩, hv, ?_⟩
    by_cases hpos : 0 < V3.dot h.ray.dir m
    · refine ⟨0, le_rfl, zero_le_one, by rw [hq']; simp [hpos], ?_⟩
      intro w2 h' hN' hd' hr'
      refine ⟨_, _, rfl, { reflectOne a h' with energy := 0 }, ?_, rfl, ?_, hr'.trans hr, by simp⟩
      · simp [hsame h' hd', hpos]
      · change reflection h'.ray.dir h'.normal = _
        rw [reflection_eq_flip hN', hd', hdir, flipAlong_back hm]
    · refine ⟨1 - a, by linarith, by linarith, by rw [hq']; simp [hpos, reflectOne, mul_comm], ?_⟩
      intro w2 h' hN' hd' hr'
      refine ⟨_, _, rfl, reflectOne a h', ?_, rfl, ?_, hr'.trans hr, mul_comm _ _⟩
      · simp [hsame h' hd', hpos]
      · change reflection h'.ray.dir h'.normal = _
        rw [reflection_eq_flip hN', hd', hdir, flipAlong_back hm]
  | receiver a get set opt _ ih =>
    obtain ⟨hl, hv, φ, p0, p1, he, hback⟩ := ih hcall
    exact ⟨hl, hv, φ, p0, p1, he, fun w2 h' => hback _ h'⟩
  | refractive =>
    obtain ⟨-, hidx, -, hdef, rfl⟩ := refractive_ok hcall
    have hin := hidx h (by simp)
    have hNu := normal_unit hm hN
    have hcase : idxIn h = n1 ∨ idxIn h = n2 := by
      rw [hin] at href
      exact href.imp Option.some.inj Option.some.inj
    obtain ⟨htog, htne, htt⟩ := toggle_cases hne hcase
    have hposIn : 0 < idxIn h := by rcases hcase with e | e <;> rw [e] <;> assumption
    have hposOut : 0 < idxOut n1 n2 h := by
      unfold idxOut; rcases htog with e | e <;> rw [e] <;> assumption
    rcases List.mem_append.1 hq with hq | hq
    · simp only [List.map_cons, List.map_nil, List.mem_singleton] at hq
      subst hq
      have hdir : (hitReflected n1 n2 h).dir = flipAlong m h.ray.dir := reflection_eq_flip hN
      have hR0 : 0 ≤ hitR n1 n2 h ∧ hitR n1 n2 h ≤ 1 := by
        unfold hitR
        split
        · exact C47_fraction hposIn hposOut hd hNu
        · exact ⟨zero_le_one, le_rfl⟩
      refine ⟨⟨by rw [hdir]; exact flipAlong_unit hm hd, href⟩, rfl, hitR n1 n2 h, hR0.1, hR0.2, mul_comm _ _, ?_⟩
      intro w2 h' hN' hd' hr'
      have hr'' : h'.ray.ref = h.ray.ref := hr'
      have hu' : h'.ray.dir.IsUnit := by rw [hd', hdir]; exact isUnit_neg (flipAlong_unit hm hd)
      refine ⟨_, _, refractive_call h1 h2 hne w2 m (normal_unit hm hN') hu' (by rw [hr'']; exact href), hitReflected n1 n2 h', by simp, rfl, ?_, hr'', ?_⟩
      · change reflection h'.ray.dir h'.normal = _
        rw [reflection_eq_flip hN', hd', hdir, flipAlong_back hm]
      · change h'.ray.energy * hitR n1 n2 h' = _
        have hsq : V3.dot h'.ray.dir h'.normal ^ 2 = V3.dot h.ray.dir h.normal ^ 2 := by
          rw [dot_normal_sq hN', dot_normal_sq hN, hd', hdir, dot_neg_left, dot_flipAlong hm, neg_neg]
        have hi : idxIn h' = idxIn h := by unfold idxIn; rw [hr'']
        have hitR_eq : hitR n1 n2 h' = hitR n1 n2 h := by
          unfold hitR hitRefr idxOut
          rw [hi, refractedOne_congr hsq, fresnelOne_congr hsq]
        rw [hitR_eq, mul_comm]
    · obtain ⟨h0, hh0, rfl⟩ := List.mem_map.1 hq
      obtain ⟨hmem, hrefr⟩ := List.mem_filter.1 hh0
      obtain rfl := List.mem_singleton.1 hmem
      have hsn := C45_snell hposIn hposOut hd hNu hrefr
      have hR : hitR n1 n2 h0 = fresnelOne h0.ray.dir h0.normal (idxIn h0) (idxOut n1 n2 h0) := by
        unfold hitR; rw [if_pos hrefr]
      have hb := C47_fraction hposIn hposOut hd hNu
      rw [← hR] at hb
      have hdirq : (hitRefracted n1 n2 h0).dir = refractOne (idxIn h0) (idxOut n1 n2 h0) h0.ray.dir h0.normal := rfl
      refine ⟨⟨hsn.unit, htog.imp (congrArg some) (congrArg some)⟩, rfl, 1 - hitR n1 n2 h0, by linarith, by linarith, mul_comm _ _, ?_⟩
      intro w2 h' hN' hd' hr'
      have hr'' : h'.ray.ref = some (idxOut n1 n2 h0) := hr'
      have hu' : h'.ray.dir.IsUnit := by rw [hd']; exact isUnit_neg hsn.unit
      have hi : idxIn h' = idxOut n1 n2 h0 := by unfold idxIn; rw [hr'']; rfl
      have ho' : idxOut n1 n2 h' = idxIn h0 := by unfold idxOut; rw [hi]; exact htt
      have hNu' := normal_unit hm hN'
      -- the way back across the surface, with either choice of the normal
      have hsm : Snell (idxIn h0) (idxOut n1 n2 h0) h0.ray.dir m (hitRefracted n1 n2 h0).dir := by
        rcases hN with e | e
        · rw [← e]; exact hsn
        · have := hsn.neg
          have hmm : - -m = m := by apply V3.ext <;> simp
          rw [e, hmm] at this
          rw [hdirq, e]; exact this
      have hback := hsm.reversed hd
      rw [← hd'] at hback
      have hbackN : Snell (idxIn h') (idxOut n1 n2 h') h'.ray.dir h'.normal (-h0.ray.dir) := by
        rw [hi, ho']
        rcases hN' with e | e
        · rw [e]; exact hback
        · rw [e]; exact hback.neg
      have hc' : V3.dot h'.ray.dir h'.normal ≠ 0 := by
        intro e
        have := dot_normal_sq (v := h'.ray.dir) hN'
        rw [e, hd', dot_neg_left] at this
        exact hqd (by simpa using this.symm)
      obtain ⟨hrefr', hdir'⟩ := hbackN.refracted (by rw [hi]; exact hposOut) (by rw [ho']; exact hposIn) hu' hNu' hc'
      have hrefr'' : hitRefr n1 n2 h' = true := hrefr'
      refine ⟨_, _, refractive_call h1 h2 hne w2 m (normal_unit hm hN') hu' (by rw [hr'']; exact htog.imp (congrArg some) (congrArg some)), hitRefracted n1 n2 h',
        by simp [hrefr''], rfl, hdir', ?_, ?_⟩
      · change some (idxOut n1 n2 h') = _
        rw [ho', hin]
      · change h'.ray.energy * (1 - hitR n1 n2 h') = _
        have e1 := hbackN.reflectance (by rw [hi]; exact hposOut) (by rw [ho']; exact hposIn) hu' hNu'
        have e0 := hsn.reflectance hposIn hposOut hd hNu
        have hR' : hitR n1 n2 h' = fresnelOne h'.ray.dir h'.normal (idxIn h') (idxOut n1 n2 h') := by
          unfold hitR; rw [if_pos hrefr'']
        have ea : |V3.dot h'.ray.dir h'.normal| = |V3.dot (hitRefracted n1 n2 h0).dir h0.normal| := by
          rw [← sq_eq_sq_iff_abs_eq_abs, dot_normal_sq hN', dot_normal_sq hN, hd', dot_neg_left, neg_sq]
        have eb : |V3.dot (-h0.ray.dir) h'.normal| = |V3.dot h0.ray.dir h0.normal| := by
          rw [← sq_eq_sq_iff_abs_eq_abs, dot_normal_sq hN', dot_normal_sq hN, dot_neg_left, neg_sq]
        rw [hR', e1, ea, eb, hi, ho', fresnelMean_comm, hdirq, ← e0, ← hR, mul_comm]

/-- One turn at a flat surface, and the turn of the ray sent back. -/
theorem FlatFace.turn {n1 n2 : ℝ} (h1 : 0 < n1) (h2 : 0 < n2) (hne : n1 ≠ n2) {s : Surf σ ℝ E} (hs : FlatFace n1 n2 s) {w : σ}
    {r q : Ray ℝ E} {t : ℝ} (hleg : LegalRay n1 n2 r) (hit : s.single r = (t : WithTop ℝ)) (hq : q ∈ s.alone w r)
    (hstart : s.single q = ((0 : ℝ) : WithTop ℝ)) :
    LegalRay n1 n2 q ∧ q.vertex = r.at t ∧ ∃ φ : ℝ, 0 ≤ φ ∧ φ ≤ 1 ∧ q.energy = φ * r.energy ∧
      ∀ (w2 : σ) (back : Ray ℝ E) (l : ℝ), back.dir = -q.dir → back.ref = q.ref → s.single back = (l : WithTop ℝ) →
        ∃ p ∈ s.alone w2 back, p.vertex = back.at l ∧ p.dir = -r.dir ∧ p.ref = r.ref ∧ p.energy = φ * back.energy := by
  obtain ⟨g, opt, F, rfl, hg, ho, hF⟩ := hs
  obtain ⟨hn, f, hf, out, hout⟩ := hg.meets
  have hm : F.rot.c3.IsUnit := ((M3.isRotation_iff F.rot).1 hF).1.2.2.1
  have hrun : ∀ (w : σ) (r : Ray ℝ E) (t : ℝ), (mkSurf g opt F).single r = (t : WithTop ℝ) →
      (mkSurf g opt F).outgoing w [r] [0] = opt w F.rot.c3 [⟨0, r, r.at t, flatNormal F (r.at t) r.dir⟩] := by
    intro w r t h
    have := hitRecs_single hf h
    unfold mkSurf
    simp only [this, hn]
  have hqd : V3.dot q.dir F.rot.c3 ≠ 0 := by
    rw [single_of_perRay hf, hout, finiteParam_iff] at hstart
    intro e
    have := hstart.1
    rw [e, abs_zero] at this
    norm_num at this
  unfold Surf.alone at hq
  rw [hrun w r t hit] at hq
  split at hq
  · rename_i raw w' hcall
    obtain ⟨hl, hv, φ, p0, p1, he, hback⟩ := ho.turn h1 h2 hne hm hcall hq hleg (flatNormal_cases F (r.at t) r.dir) hqd
    refine ⟨hl, hv, φ, p0, p1, he, ?_⟩
    intro w2 back l hd hr hb
    obtain ⟨raw2, w2', hc2, p, hp, e1, e2, e3, e4⟩ :=
      hback w2 ⟨0, back, back.at l, flatNormal F (back.at l) back.dir⟩ (flatNormal_cases F (back.at l) back.dir) hd hr
    refine ⟨p, ?_, e1, e2, e3, e4⟩
    unfold Surf.alone
    rw [hrun w2 back l hb, hc2]
    exact hp
  · cases hq

/-! ### Paths -/

section
variable {surfs : List (Surf σ ℝ E)} {w : σ} {a z : Option (Surf σ ℝ E)} {r r' : Ray ℝ E} {path : List (Surf σ ℝ E)} {l : ℝ}

theorem LightPath.first (h : LightPath surfs w a r path r' l z) : ∃ t z', FreeFlight surfs a r t z' := by
  cases h with
  | straight h => exact ⟨_, _, h⟩
  | turn h _ _ => exact ⟨_, _, h⟩

theorem LightPath.last (h : LightPath surfs w a r path r' l z) : ∃ a', FreeFlight surfs a' r' l z := by
  induction h with
  | straight h => exact ⟨_, h⟩
  | turn _ _ _ ih => exact ih

theorem LightPath.snoc {s : Surf σ ℝ E} {q : Ray ℝ E} {l' : ℝ} {z' : Option (Surf σ ℝ E)} (h : LightPath surfs w a r path r' l z)
    (hz : z = some s) (hq : q ∈ s.alone w r') (hf : FreeFlight surfs (some s) q l' z') :
    LightPath surfs w a r (path ++ [s]) q l' z' := by
  induction h with
  | straight h => subst hz; exact .turn h hq (.straight hf)
  | turn h hq' _ ih => exact .turn h hq' (ih hz hq)

/-- A path sent back, with the fraction of the light that goes along it either way. -/
theorem LightPath.back {n1 n2 : ℝ} (h1 : 0 < n1) (h2 : 0 < n2) (hne : n1 ≠ n2) (hs : ∀ s ∈ surfs, FlatFace n1 n2 s)
    (h : LightPath surfs w a r path r' l z) (hleg : LegalRay n1 n2 r) :
    LegalRay n1 n2 r' ∧ ∃ φ : ℝ, 0 ≤ φ ∧ φ ≤ 1 ∧ r'.energy = φ * r.energy ∧
      ∀ (w2 : σ) (back : Ray ℝ E), back.vertex = r'.at l → back.dir = -r'.dir → back.ref = r'.ref →
        ∃ p l', LightPath surfs w2 z back path.reverse p l' a ∧ p.dir = -r.dir ∧ p.at l' = r.vertex ∧ p.ref = r.ref ∧
          p.energy = φ * back.energy := by
  have hat : ∀ (r p : Ray ℝ E) (t : ℝ), p.vertex = r.at t → p.dir = -r.dir → p.at t = r.vertex := by
    intro r p t hv hd
    unfold Ray.at at *
    rw [hv, hd]
    apply V3.ext <;> simp
  induction h with
  | straight hf =>
    refine ⟨hleg, 1, zero_le_one, le_rfl, (one_mul _).symm, ?_⟩
    intro w2 back hv hd hr
    exact ⟨back, _, .straight (hf.back hs hv hd), hd, hat _ _ _ hv hd, hr, (one_mul _).symm⟩
  | turn hf hq hp ih =>
    obtain ⟨hmem, hit⟩ := hf.stop _ rfl
    obtain ⟨_, _, hnext⟩ := hp.first
    obtain ⟨hlq, hvq, φ, p0, p1, he, hturn⟩ := (hs _ hmem).turn h1 h2 hne hleg hit hq (hnext.start _ rfl).2
    obtain ⟨hl', ψ, s0, s1, he', hback⟩ := ih hlq
    refine ⟨hl', ψ * φ, mul_nonneg s0 p0, mul_le_one₀ s1 p0 p1, by rw [he', he]; ring, ?_⟩
    intro w2 back hv hd hr
    obtain ⟨qb, lb, hpath, hdb, hvb, hrb, heb⟩ := hback w2 back hv hd hr
    obtain ⟨_, hlast⟩ := hpath.last
    obtain ⟨p, hpm, e1, e2, e3, e4⟩ := hturn w2 qb lb hdb hrb (hlast.stop _ rfl).2
    have hvp := e1.trans (hvb.trans hvq)
    refine ⟨p, _, ?_, e2, hat _ _ _ hvp e2, e3, by rw [e4, heb]; ring⟩
    rw [List.reverse_cons]
    exact hpath.snoc rfl hpm (hf.back hs hvp e2)

/-! ### What the engine records -/

theorem cutoff_cases (per : Surf σ ℝ E → Ray ℝ E → WithTop ℝ) (surfs : List (Surf σ ℝ E)) (rays : Bundle ℝ E) :
    0 < cutoff per surfs rays ∧ cutoff per surfs rays ≤ 1 / 10 ^ 6 := by
  unfold cutoff
  split
  · unfold dropTol; norm_num
  · unfold selfTol; norm_num

theorem FreeFlight.children {s : Surf σ ℝ E} {t : ℝ} (h : FreeFlight surfs a r t (some s)) (rays : Bundle ℝ E) {q : Ray ℝ E}
    (hq : q ∈ s.alone w r) : q ∈ childrenBeyond (cutoff Surf.single surfs rays) Surf.single (Surf.alone w) surfs r := by
  classical
  obtain ⟨c0, c1⟩ := cutoff_cases Surf.single surfs rays
  obtain ⟨hmem, hit⟩ := h.stop s rfl
  have hlong := h.long
  have hnear : ∃ t, NearestBeyond (cutoff Surf.single surfs rays) Surf.single surfs s r t := by
    refine ⟨t, hit, by linarith, ?_⟩
    intro s' hs' t' ht' hc
    by_contra hlt
    rcases h.free s' hs' t' ht' (by linarith) with ⟨-, e⟩ | ⟨-, e⟩ <;> linarith
  unfold childrenBeyond
  refine List.mem_flatMap.2 ⟨s, hmem, ?_⟩
  rw [if_pos hnear]
  exact hq

/-- The path is in the generations of the trace. -/
theorem LightPath.generations {n1 n2 : ℝ} (h1 : 0 < n1) (h2 : 0 < n2) (hne : n1 ≠ n2) (hs : ∀ s ∈ surfs, FlatFace n1 n2 s)
    {minE : ℝ} (h0 : 0 ≤ minE) {b : Bundle ℝ E} (h : LightPath surfs w a r path r' l z) (hleg : LegalRay n1 n2 r)
    (he : minE < r'.energy) {k : Nat} (hr : r ∈ exactGeneration Surf.single (Surf.alone w) surfs minE b k) :
    r' ∈ exactGeneration Surf.single (Surf.alone w) surfs minE b (k + path.length) := by
  induction h generalizing k with
  | straight => exact hr
  | turn hf hq hp ih =>
    rename_i a0 r0 t0 s0 q0 path0 r1 l0 z0
    have hbig : minE < r0.energy := by
      obtain ⟨-, φ, f0, f1, e, -⟩ := (LightPath.turn hf hq hp).back h1 h2 hne hs hleg
      rw [e] at he
      have : 0 < r0.energy := by
        by_contra hc
        nlinarith [mul_nonneg f0 (neg_nonneg.2 (not_lt.1 hc))]
      nlinarith
    obtain ⟨hmem, hit⟩ := hf.stop _ rfl
    obtain ⟨_, _, hnext⟩ := hp.first
    obtain ⟨hlq, -⟩ := (hs _ hmem).turn h1 h2 hne hleg hit hq (hnext.start _ rfl).2
    have hq1 : q0 ∈ exactGeneration Surf.single (Surf.alone w) surfs minE b (k + 1) := by
      refine List.mem_flatMap.2 ⟨r0, ?_, hf.children _ hq⟩
      unfold propagated
      split
      · exact hr
      · exact List.mem_filter.2 ⟨hr, by simpa using hbig⟩
    have := ih hlq he hq1
    rw [List.length_cons, Nat.add_comm path0.length 1, ← Nat.add_assoc]
    exact this

end

/-! ### The trace returns -/

theorem PassiveOptics.library {n1 n2 : ℝ} {opt : Optics σ ℝ E} (h : PassiveOptics n1 n2 opt) : LibraryOptics n1 n2 opt := by
  induction h with
  | mirror a => exact .mirror a
  | oneSided a => exact .oneSided a
  | refractive => exact .refractive
  | receiver a get set opt _ ih => exact .receiver a get set opt ih

theorem faces_nodes {n1 n2 : ℝ} (l : List (Surf σ ℝ E)) (h : ∀ s ∈ l, FlatFace n1 n2 s) :
    ∃ ns : List (SceneSurf σ ℝ E), (ns.map fun s => mkSurf s.data.1 s.data.2 s.temp) = l ∧
      ∀ s ∈ ns, s.temp.Rigid ∧ FlatGeometry s.data.1 ∧ PassiveOptics n1 n2 s.data.2 := by
  induction l with
  | nil => exact ⟨[], rfl, by simp⟩
  | cons s l ih =>
    obtain ⟨ns, e, hns⟩ := ih fun s hs => h s (List.mem_cons_of_mem _ hs)
    obtain ⟨g, opt, F, e', hg, ho, hF⟩ := h s (by simp)
    exact ⟨⟨F, F, (g, opt)⟩ :: ns, by rw [List.map_cons, e, e'], List.forall_mem_cons.2 ⟨⟨hF, hg, ho⟩, hns⟩⟩

theorem objs_nodes {n1 n2 : ℝ} (objs : List (Obj σ ℝ E)) (hdef : ∀ o ∈ objs, o.Default) (h : AllSurfs (FlatFace n1 n2) objs) :
    ∃ ns : List (SceneObj σ ℝ E),
      (ns.map fun o => (⟨o.surfs.map fun s => mkSurf s.data.1 s.data.2 s.temp, o.data.1, o.data.2⟩ : Obj σ ℝ E)) = objs ∧
      ∀ o ∈ ns, (o.data = (Obj.defaultOwn, Obj.defaultNext o.surfs.length)) ∧
        ∀ s ∈ o.surfs, s.temp.Rigid ∧ FlatGeometry s.data.1 ∧ PassiveOptics n1 n2 s.data.2 := by
  induction objs with
  | nil => exact ⟨[], rfl, by simp⟩
  | cons o objs ih =>
    obtain ⟨ns, e, hns⟩ := ih (fun o ho => hdef o (List.mem_cons_of_mem _ ho)) (fun o ho => h o (List.mem_cons_of_mem _ ho))
    obtain ⟨ss, es, hss⟩ := faces_nodes o.surfs (h o (by simp))
    obtain ⟨d1, d2⟩ := hdef o (by simp)
    refine ⟨⟨1, ss, (o.own, o.next)⟩ :: ns, by rw [List.map_cons, e]; simp only [es], List.forall_mem_cons.2 ⟨⟨?_, hss⟩, hns⟩⟩
    have hlen : o.surfs.length = ss.length := by rw [← es, List.length_map]
    simp only [d1, d2, hlen]

/-- A scene of flat faces can be traced. -/
theorem flatFaces_trace {n1 n2 : ℝ} (h1 : 0 < n1) (h2 : 0 < n2) (hne : n1 ≠ n2) {objs : List (Obj σ ℝ E)} (hdef : ∀ o ∈ objs, o.Default)
    (h : AllSurfs (FlatFace n1 n2) objs) (hsome : ∃ o ∈ objs, o.surfs ≠ []) (w : σ) {b : Bundle ℝ E} (hb : ∀ r ∈ b, LegalRay n1 n2 r)
    (reps : Nat) (minE : ℝ) : ∃ res, rayTracer objs w b reps minE true = .ok res := by
  obtain ⟨ns, rfl, hns⟩ := objs_nodes objs hdef h
  have hobj : (Asm.mk 1 [] ns : SceneAsm σ ℝ E).getObjects = ns := rfl
  have hlib : LibraryScene n1 n2 (Asm.mk 1 [] ns : SceneAsm σ ℝ E) := by
    refine ⟨?_, ?_, ?_, ?_, ?_⟩ <;> rw [hobj]
    · obtain ⟨o, ho, hne⟩ := hsome
      obtain ⟨n, hn, rfl⟩ := List.mem_map.1 ho
      exact ⟨n, hn, fun e => hne (by simp [e])⟩
    · exact fun o ho s hs => ((hns o ho).2 s hs).1
    · exact fun o ho s hs => .plain _ ((hns o ho).2 s hs).2.1.plain
    · exact fun o ho s hs => ((hns o ho).2 s hs).2.2.library
    · exact fun o ho => .inl (hns o ho).1
  exact C75_partial h1 h2 hne hlib (by rw [hobj]; exact fun o ho s hs => ((hns o ho).2 s hs).2.1.plain) w hb minE (.inl rfl)

end Tracer
