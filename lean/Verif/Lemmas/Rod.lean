import Verif.Lemmas.Pipe
import Verif.Lemmas.Drop
import Verif.Spec.Rod

/-! A round rod of glass as the engine sees it. -/

namespace Tracer

variable {E σ : Type _}

/-- What the rays of a scene of one surface do, if they are divided at it and may leave it. -/
structure LeavingFans (s : Surf σ ℝ E) (w : σ) (b : Bundle ℝ E) (hits : Ray ℝ E → Nat → Bool) (orbit : Ray ℝ E → Nat → Ray ℝ E)
    (fan : Ray ℝ E → Nat → List (Ray ℝ E)) (T : Ray ℝ E → Nat → ℝ) : Prop where
  first : ∀ r ∈ b, orbit r 0 = r
  hit : ∀ r ∈ b, ∀ k, hits r k = true → s.single (orbit r k) = ((T r k : ℝ) : WithTop ℝ) ∧ 1 / 10 ^ 6 < T r k ∧ s.alone w (orbit r k) = fan r k
  miss : ∀ r ∈ b, ∀ k, hits r k = false → s.single (orbit r k) = ⊤
  fan : ∀ r ∈ b, ∀ k, ∃ pre post, fan r k = pre ++ orbit r (k + 1) :: post ∧ ∀ x ∈ pre ++ post, s.single x = ⊤

section
variable {s : Surf σ ℝ E} {w : σ} {b : Bundle ℝ E} {minE : ℝ} {orbit : Ray ℝ E → Nat → Ray ℝ E} {T : Ray ℝ E → Nat → ℝ}
  {fan : Ray ℝ E → Nat → List (Ray ℝ E)} {hits : Ray ℝ E → Nat → Bool}

theorem leaving_generation (ho : LeavingFans s w b hits orbit fan T) (k : Nat) :
    goingGeneration Surf.single (Surf.alone w) (plainPolicy (lone s)) (sites (lone s)) minE b (k + 1) =
      (b.filter fun r => followed minE hits orbit k r && hits r k).flatMap (fun r => (fan r k).map fun x => ⟨x, some (0, 0)⟩) := by
  have hone : ∀ r ∈ b, ∀ k last, ∀ cut : ℝ, cut ≤ 1 / 10 ^ 6 →
      Going.children cut Surf.single (Surf.alone w) (plainPolicy (lone s)) (sites (lone s)) ⟨orbit r k, last⟩ =
        if hits r k then (fan r k).map (fun x => ⟨x, some (0, 0)⟩) else [] := by
    intro r hr k last cut hc
    cases hh : hits r k with
    | true =>
      obtain ⟨h1, h2, h3⟩ := ho.hit r hr k hh
      rw [lone_children_hit (g := ⟨orbit r k, last⟩) h1 h2 hc]
      show (s.alone w (orbit r k)).map _ = _
      rw [h3]; rfl
    | false =>
      rw [lone_children_miss (g := ⟨orbit r k, last⟩) (ho.miss r hr k hh)]
      rfl
  induction k with
  | zero =>
    show nextGoing _ _ _ _ _ = _
    unfold nextGoing
    generalize hcut : goingCut Surf.single (plainPolicy (lone s)) (sites (lone s)) _ = cut
    have hc : cut ≤ 1 / 10 ^ 6 := by rw [← hcut]; exact goingCut_cases _ _ _ _
    unfold setOut goingGeneration
    rw [if_pos rfl, List.flatMap_map]
    have hk : b.filter (fun _ => true) = b := by simp
    have h0 : ∀ r, (followed minE hits orbit 0 r && hits r 0) = (true && hits r 0) := fun r => by simp [followed]
    simp only [h0]
    conv_lhs => rw [← hk]
    refine flatMap_filter' fun r hr => ?_
    have := hone r hr 0 none cut hc
    rw [ho.first r hr] at this
    exact this
  | succ k ih =>
    show nextGoing _ _ _ _ _ = _
    unfold nextGoing
    generalize hcut : goingCut Surf.single (plainPolicy (lone s)) (sites (lone s)) _ = cut
    have hc : cut ≤ 1 / 10 ^ 6 := by rw [← hcut]; exact goingCut_cases _ _ _ _
    rw [ih]
    unfold setOut
    rw [if_neg (Nat.succ_ne_zero k)]
    have hfm : ∀ (l : List (Ray ℝ E)) (f : Ray ℝ E → List (Going ℝ E)) (p : Going ℝ E → Bool),
        (l.flatMap f).filter p = l.flatMap fun r => (f r).filter p := by
      intro l f p
      induction l with
      | nil => rfl
      | cons x l ih => simp [ih]
    rw [hfm, List.flatMap_assoc]
    have hsucc : ∀ r, (followed minE hits orbit (k + 1) r && hits r (k + 1)) =
        ((followed minE hits orbit k r && hits r k) && (decide (minE < (orbit r (k + 1)).energy) && hits r (k + 1))) := by
      intro r
      unfold followed
      rw [List.range_succ, List.all_append]
      simp only [List.all_cons, List.all_nil, Bool.and_true, Bool.and_assoc]
    simp only [hsucc]
    refine flatMap_filter' fun r hr => ?_
    obtain ⟨pre, post, hfan, hmiss⟩ := ho.fan r hr k
    have hnone : ∀ l : List (Ray ℝ E), (∀ x ∈ l, s.single x = ⊤) →
        ((l.map fun x => (⟨x, some (0, 0)⟩ : Going ℝ E)).filter fun g => decide (minE < g.ray.energy)).flatMap
          (Going.children cut Surf.single (Surf.alone w) (plainPolicy (lone s)) (sites (lone s))) = [] := by
      intro l hl
      rw [List.flatMap_eq_nil_iff]
      intro g hg
      obtain ⟨x, hx, rfl⟩ := List.mem_map.1 (List.mem_filter.1 hg).1
      exact lone_children_miss (hl x hx)
    rw [hfan, List.map_append, List.map_cons, List.filter_append, List.flatMap_append,
      hnone pre fun x hx => hmiss x (List.mem_append_left _ hx), List.nil_append, List.filter_cons]
    by_cases he : minE < (orbit r (k + 1)).energy
    · rw [if_pos (by simpa using he), List.flatMap_cons, hnone post fun x hx => hmiss x (List.mem_append_right _ hx), List.append_nil,
        hone r hr (k + 1) _ cut hc]
      simp [he]
    · rw [if_neg (by simpa using he), hnone post fun x hx => hmiss x (List.mem_append_right _ hx)]
      simp [he]

end

section
variable {R : ℝ} {g : Geometry ℝ E} {frame : Tf ℝ} {opt : Optics σ ℝ E} {r : Ray ℝ E}

open Classical in
/-- What a refracting surface makes of a ray that meets it where its normal is along `q`. -/
theorem radial_alone {f} (hper : g.PerRay f) {n1 n2 na nb t : ℝ} {q : V3 ℝ} (h1 : 0 < n1) (h2 : 0 < n2) (hne : n1 ≠ n2)
    (hab : na = n1 ∧ nb = n2 ∨ na = n2 ∧ nb = n1) (w : σ) (hu : r.dir.IsUnit) (hr : r.ref = some na)
    (h : (mkSurf g (refractiveHomogenous n1 n2) frame : Surf σ ℝ E).single r = (t : WithTop ℝ)) (hR : 0 < R)
    (hq : V3.dot q q = R ^ 2) (hpos : 0 < V3.dot q r.dir)
    (hN : g.normal frame (r.at t) r.dir = (1 / R) • q ∨ g.normal frame (r.at t) r.dir = -((1 / R) • q)) :
    (mkSurf g (refractiveHomogenous n1 n2) frame).alone w r =
      ({ r with
          vertex := r.at t
          dir := withMoment R q (V3.cross q r.dir) (-V3.dot q r.dir)
          energy := r.energy * (if na ^ 2 * V3.dot (V3.cross q r.dir) (V3.cross q r.dir) ≤ nb ^ 2 * R ^ 2 then
            reflectance na nb (V3.dot q r.dir) (√(R ^ 2 - (na / nb) ^ 2 * V3.dot (V3.cross q r.dir) (V3.cross q r.dir))) else 1)
          parent := 0 } : Ray ℝ E) ::
      (if na ^ 2 * V3.dot (V3.cross q r.dir) (V3.cross q r.dir) ≤ nb ^ 2 * R ^ 2 then
        [{ r with
            vertex := r.at t
            dir := withMoment R q ((na / nb) • V3.cross q r.dir) (√(R ^ 2 - (na / nb) ^ 2 * V3.dot (V3.cross q r.dir) (V3.cross q r.dir)))
            energy := r.energy * (1 - reflectance na nb (V3.dot q r.dir) (√(R ^ 2 - (na / nb) ^ 2 * V3.dot (V3.cross q r.dir) (V3.cross q r.dir))))
            parent := 0
            ref := some nb }] else []) := by
  refine alone_refractive hper w h ?_
  generalize hnm : g.normal frame (r.at t) r.dir = m at *
  have hmu := radial_unit hR hq hN
  have hna : 0 < na := by rcases hab with ⟨rfl, _⟩ | ⟨rfl, _⟩ <;> assumption
  have hnb : 0 < nb := by rcases hab with ⟨_, rfl⟩ | ⟨_, rfl⟩ <;> assumption
  have hin : idxIn (⟨0, r, r.at t, m⟩ : HitRec ℝ E) = na := by unfold idxIn; simp [hr]
  have hout : idxOut n1 n2 (⟨0, r, r.at t, m⟩ : HitRec ℝ E) = nb := by
    unfold idxOut; rw [hin]; unfold toggleRefIdx
    rcases hab with ⟨rfl, rfl⟩ | ⟨rfl, rfl⟩
    · simp
    · simp [hne.symm]
  have hrefr : hitRefr n1 n2 (⟨0, r, r.at t, m⟩ : HitRec ℝ E) = true ↔ na ^ 2 * V3.dot (V3.cross q r.dir) (V3.cross q r.dir) ≤ nb ^ 2 * R ^ 2 := by
    unfold hitRefr; rw [hin, hout]
    exact radial_refracted hna hR hq hu hN
  have hfr : fresnelOne r.dir m na nb = reflectance na nb (V3.dot q r.dir) (√(R ^ 2 - (na / nb) ^ 2 * V3.dot (V3.cross q r.dir) (V3.cross q r.dir))) := by
    rw [radial_fresnel hR hq hu hN, abs_of_pos hpos]
  have hleg : r.ref = some n1 ∨ r.ref = some n2 := by
    rcases hab with ⟨rfl, _⟩ | ⟨rfl, _⟩
    · exact Or.inl hr
    · exact Or.inr hr
  rw [refractive_call h1 h2 hne w _ (h := ⟨0, r, r.at t, m⟩) hmu hu hleg]
  by_cases hb : na ^ 2 * V3.dot (V3.cross q r.dir) (V3.cross q r.dir) ≤ nb ^ 2 * R ^ 2
  · have hs : hitR n1 n2 (⟨0, r, r.at t, m⟩ : HitRec ℝ E) = fresnelOne r.dir m na nb := by
      unfold hitR; rw [if_pos (hrefr.2 hb), hin, hout]
    rw [if_pos (hrefr.2 hb), if_pos hb, if_pos hb]
    unfold hitReflected reflectedRay hitRefracted refractedRay
    rw [hs, hfr, hin, hout]
    simp only
    rw [radial_reflection hR hq hN, radial_refraction hna hnb hR hq hu hN hpos.ne', if_neg (not_lt.2 hpos.le), one_mul]
  · have hs : hitR n1 n2 (⟨0, r, r.at t, m⟩ : HitRec ℝ E) = 1 := by
      unfold hitR; rw [if_neg (fun h => hb (hrefr.1 h))]
    rw [if_neg (fun h => hb (hrefr.1 h)), if_neg hb, if_neg hb]
    unfold hitReflected reflectedRay
    rw [hs]
    simp only
    rw [radial_reflection hR hq hN]

/-- The reported normal of a cylinder. -/
theorem cylinder_radial (hf : frame.Rigid) (hR : 0 < R) {p d : V3 ℝ}
    (hp : V3.dot (crosswise frame.rot.c3 (p - frame.loc)) (crosswise frame.rot.c3 (p - frame.loc)) = R ^ 2) :
    cylinderNormal frame p d = (1 / R) • crosswise frame.rot.c3 (p - frame.loc) ∨
      cylinderNormal frame p d = -((1 / R) • crosswise frame.rot.c3 (p - frame.loc)) := by
  have hl := local_sq hf (p - frame.loc)
  rw [offAxis_eq hf, hp] at hl
  have hs : √((localDir frame (p - frame.loc)).x ^ 2 + (localDir frame (p - frame.loc)).y ^ 2) = R := by rw [hl, Real.sqrt_sq hR.le]
  have hq := crosswise_local hf (p - frame.loc)
  unfold cylinderNormal
  simp only [local_point hf, hs]
  split
  · right
    rw [← hq]
    apply V3.ext <;> simp only [M3.mulVec_x, M3.mulVec_y, M3.mulVec_z, V3.neg_x, V3.neg_y, V3.neg_z, V3.smul_x, V3.smul_y, V3.smul_z] <;> field_simp <;> ring
  · left
    rw [← hq]
    apply V3.ext <;> simp only [M3.mulVec_x, M3.mulVec_y, M3.mulVec_z, V3.smul_x, V3.smul_y, V3.smul_z] <;> field_simp <;> ring

/-- A ray that goes outwards from the wall of a pipe does not meet it again. -/
theorem pipe_leaves (hf : frame.Rigid) {S : V3 ℝ → Prop} {Z : ℝ → Prop} (hS : ∀ q, S q ↔ cylinderSet R q ∧ Z q.z)
    (hfind : ∃ p, (g.find frame [r])[0]? = some p ∧ FirstAmong (0 < ·) (Placed frame S) r.vertex r.dir p)
    (hon : V3.dot (crosswise frame.rot.c3 (r.vertex - frame.loc)) (crosswise frame.rot.c3 (r.vertex - frame.loc)) = R ^ 2)
    (hsteep : 0 < V3.dot (crosswise frame.rot.c3 r.dir) (crosswise frame.rot.c3 r.dir))
    (hout : 0 ≤ V3.dot (crosswise frame.rot.c3 (r.vertex - frame.loc)) (crosswise frame.rot.c3 r.dir)) :
    (mkSurf g opt frame : Surf σ ℝ E).single r = ⊤ := by
  obtain ⟨p, hp, hfirst⟩ := hfind
  rw [single_of_find hp]
  cases p with
  | top => rfl
  | coe t =>
    obtain ⟨h1, h2, _⟩ := hfirst
    have h1 : (0 : ℝ) < t := h1
    have h3 := ((pipe_placed hf hS _).1 h2).1
    have e1 : crosswise frame.rot.c3 (r.vertex + t • r.dir - frame.loc) =
        crosswise frame.rot.c3 (r.vertex - frame.loc) + t • crosswise frame.rot.c3 r.dir := by
      unfold crosswise V3.dot
      apply V3.ext <;> simp only [V3.add_x, V3.add_y, V3.add_z, V3.sub_x, V3.sub_y, V3.sub_z, V3.smul_x, V3.smul_y, V3.smul_z] <;> ring
    rw [e1] at h3
    generalize crosswise frame.rot.c3 (r.vertex - frame.loc) = q at *
    generalize crosswise frame.rot.c3 r.dir = v at *
    have e2 : V3.dot (q + t • v) (q + t • v) = V3.dot q q + 2 * t * V3.dot q v + t ^ 2 * V3.dot v v := by
      unfold V3.dot; simp only [V3.add_x, V3.add_y, V3.add_z, V3.smul_x, V3.smul_y, V3.smul_z]; ring
    rw [e2, hon] at h3
    have h4 : 0 < t ^ 2 * V3.dot v v := by positivity
    have h5 : 0 ≤ 2 * t * V3.dot q v := by positivity
    linarith

end

section
variable {R : ℝ} {e c : V3 ℝ} {r : Ray ℝ E} {na nb : ℝ}

theorem pipeRay_dir (a : ℝ) (k : Nat) : (pipeRay R e c a r k).dir = (pipeRay R e c 0 r k).dir := by cases k <;> rfl

/-- Where the light meets the wall. -/
theorem rod_place (hin : InPipe R e c r) (hR : 0 < R) (he : V3.dot e e = 1) (a : ℝ) (k : Nat) :
    crosswise e (pipePoint R e c r k - c) = bouncePoint R c (shadow e c r) k ∧
    V3.dot (bouncePoint R c (shadow e c r) k) (bouncePoint R c (shadow e c r) k) = R ^ 2 ∧
    V3.dot (bouncePoint R c (shadow e c r) k) e = 0 ∧
    V3.dot (bouncePoint R c (shadow e c r) k) (pipeRay R e c a r k).dir = R * rodCos R e c r ∧
    (pipeRay R e c a r k).dir.IsUnit ∧ 0 < rodCos R e c r := by
  obtain ⟨hm, hm2⟩ := hin.speed
  have hsh := hin.shadow_in
  have hc := hsh.chord
  have hs := hc.spos
  obtain ⟨f1, f2, f3, f4, _⟩ := pipeRay_facts hin hR he a k
  obtain ⟨g1, _⟩ := pipeRay_facts hin hR he a (k + 1)
  have hlen := (hc.points hR (bouncePoint R c (shadow e c r)) (fun _ => rfl) k).2.1
  have hb := bounce_flat (R := R) (c := c) (r := r) he k
  obtain ⟨t1, t2⟩ := cavityRay_turn hsh hR a k
  obtain ⟨hk, _, hhalf, _⟩ := cavityRay_inside hsh hR a k
  have halong := hk.chord.along
  rw [t1, hhalf] at halong
  refine ⟨?_, hlen, hb, ?_, ?_, by unfold rodCos; positivity⟩
  · have := g1.vertex
    have e1 : (pipeRay R e c a r (k + 1)).vertex = pipePoint R e c r k := rfl
    have e2 : (cavityRay R c a (shadow e c r) (k + 1)).vertex = c + bouncePoint R c (shadow e c r) k := rfl
    rw [e1, e2] at this
    rw [this]
    apply V3.ext <;> simp
  · rw [f3]
    have : ∀ (u q : V3 ℝ) (m z : ℝ), V3.dot q (m • u + z • e) = m * V3.dot q u + z * V3.dot q e := by
      intro u q m z; unfold V3.dot; simp only [V3.add_x, V3.add_y, V3.add_z, V3.smul_x, V3.smul_y, V3.smul_z]; ring
    rw [this, hb, halong]
    unfold rodCos
    field_simp
    ring
  · have hpy : ∀ v : V3 ℝ, V3.dot v v = V3.dot (crosswise e v) (crosswise e v) + V3.dot v e ^ 2 := by
      intro v
      unfold crosswise
      generalize hz : V3.dot v e = z
      have : V3.dot (v - z • e) (v - z • e) = V3.dot v v - 2 * z * V3.dot v e + z ^ 2 * V3.dot e e := by
        unfold V3.dot; simp only [V3.sub_x, V3.sub_y, V3.sub_z, V3.smul_x, V3.smul_y, V3.smul_z]; ring
      rw [this, hz, he]; ring
    have hru : V3.dot r.dir r.dir = 1 := hin.unit
    have hu := hk.unit
    show V3.dot (pipeRay R e c a r k).dir (pipeRay R e c a r k).dir = 1
    rw [hpy, f1.dir, f2, moment_smul_sq, show V3.dot (cavityRay R c a (shadow e c r) k).dir (cavityRay R c a (shadow e c r) k).dir = 1 from hu,
      mul_one, hm2, ← hpy, hru]

/-- ... in terms of the moment about the axis. -/
theorem rod_moment (hin : InPipe R e c r) (hR : 0 < R) (he : V3.dot e e = 1) (ha : 0 < na) (a : ℝ) (k : Nat) :
    V3.dot (V3.cross (bouncePoint R c (shadow e c r) k) (pipeRay R e c a r k).dir) (V3.cross (bouncePoint R c (shadow e c r) k) (pipeRay R e c a r k).dir) =
      R ^ 2 * (1 - rodCos R e c r ^ 2) ∧
    (nb ^ 2 * (R ^ 2 * (1 - rodCos R e c r ^ 2)) ≤ na ^ 2 * R ^ 2 ↔ Escapes R e c na nb r) ∧
    √(R ^ 2 - (nb / na) ^ 2 * (R ^ 2 * (1 - rodCos R e c r ^ 2))) = R * rodCosOut R e c na nb r := by
  obtain ⟨_, p2, _, p4, p5, _⟩ := rod_place hin hR he a k
  refine ⟨?_, ?_, ?_⟩
  · rw [cross_lagrange, p2, p4, show V3.dot (pipeRay R e c a r k).dir (pipeRay R e c a r k).dir = 1 from p5]; ring
  · unfold Escapes
    have hR2 : 0 < R ^ 2 := by positivity
    constructor
    · intro h
      refine le_of_mul_le_mul_right ?_ hR2
      linarith
    · intro h
      have := mul_le_mul_of_nonneg_right h hR2.le
      linarith
  · unfold rodCosOut
    rw [show R ^ 2 - (nb / na) ^ 2 * (R ^ 2 * (1 - rodCos R e c r ^ 2)) = R ^ 2 * (1 - (nb / na) ^ 2 * (1 - rodCos R e c r ^ 2)) by ring,
      Real.sqrt_mul (by positivity), Real.sqrt_sq hR.le]

theorem rodCosOut_sq (ha : 0 < na) (h : Escapes R e c na nb r) : rodCosOut R e c na nb r ^ 2 = 1 - (nb / na) ^ 2 * (1 - rodCos R e c r ^ 2) := by
  unfold Escapes at h
  refine Real.sq_sqrt ?_
  rw [div_pow, div_mul_eq_mul_div, sub_nonneg, div_le_one (by positivity)]
  exact h

/-- What gets out. -/
theorem rodExit_facts (hin : InPipe R e c r) (hR : 0 < R) (he : V3.dot e e = 1) (ha : 0 < na) (hesc : Escapes R e c na nb r) (k : Nat) :
    (rodExit R e c na nb r k).dir.IsUnit ∧
    V3.dot (bouncePoint R c (shadow e c r) k) (rodExit R e c na nb r k).dir = R * rodCosOut R e c na nb r ∧
    V3.dot (rodExit R e c na nb r k).dir e = nb / na * V3.dot r.dir e := by
  obtain ⟨_, p2, p3, p4, p5, _⟩ := rod_place hin hR he 0 k
  obtain ⟨_, f2, _⟩ := pipeRay_facts hin hR he 0 k
  have hsq := rodCosOut_sq ha hesc
  have hd : (rodExit R e c na nb r k).dir = (nb / na) • ((pipeRay R e c 0 r k).dir - rodCos R e c r • rodNormal R e c r k) +
      rodCosOut R e c na nb r • rodNormal R e c r k := rfl
  rw [hd]
  unfold rodNormal
  generalize rodCosOut R e c na nb r = κ at *
  generalize rodCos R e c r = χ at *
  generalize bouncePoint R c (shadow e c r) k = q at *
  generalize (pipeRay R e c 0 r k).dir = d at *
  have p5 : V3.dot d d = 1 := p5
  have e1 : V3.dot q ((nb / na) • (d - χ • (1 / R) • q) + κ • (1 / R) • q) = nb / na * (V3.dot q d - χ / R * V3.dot q q) + κ / R * V3.dot q q := by
    unfold V3.dot; simp only [V3.add_x, V3.add_y, V3.add_z, V3.sub_x, V3.sub_y, V3.sub_z, V3.smul_x, V3.smul_y, V3.smul_z]; ring
  have e2 : V3.dot ((nb / na) • (d - χ • (1 / R) • q) + κ • (1 / R) • q) ((nb / na) • (d - χ • (1 / R) • q) + κ • (1 / R) • q) =
      (nb / na) ^ 2 * (V3.dot d d - 2 * (χ / R) * V3.dot q d + (χ / R) ^ 2 * V3.dot q q) +
        2 * (nb / na) * (κ / R) * (V3.dot q d - χ / R * V3.dot q q) + (κ / R) ^ 2 * V3.dot q q := by
    unfold V3.dot; simp only [V3.add_x, V3.add_y, V3.add_z, V3.sub_x, V3.sub_y, V3.sub_z, V3.smul_x, V3.smul_y, V3.smul_z]; ring
  have e3 : V3.dot ((nb / na) • (d - χ • (1 / R) • q) + κ • (1 / R) • q) e = nb / na * V3.dot d e + (κ / R - nb / na * (χ / R)) * V3.dot q e := by
    unfold V3.dot; simp only [V3.add_x, V3.add_y, V3.add_z, V3.sub_x, V3.sub_y, V3.sub_z, V3.smul_x, V3.smul_y, V3.smul_z]; ring
  refine ⟨?_, ?_, ?_⟩
  · show V3.dot _ _ = 1
    rw [e2, p2, p4, p5]
    have : (nb / na) ^ 2 * (1 - 2 * (χ / R) * (R * χ) + (χ / R) ^ 2 * R ^ 2) + 2 * (nb / na) * (κ / R) * (R * χ - χ / R * R ^ 2) + (κ / R) ^ 2 * R ^ 2 =
        (nb / na) ^ 2 * (1 - χ ^ 2) + κ ^ 2 := by field_simp; ring
    rw [this, hsq]; ring
  · rw [e1, p2, p4]; field_simp; ring
  · rw [e3, p3, f2]; ring

end

section
variable {R : ℝ} {g : Geometry ℝ E} {frame : Tf ℝ} {r : Ray ℝ E} {n1 n2 na nb : ℝ}

theorem tail_eq (q d : V3 ℝ) (hR : 0 < R) (hq : V3.dot q q = R ^ 2) {χ κ x : ℝ} (hχ : V3.dot q d = R * χ) :
    withMoment R q (x • V3.cross q d) (R * κ) = x • (d - χ • (1 / R) • q) + κ • (1 / R) • q := by
  have hcr : V3.cross (x • V3.cross q d) q = x • (R ^ 2 • d - (R * χ) • q) := by
    rw [← hq, ← hχ]
    unfold V3.cross V3.dot
    apply V3.ext <;> simp only [V3.sub_x, V3.sub_y, V3.sub_z, V3.smul_x, V3.smul_y, V3.smul_z] <;> ring
  unfold withMoment
  rw [hcr]
  apply V3.ext <;> simp only [V3.add_x, V3.add_y, V3.add_z, V3.sub_x, V3.sub_y, V3.sub_z, V3.smul_x, V3.smul_y, V3.smul_z] <;> field_simp

open Classical in
/-- What a ray inside the rod becomes, time after time. -/
theorem rod_alone {f} (hper : g.PerRay f) (hn : g.normal = cylinderNormal) (hf : frame.Rigid) (hR : 0 < R) (h1 : 0 < n1) (h2 : 0 < n2) (hne : n1 ≠ n2)
    (hab : na = n1 ∧ nb = n2 ∨ na = n2 ∧ nb = n1) (w : σ) (hin : InPipe R frame.rot.c3 frame.loc r) (hr : r.ref = some nb) (k : Nat) {t : ℝ}
    (hs : (mkSurf g (refractiveHomogenous n1 n2) frame : Surf σ ℝ E).single
      (pipeRay R frame.rot.c3 frame.loc (1 - rodShare R frame.rot.c3 frame.loc na nb r) r k) = (t : WithTop ℝ))
    (ht : (pipeRay R frame.rot.c3 frame.loc (1 - rodShare R frame.rot.c3 frame.loc na nb r) r k).at t = pipePoint R frame.rot.c3 frame.loc r k) :
    (mkSurf g (refractiveHomogenous n1 n2) frame).alone w (pipeRay R frame.rot.c3 frame.loc (1 - rodShare R frame.rot.c3 frame.loc na nb r) r k) =
      pipeRay R frame.rot.c3 frame.loc (1 - rodShare R frame.rot.c3 frame.loc na nb r) r (k + 1) ::
        (if Escapes R frame.rot.c3 frame.loc na nb r then [rodExit R frame.rot.c3 frame.loc na nb r k] else []) := by
  have he := axis_unit hf
  have hna : 0 < na := by rcases hab with ⟨rfl, _⟩ | ⟨rfl, _⟩ <;> assumption
  have hab' : nb = n1 ∧ na = n2 ∨ nb = n2 ∧ na = n1 := by tauto
  generalize hsh : rodShare R frame.rot.c3 frame.loc na nb r = s at *
  obtain ⟨p1, p2, p3, p4, p5, p6⟩ := rod_place hin hR he (1 - s) k
  obtain ⟨m1, m2, m3⟩ := rod_moment (na := na) (nb := nb) hin hR he hna (1 - s) k
  have hρ : (pipeRay R frame.rot.c3 frame.loc (1 - s) r k).ref = some nb := by cases k <;> exact hr
  have hN := cylinder_radial (d := (pipeRay R frame.rot.c3 frame.loc (1 - s) r k).dir) hf hR (p := pipePoint R frame.rot.c3 frame.loc r k) (by rw [p1]; exact p2)
  rw [p1, ← ht, ← hn] at hN
  have hnext := pipeRay_next hf hR hn hin (1 - s) k
  have hdir : withMoment R (bouncePoint R frame.loc (shadow frame.rot.c3 frame.loc r) k)
      (V3.cross (bouncePoint R frame.loc (shadow frame.rot.c3 frame.loc r) k) (pipeRay R frame.rot.c3 frame.loc (1 - s) r k).dir)
      (-V3.dot (bouncePoint R frame.loc (shadow frame.rot.c3 frame.loc r) k) (pipeRay R frame.rot.c3 frame.loc (1 - s) r k).dir) =
      (pipeRay R frame.rot.c3 frame.loc (1 - s) r (k + 1)).dir := by
    rw [← radial_reflection hR p2 hN, ht]
    exact congrArg Ray.dir hnext
  have hen : (pipeRay R frame.rot.c3 frame.loc (1 - s) r k).energy = r.energy * s ^ k := by
    cases k with
    | zero => simp [pipeRay]
    | succ k =>
      show r.energy * (1 - (1 - s)) ^ (k + 1) = _
      rw [sub_sub_cancel]
  have hen' : (pipeRay R frame.rot.c3 frame.loc (1 - s) r (k + 1)).energy = r.energy * s ^ k * s := by
    show r.energy * (1 - (1 - s)) ^ (k + 1) = _
    rw [sub_sub_cancel]; ring
  have hrefl : reflectance nb na (R * rodCos R frame.rot.c3 frame.loc r) (R * rodCosOut R frame.rot.c3 frame.loc na nb r) =
      reflectance nb na (rodCos R frame.rot.c3 frame.loc r) (rodCosOut R frame.rot.c3 frame.loc na nb r) := by
    rw [← reflectance_scale hR.ne', mul_div_cancel_left₀ _ hR.ne', mul_div_cancel_left₀ _ hR.ne']
  rw [radial_alone hper h1 h2 hne hab' w p5 hρ hs hR p2 (by rw [p4]; positivity) hN]
  simp only [m1, m2, m3]
  rw [hdir, p4, hrefl, ht, hen]
  by_cases hesc : Escapes R frame.rot.c3 frame.loc na nb r
  · have hs' : reflectance nb na (rodCos R frame.rot.c3 frame.loc r) (rodCosOut R frame.rot.c3 frame.loc na nb r) = s := by
      rw [← hsh]; unfold rodShare; rw [if_pos hesc]
    rw [if_pos hesc, if_pos hesc, hs', ← hen', if_pos hesc, tail_eq _ _ hR p2 p4, pipeRay_dir]
    unfold rodExit
    rw [hsh]
    cases k <;> rfl
  · have hs' : s = 1 := by rw [← hsh]; unfold rodShare; rw [if_neg hesc]
    rw [if_neg hesc, if_neg hesc, if_neg hesc]
    have : r.energy * s ^ k * 1 = (pipeRay R frame.rot.c3 frame.loc (1 - s) r (k + 1)).energy := by rw [hen', hs']
    rw [this]
    cases k <;> rfl

end

end Tracer
