import Verif.Lemmas.Rod
import Verif.Props.Pipe
import Verif.Props.Heliostats

/-!
# Light in a round rod of glass (C93)

A cylinder with refracting optics, infinite or of finite length, and a source inside.
-/

namespace Tracer

variable {E σ : Type _}

section
variable {R : ℝ} {e c : V3 ℝ} {r : Ray ℝ E} {na nb : ℝ}

/-- C93: wherever it meets the wall, the light makes the same angle with the normal, and what gets out obeys Snell's law. -/
theorem C93_angles (hR : 0 < R) (he : e.IsUnit) (ha : 0 < na) (hin : InPipe R e c r) (a : ℝ) (k : Nat) :
    (rodNormal R e c r k).IsUnit ∧ V3.dot (rodNormal R e c r k) e = 0 ∧
    pipePoint R e c r k = c + pipeHeight R e c r k • e + R • rodNormal R e c r k ∧
    V3.dot (rodNormal R e c r k) (pipeRay R e c a r k).dir = rodCos R e c r ∧ 0 < rodCos R e c r ∧
    (Escapes R e c na nb r → (rodExit R e c na nb r k).dir.IsUnit ∧ 0 ≤ V3.dot (rodNormal R e c r k) (rodExit R e c na nb r k).dir ∧
      na • V3.cross (rodNormal R e c r k) (rodExit R e c na nb r k).dir = nb • V3.cross (rodNormal R e c r k) (pipeRay R e c a r k).dir) := by
  obtain ⟨p1, p2, p3, p4, p5, p6⟩ := rod_place hin hR he a k
  have hdot : ∀ v, V3.dot (rodNormal R e c r k) v = V3.dot (bouncePoint R c (shadow e c r) k) v / R := fun v => radial_dot v
  refine ⟨radial_unit hR p2 (Or.inl rfl), by rw [hdot, p3, zero_div], ?_, by rw [hdot, p4]; field_simp, p6, fun h => ?_⟩
  · unfold pipePoint rodNormal
    apply V3.ext <;> simp only [V3.add_x, V3.add_y, V3.add_z, V3.smul_x, V3.smul_y, V3.smul_z] <;> field_simp <;> ring
  · obtain ⟨f1, f2, _⟩ := rodExit_facts hin hR he ha h k
    refine ⟨f1, ?_, ?_⟩
    · rw [hdot, f2, mul_div_cancel_left₀ _ hR.ne']; exact Real.sqrt_nonneg _
    · have hd : (rodExit R e c na nb r k).dir = (nb / na) • ((pipeRay R e c a r k).dir - rodCos R e c r • rodNormal R e c r k) +
          rodCosOut R e c na nb r • rodNormal R e c r k := by rw [pipeRay_dir]; rfl
      rw [hd]
      generalize rodNormal R e c r k = n
      generalize (pipeRay R e c a r k).dir = d
      unfold V3.cross
      apply V3.ext <;> simp only [V3.add_x, V3.add_y, V3.add_z, V3.sub_x, V3.sub_y, V3.sub_z, V3.smul_x, V3.smul_y, V3.smul_z] <;> field_simp <;> ring

/-- C93: light whose angle `θ` with the axis has `nb² sin² θ < nb² - na²` is guided, wherever it is and whether or not it meets the axis. -/
theorem C93_guiding (hR : 0 < R) (hin : InPipe R e c r)
    (h : nb ^ 2 * V3.dot (crosswise e r.dir) (crosswise e r.dir) < nb ^ 2 - na ^ 2) : ¬ Escapes R e c na nb r := by
  obtain ⟨hm, hm2⟩ := hin.speed
  have hc := hin.shadow_in.chord
  have hs : halfChord R c (shadow e c r) ^ 2 ≤ R ^ 2 := by
    have h0 : 0 ≤ missSq c (shadow e c r) := by
      exact dot_self_nonneg _
    by_cases hle : missSq c (shadow e c r) ≤ R ^ 2
    · rw [show halfChord R c (shadow e c r) ^ 2 = R ^ 2 - missSq c (shadow e c r) from Real.sq_sqrt (by linarith)]; linarith
    · have : halfChord R c (shadow e c r) = 0 := Real.sqrt_eq_zero_of_nonpos (by linarith)
      rw [this, zero_pow two_ne_zero]; positivity
  have hcos : rodCos R e c r ^ 2 ≤ V3.dot (crosswise e r.dir) (crosswise e r.dir) := by
    unfold rodCos
    rw [div_pow, div_le_iff₀ (by positivity), mul_pow, hm2]
    exact mul_le_mul_of_nonneg_left hs (by rw [← hm2]; positivity)
  unfold Escapes
  intro hesc
  have := mul_le_mul_of_nonneg_left hcos (sq_nonneg nb)
  linarith

/-- C93: for light that meets the axis, the condition is exact. -/
theorem C93_meridional (hR : 0 < R) (hin : InPipe R e c r) (hax : missSq c (shadow e c r) = 0) :
    ¬ Escapes R e c na nb r ↔ nb ^ 2 * V3.dot (crosswise e r.dir) (crosswise e r.dir) < nb ^ 2 - na ^ 2 := by
  have hh : halfChord R c (shadow e c r) = R := by unfold halfChord; rw [hax, sub_zero, Real.sqrt_sq hR.le]
  have hcos : rodCos R e c r ^ 2 = V3.dot (crosswise e r.dir) (crosswise e r.dir) := by
    unfold rodCos
    rw [hh, mul_div_cancel_right₀ _ hR.ne', hin.speed.2]
  unfold Escapes
  rw [hcos, not_le]
  constructor <;> intro h <;> linarith

theorem crosswise_sq (he : V3.dot e e = 1) (v : V3 ℝ) : V3.dot (crosswise e v) (crosswise e v) = V3.dot (V3.cross e v) (V3.cross e v) := by
  rw [cross_lagrange, he]
  unfold crosswise
  rw [V3.dot_comm' e v]
  generalize hz : V3.dot v e = z
  have : V3.dot (v - z • e) (v - z • e) = V3.dot v v - 2 * z * V3.dot v e + z ^ 2 * V3.dot e e := by
    unfold V3.dot; simp only [V3.sub_x, V3.sub_y, V3.sub_z, V3.smul_x, V3.smul_y, V3.smul_z]; ring
  rw [this, hz, he]; ring

/-- C93: the numerical aperture.  Light that falls on a flat end of the rod from outside in the direction `d`, and is refracted there by Snell's law, is guided if the sine of
its angle with the axis, times the index outside, is less than the square root of the difference of the squares of the indices. -/
theorem C93_aperture (hR : 0 < R) (he : e.IsUnit) (ha : 0 < na) {d : V3 ℝ} (hin : InPipe R e c r)
    (hr : Snell na nb d e r.dir) (h : na * √(V3.dot (V3.cross d e) (V3.cross d e)) < √(nb ^ 2 - na ^ 2)) :
    ¬ Escapes R e c na nb r := by
  refine C93_guiding hR hin ?_
  have hpos : 0 ≤ V3.dot (V3.cross d e) (V3.cross d e) := dot_self_nonneg _
  have h2 : (na * √(V3.dot (V3.cross d e) (V3.cross d e))) ^ 2 < nb ^ 2 - na ^ 2 := by
    have h0 : 0 ≤ na * √(V3.dot (V3.cross d e) (V3.cross d e)) := by positivity
    rwa [← Real.lt_sqrt h0]
  rw [mul_pow, Real.sq_sqrt hpos, ← moment_smul_sq, hr.law, moment_smul_sq] at h2
  rw [crosswise_sq he]
  have hc : V3.dot (V3.cross e r.dir) (V3.cross e r.dir) = V3.dot (V3.cross r.dir e) (V3.cross r.dir e) := by
    unfold V3.dot V3.cross; ring
  rw [hc]
  exact h2

/-- C93: what has got out of the rod by the reflection `n`, and what is still in it, are together the light that was there. -/
theorem C93_energy (n : Nat) :
    ((List.range n).map fun k => (rodExit R e c na nb r k).energy).sum + (pipeRay R e c (1 - rodShare R e c na nb r) r n).energy = r.energy := by
  have hen : ∀ k, (pipeRay R e c (1 - rodShare R e c na nb r) r k).energy = r.energy * rodShare R e c na nb r ^ k := by
    intro k
    cases k with
    | zero => simp [pipeRay]
    | succ k =>
      show r.energy * (1 - (1 - rodShare R e c na nb r)) ^ (k + 1) = _
      rw [sub_sub_cancel]
  have hex : ∀ k, (rodExit R e c na nb r k).energy = r.energy * rodShare R e c na nb r ^ k * (1 - rodShare R e c na nb r) := fun k => rfl
  simp only [hex, hen]
  generalize rodShare R e c na nb r = s
  induction n with
  | zero => simp
  | succ n ih =>
    rw [List.range_succ, List.map_append, List.sum_append]
    simp only [List.map_cons, List.map_nil, List.sum_cons, List.sum_nil]
    rw [pow_succ]
    linear_combination ih

end

section
variable {g : Geometry ℝ E} {frame : Tf ℝ} {n1 n2 na nb : ℝ}

open Classical in
/-- What a rod of glass makes of the rays inside it. -/
theorem rod_fans {R : ℝ} (hR : 0 < R) (hf : frame.Rigid) {S : V3 ℝ → Prop} {Z : ℝ → Prop} (hS : ∀ q, S q ↔ cylinderSet R q ∧ Z q.z)
    (hfind : ∀ r : Ray ℝ E, 1 / 10 ^ 10 < offAxis frame r.dir → ∃ p, (g.find frame [r])[0]? = some p ∧ FirstAmong (0 < ·) (Placed frame S) r.vertex r.dir p)
    (hper : ∃ f, g.PerRay f) (hn : g.normal = cylinderNormal) (h1 : 0 < n1) (h2 : 0 < n2) (hne : n1 ≠ n2)
    (hab : na = n1 ∧ nb = n2 ∨ na = n2 ∧ nb = n1) (w : σ) {b : Bundle ℝ E} (hin : ∀ r ∈ b, InRod R frame.rot.c3 frame.loc na nb r) :
    LeavingFans (mkSurf g (refractiveHomogenous n1 n2) frame) w b (fun r k => decide (Z (pipeHeight R frame.rot.c3 frame.loc r k)))
      (fun r k => pipeRay R frame.rot.c3 frame.loc (1 - rodShare R frame.rot.c3 frame.loc na nb r) r k)
      (fun r k => pipeRay R frame.rot.c3 frame.loc (1 - rodShare R frame.rot.c3 frame.loc na nb r) r (k + 1) ::
        (if Escapes R frame.rot.c3 frame.loc na nb r then [rodExit R frame.rot.c3 frame.loc na nb r k] else []))
      (fun r k => wayToWall R frame.loc (cavityRay R frame.loc (1 - rodShare R frame.rot.c3 frame.loc na nb r) (shadow frame.rot.c3 frame.loc r) k) /
        crossSpeed frame.rot.c3 r) := by
  have he := axis_unit hf
  obtain ⟨f, hper⟩ := hper
  have hna : 0 < na := by rcases hab with ⟨rfl, _⟩ | ⟨rfl, _⟩ <;> assumption
  have hs : ∀ r ∈ b, ∀ k, ∀ a : ℝ, (Z (pipeHeight R frame.rot.c3 frame.loc r k) →
      (mkSurf g (refractiveHomogenous n1 n2) frame : Surf σ ℝ E).single (pipeRay R frame.rot.c3 frame.loc a r k) =
        ((wayToWall R frame.loc (cavityRay R frame.loc a (shadow frame.rot.c3 frame.loc r) k) / crossSpeed frame.rot.c3 r : ℝ) : WithTop ℝ)) ∧
      (¬ Z (pipeHeight R frame.rot.c3 frame.loc r k) → (mkSurf g (refractiveHomogenous n1 n2) frame : Surf σ ℝ E).single (pipeRay R frame.rot.c3 frame.loc a r k) = ⊤) := by
    intro r hr k a
    have hpi := (hin r hr).toInPipe
    obtain ⟨hm, hm2⟩ := hpi.speed
    obtain ⟨f1, _, _, f4, _⟩ := pipeRay_facts hpi hR he a k
    have hk := (cavityRay_inside hpi.shadow_in hR a k).1
    have hoff : 1 / 10 ^ 10 < offAxis frame (pipeRay R frame.rot.c3 frame.loc a r k).dir := by
      rw [offAxis_eq hf, f1.dir, moment_smul_sq, show V3.dot (cavityRay R frame.loc a (shadow frame.rot.c3 frame.loc r) k).dir
        (cavityRay R frame.loc a (shadow frame.rot.c3 frame.loc r) k).dir = 1 from hk.unit, mul_one, hm2]
      exact hpi.steep
    have := pipe_single (σ := σ) (opt := refractiveHomogenous n1 n2) hf hS (hfind _ hoff) hm hk f1
    rw [f4, height_of_point he] at this
    exact this
  refine ⟨fun _ _ => rfl, fun r hr k hh => ?_, fun r hr k hh => (hs r hr k _).2 (by simpa using hh), fun r hr k => ⟨[], _, rfl, ?_⟩⟩
  · have hpi := (hin r hr).toInPipe
    have hz : Z (pipeHeight R frame.rot.c3 frame.loc r k) := by simpa using hh
    have h3 := (hs r hr k (1 - rodShare R frame.rot.c3 frame.loc na nb r)).1 hz
    obtain ⟨hm, _⟩ := hpi.speed
    obtain ⟨_, _, _, f4, _⟩ := pipeRay_facts hpi hR he (1 - rodShare R frame.rot.c3 frame.loc na nb r) k
    refine ⟨h3, ?_, rod_alone hper hn hf hR h1 h2 hne hab w hpi (hin r hr).medium k h3 f4⟩
    rw [lt_div_iff₀ hm]
    have := (cavityRay_inside hpi.shadow_in hR (1 - rodShare R frame.rot.c3 frame.loc na nb r) k).1.far
    linarith
  · intro x hx
    rw [List.nil_append] at hx
    split at hx
    · rename_i hesc
      rw [List.mem_singleton] at hx
      subst hx
      have hpi := (hin r hr).toInPipe
      obtain ⟨p1, p2, _⟩ := rod_place hpi hR he 0 k
      obtain ⟨e1, e2, e3⟩ := rodExit_facts hpi hR he hna hesc k
      have hv : (rodExit R frame.rot.c3 frame.loc na nb r k).vertex = pipePoint R frame.rot.c3 frame.loc r k := rfl
      have hcr : V3.dot (crosswise frame.rot.c3 (rodExit R frame.rot.c3 frame.loc na nb r k).dir) (crosswise frame.rot.c3 (rodExit R frame.rot.c3 frame.loc na nb r k).dir) =
          1 - (nb / na * V3.dot r.dir frame.rot.c3) ^ 2 := by
        rw [crosswise_sq he, cross_lagrange, he, show V3.dot (rodExit R frame.rot.c3 frame.loc na nb r k).dir (rodExit R frame.rot.c3 frame.loc na nb r k).dir = 1 from e1,
          V3.dot_comm' frame.rot.c3, e3]
        ring
      have hst := (hin r hr).steepOut hesc
      rw [← hcr] at hst
      refine pipe_leaves hf hS (hfind _ (by rw [offAxis_eq hf]; exact hst)) (by rw [hv, p1]; exact p2) (lt_trans (by norm_num) hst) ?_
      rw [hv, p1]
      have : V3.dot (bouncePoint R frame.loc (shadow frame.rot.c3 frame.loc r) k) (crosswise frame.rot.c3 (rodExit R frame.rot.c3 frame.loc na nb r k).dir) =
          V3.dot (bouncePoint R frame.loc (shadow frame.rot.c3 frame.loc r) k) (rodExit R frame.rot.c3 frame.loc na nb r k).dir := by
        have hb := bounce_flat (R := R) (c := frame.loc) (r := r) he k
        unfold crosswise
        generalize V3.dot (rodExit R frame.rot.c3 frame.loc na nb r k).dir frame.rot.c3 = z
        have : ∀ q d : V3 ℝ, V3.dot q (d - z • frame.rot.c3) = V3.dot q d - z * V3.dot q frame.rot.c3 := by
          intro q d; unfold V3.dot; simp only [V3.sub_x, V3.sub_y, V3.sub_z, V3.smul_x, V3.smul_y, V3.smul_z]; ring
        rw [this, hb]; ring
      rw [this, e2]
      exact mul_nonneg hR.le (Real.sqrt_nonneg _)
    · simp at hx

theorem followed_rod {R : ℝ} (e c : V3 ℝ) {minE : ℝ} {hits : Ray ℝ E → Nat → Bool} {k : Nat} {r : Ray ℝ E}
    (hmono : hits r k = true → ∀ j ≤ k, hits r j = true) :
    (followed minE hits (fun r k => pipeRay R e c (1 - rodShare R e c na nb r) r k) k r && hits r k) = (tracedInRod R e c na nb minE k r && hits r k) := by
  have := followed_pipe (R := R) (a := 1 - rodShare R e c na nb r) e c (minE := minE) hmono
  have h2 : stillTraced (1 - rodShare R e c na nb r) minE k r = tracedInRod R e c na nb minE k r := by
    unfold stillTraced tracedInRod
    rw [sub_sub_cancel]
  rw [h2] at this
  exact this

theorem rod_legal {R : ℝ} {e c : V3 ℝ} (hab : na = n1 ∧ nb = n2 ∨ na = n2 ∧ nb = n1) {b : Bundle ℝ E} (hin : ∀ r ∈ b, InRod R e c na nb r) :
    ∀ r ∈ b, LegalRay n1 n2 r := by
  intro r hr
  refine ⟨(hin r hr).unit, ?_⟩
  rw [(hin r hr).medium]
  rcases hab with ⟨_, h⟩ | ⟨_, h⟩
  · exact Or.inr (by rw [h])
  · exact Or.inl (by rw [h])

open Classical in
/-- C93: a rod of glass without ends.  It is traced without an exception, whichever way round the two indices are given, and the recorded bundles are what is in the rod and, if the light is
not beyond the critical angle, what gets out, which never meets the rod again. -/
theorem C93_infinite {diameter : ℝ} (hD : 0 < diameter) (hf : frame.Rigid) (h1 : 0 < n1) (h2 : 0 < n2) (hne : n1 ≠ n2)
    (hab : na = n1 ∧ nb = n2 ∨ na = n2 ∧ nb = n1) (w : σ) {b : Bundle ℝ E}
    (hin : ∀ r ∈ b, InRod (diameter / 2) frame.rot.c3 frame.loc na nb r) (reps : Nat) (minE : ℝ) :
    ∃ res, rayTracer [⟨[mkSurf (infiniteCylinderGM diameter) (refractiveHomogenous n1 n2) frame], Obj.defaultOwn, Obj.defaultNext 1⟩] w b reps minE true = .ok res ∧
      ∀ k < reps, (((res.tree[k + 1]?).getD []).map Ray.strip).Perm
        ((b.filter (tracedInRod (diameter / 2) frame.rot.c3 frame.loc na nb minE k)).flatMap fun r =>
          (pipeRay (diameter / 2) frame.rot.c3 frame.loc (1 - rodShare (diameter / 2) frame.rot.c3 frame.loc na nb r) r (k + 1)).strip ::
            (if Escapes (diameter / 2) frame.rot.c3 frame.loc na nb r then [(rodExit (diameter / 2) frame.rot.c3 frame.loc na nb r k).strip] else [])) := by
  obtain ⟨res, hres⟩ := lone_refracting (.cylinder diameter hD) h1 h2 hne hf w (rod_legal hab hin) reps minE
  refine ⟨res, hres, fun k hk => ?_⟩
  have ho := rod_fans (g := infiniteCylinderGM diameter) (Z := fun _ => True) (S := cylinderSet (diameter / 2)) (by positivity) hf (fun q => by simp)
    (fun r h => by
      obtain ⟨p, h1, h2, _⟩ := C35_infinite_cylinder hf diameter [r] 0 r rfl
      exact ⟨p, h1, h2 h⟩) (PlainGeometry.cylinder diameter hD).perRay rfl h1 h2 hne hab w hin
  have := C84_specular (lone_plain _) (lone_specular (.cylinder diameter hD)) hres (k := k + 1) hk
  refine this.trans (List.Perm.of_eq ?_)
  rw [leaving_generation ho k, List.map_flatMap]
  have hfil : ∀ hits : Ray ℝ E → Nat → Bool, (∀ r k, hits r k = true) →
      b.filter (fun r => followed minE hits (fun r k => pipeRay (diameter / 2) frame.rot.c3 frame.loc (1 - rodShare (diameter / 2) frame.rot.c3 frame.loc na nb r) r k) k r && hits r k) =
        b.filter (tracedInRod (diameter / 2) frame.rot.c3 frame.loc na nb minE k) := by
    intro hits hh
    refine List.filter_congr fun r _ => ?_
    rw [followed_rod frame.rot.c3 frame.loc (fun _ j _ => hh r j), hh, Bool.and_true]
  rw [hfil _ (fun r k => by simp)]
  refine List.flatMap_congr fun r _ => ?_
  rw [List.map_map, List.map_cons]
  split <;> rfl

open Classical in
/-- C93: a rod of finite length, without end faces.  The recorded bundles are made of the rays that meet the wall within its length; all others have left at an end. -/
theorem C93_finite {diameter height : ℝ} (hD : 0 < diameter) (hf : frame.Rigid) (h1 : 0 < n1) (h2 : 0 < n2) (hne : n1 ≠ n2)
    (hab : na = n1 ∧ nb = n2 ∨ na = n2 ∧ nb = n1) (w : σ) {b : Bundle ℝ E}
    (hin : ∀ r ∈ b, InRod (diameter / 2) frame.rot.c3 frame.loc na nb r) (hends : ∀ r ∈ b, |V3.dot (r.vertex - frame.loc) frame.rot.c3| ≤ height / 2)
    (reps : Nat) (minE : ℝ) :
    ∃ res, rayTracer [⟨[mkSurf (finiteCylinderGM diameter height) (refractiveHomogenous n1 n2) frame], Obj.defaultOwn, Obj.defaultNext 1⟩] w b reps minE true = .ok res ∧
      ∀ k < reps, (((res.tree[k + 1]?).getD []).map Ray.strip).Perm
        ((b.filter fun r => tracedInRod (diameter / 2) frame.rot.c3 frame.loc na nb minE k r &&
            decide (|pipeHeight (diameter / 2) frame.rot.c3 frame.loc r k| ≤ height / 2)).flatMap fun r =>
          (pipeRay (diameter / 2) frame.rot.c3 frame.loc (1 - rodShare (diameter / 2) frame.rot.c3 frame.loc na nb r) r (k + 1)).strip ::
            (if Escapes (diameter / 2) frame.rot.c3 frame.loc na nb r then [(rodExit (diameter / 2) frame.rot.c3 frame.loc na nb r k).strip] else [])) := by
  obtain ⟨res, hres⟩ := lone_refracting (.finiteCylinder diameter height hD) h1 h2 hne hf w (rod_legal hab hin) reps minE
  refine ⟨res, hres, fun k hk => ?_⟩
  have ho := rod_fans (g := finiteCylinderGM diameter height) (Z := fun z => |z| ≤ height / 2) (S := finiteCylinderSet (diameter / 2) height)
    (by positivity) hf (fun q => Iff.rfl)
    (fun r h => by
      obtain ⟨p, h1, h2, _⟩ := C35_finite_cylinder hf diameter height [r] 0 r rfl
      exact ⟨p, h1, h2 h⟩) (PlainGeometry.finiteCylinder diameter height hD).perRay rfl h1 h2 hne hab w hin
  have := C84_specular (lone_plain _) (lone_specular (.finiteCylinder diameter height hD)) hres (k := k + 1) hk
  refine this.trans (List.Perm.of_eq ?_)
  rw [leaving_generation ho k, List.map_flatMap]
  have hfil : ∀ hits : Ray ℝ E → Nat → Bool, (∀ r k, hits r k = true ↔ |pipeHeight (diameter / 2) frame.rot.c3 frame.loc r k| ≤ height / 2) →
      b.filter (fun r => followed minE hits (fun r k => pipeRay (diameter / 2) frame.rot.c3 frame.loc (1 - rodShare (diameter / 2) frame.rot.c3 frame.loc na nb r) r k) k r && hits r k) =
        b.filter (fun r => tracedInRod (diameter / 2) frame.rot.c3 frame.loc na nb minE k r &&
          decide (|pipeHeight (diameter / 2) frame.rot.c3 frame.loc r k| ≤ height / 2)) := by
    intro hits hh
    refine List.filter_congr fun r hr => ?_
    rw [followed_rod frame.rot.c3 frame.loc (fun h j hj => (hh r j).2 (inside_before (hin r hr).toInPipe (hends r hr) hj ((hh r k).1 h)))]
    congr 1
    rw [Bool.eq_iff_iff, hh]
    simp
  rw [hfil _ (fun r k => by simp)]
  refine List.flatMap_congr fun r _ => ?_
  rw [List.map_map, List.map_cons]
  split <;> rfl

/-- C93: light beyond the critical angle is guided along the rod, for however many reflections, with all its energy. -/
theorem C93_guided {diameter : ℝ} (hD : 0 < diameter) (hf : frame.Rigid) (h1 : 0 < n1) (h2 : 0 < n2) (hne : n1 ≠ n2)
    (hab : na = n1 ∧ nb = n2 ∨ na = n2 ∧ nb = n1) (w : σ) {b : Bundle ℝ E}
    (hin : ∀ r ∈ b, InRod (diameter / 2) frame.rot.c3 frame.loc na nb r) (hT : ∀ r ∈ b, ¬ Escapes (diameter / 2) frame.rot.c3 frame.loc na nb r)
    (reps : Nat) {minE : ℝ} (hE : ∀ r ∈ b, minE < r.energy) :
    ∃ res, rayTracer [⟨[mkSurf (infiniteCylinderGM diameter) (refractiveHomogenous n1 n2) frame], Obj.defaultOwn, Obj.defaultNext 1⟩] w b reps minE true = .ok res ∧
      ∀ k < reps, (((res.tree[k + 1]?).getD []).map Ray.strip).Perm (b.map fun r => (pipeRay (diameter / 2) frame.rot.c3 frame.loc 0 r (k + 1)).strip) ∧
        totalEnergy ((res.tree[k + 1]?).getD []) = totalEnergy b := by
  classical
  obtain ⟨res, hres, h⟩ := C93_infinite hD hf h1 h2 hne hab w hin reps minE
  have hs : ∀ r ∈ b, rodShare (diameter / 2) frame.rot.c3 frame.loc na nb r = 1 := fun r hr => by
    unfold rodShare; rw [if_neg (hT r hr)]
  refine ⟨res, hres, fun k hk => ?_⟩
  have hperm : (((res.tree[k + 1]?).getD []).map Ray.strip).Perm (b.map fun r => (pipeRay (diameter / 2) frame.rot.c3 frame.loc 0 r (k + 1)).strip) := by
    refine (h k hk).trans (List.Perm.of_eq ?_)
    have hfil : (b.filter (tracedInRod (diameter / 2) frame.rot.c3 frame.loc na nb minE k)) = b := by
      refine List.filter_eq_self.2 fun r hr => ?_
      unfold tracedInRod
      rw [hs r hr, List.all_eq_true]
      intro j _
      simpa using hE r hr
    rw [hfil, List.map_eq_flatMap]
    refine List.flatMap_congr fun r hr => ?_
    rw [hs r hr, sub_self, if_neg (hT r hr)]
  refine ⟨hperm, ?_⟩
  have hen : ∀ l : Bundle ℝ E, totalEnergy l = ((l.map Ray.strip).map fun x => x.energy).sum := by
    intro l; unfold totalEnergy; rw [List.map_map]; rfl
  rw [hen, (hperm.map _).sum_eq, List.map_map]
  unfold totalEnergy
  congr 1
  refine List.map_congr_left fun r _ => ?_
  show r.energy * (1 - 0) ^ (k + 1) = r.energy
  simp

end

/-- The light of `Examples.pipeLight`, which starts on the axis and goes half way across and half way up, in a rod of index `n`. -/
noncomputable def Examples.rodLight (n : ℝ) : Ray ℝ Unit := { Examples.pipeLight with ref := some n }

theorem Examples.rodLight_cos (n : ℝ) : rodCos 1 (⟨0, 0, 1⟩ : V3 ℝ) 0 (Examples.rodLight n) ^ 2 = 1 / 2 := by
  have hspeed : crossSpeed (⟨0, 0, 1⟩ : V3 ℝ) (Examples.rodLight n) = √(1 / 2) := by
    unfold crossSpeed
    rw [show (Examples.rodLight n).dir = Examples.pipeLight.dir from rfl, Examples.pipeLight_cross_dir]
    congr 1
    unfold V3.dot; simp only; rw [Examples.half_sq]; norm_num
  have hsv : (shadow (⟨0, 0, 1⟩ : V3 ℝ) 0 (Examples.rodLight n)).vertex = 0 := by
    show (0 : V3 ℝ) + crosswise _ (Examples.pipeLight.vertex - 0) = 0
    rw [Examples.pipeLight_cross]; apply V3.ext <;> simp
  have hmiss : missSq 0 (shadow (⟨0, 0, 1⟩ : V3 ℝ) 0 (Examples.rodLight n)) = 0 := by
    unfold missSq
    rw [hsv]
    unfold V3.cross V3.dot; simp
  have hhalf : halfChord 1 0 (shadow (⟨0, 0, 1⟩ : V3 ℝ) 0 (Examples.rodLight n)) = 1 := by
    unfold halfChord; rw [hmiss]; simp
  unfold rodCos
  rw [hspeed, hhalf, mul_one, div_one, Real.sq_sqrt (by norm_num)]

theorem Examples.rodLight_escapes (n : ℝ) : Escapes 1 (⟨0, 0, 1⟩ : V3 ℝ) 0 1 n (Examples.rodLight n) ↔ n ^ 2 ≤ 2 := by
  unfold Escapes
  rw [Examples.rodLight_cos]
  constructor <;> intro h <;> linarith

theorem Examples.rodLight_in {n : ℝ} (h : n ^ 2 ≤ 2 → n ^ 2 < 3 / 2) : InRod 1 ⟨0, 0, 1⟩ 0 1 n (Examples.rodLight n) := by
  have hp := Examples.pipeLight_in
  refine ⟨⟨hp.unit, hp.inside, hp.steep, hp.far⟩, rfl, fun hesc => ?_⟩
  have h1 := h ((Examples.rodLight_escapes n).1 hesc)
  rw [show V3.dot (Examples.rodLight n).dir (⟨0, 0, 1⟩ : V3 ℝ) = √(1 / 2) from Examples.pipeLight_dir, div_one, mul_pow, Real.sq_sqrt (by norm_num)]
  norm_num
  linarith

/-- The conditions can be met: in a rod of index 3/2 this light is guided, in one of index 6/5 a part of it gets out at each reflection. -/
example (reps : Nat) :
    (∃ res : TraceResult Unit ℝ Unit, rayTracer [⟨[mkSurf (infiniteCylinderGM 2) (refractiveHomogenous 1 (3 / 2)) 1], Obj.defaultOwn, Obj.defaultNext 1⟩]
      () [Examples.rodLight (3 / 2)] reps (1 / 100) true = .ok res ∧ ∀ k < reps, totalEnergy ((res.tree[k + 1]?).getD []) = 1) ∧
    (∃ res : TraceResult Unit ℝ Unit, rayTracer [⟨[mkSurf (infiniteCylinderGM 2) (refractiveHomogenous (6 / 5) 1) 1], Obj.defaultOwn, Obj.defaultNext 1⟩]
      () [Examples.rodLight (6 / 5)] reps (1 / 100) true = .ok res) ∧
    (∃ res : TraceResult Unit ℝ Unit, rayTracer [⟨[mkSurf (finiteCylinderGM 2 10) (refractiveHomogenous 1 (6 / 5)) 1], Obj.defaultOwn, Obj.defaultNext 1⟩]
      () [Examples.rodLight (6 / 5)] reps (1 / 100) true = .ok res) ∧
    (rodExit 1 ⟨0, 0, 1⟩ 0 1 (6 / 5) (Examples.rodLight (6 / 5)) reps).dir.IsUnit := by
  have hin : ∀ n : ℝ, (n ^ 2 ≤ 2 → n ^ 2 < 3 / 2) → ∀ r ∈ [Examples.rodLight n], InRod (2 / 2) (1 : Tf ℝ).rot.c3 (1 : Tf ℝ).loc 1 n r := by
    intro n h r hr
    rw [List.mem_singleton] at hr
    subst hr
    rw [show (2 / 2 : ℝ) = 1 by norm_num]
    exact Examples.rodLight_in h
  have hends : ∀ r ∈ [Examples.rodLight (6 / 5)], |V3.dot (r.vertex - (1 : Tf ℝ).loc) (1 : Tf ℝ).rot.c3| ≤ 10 / 2 := by
    intro r hr
    rw [List.mem_singleton] at hr
    subst hr
    exact Examples.pipeLight_ends
  obtain ⟨r1, h1, k1⟩ := C93_guided (frame := 1) (n1 := 1) (n2 := 3 / 2) (na := 1) (nb := 3 / 2) two_pos Tf.Rigid.one one_pos (by norm_num) (by norm_num)
    (Or.inl ⟨rfl, rfl⟩) () (hin (3 / 2) (by norm_num)) (by
      intro r hr
      rw [List.mem_singleton] at hr
      subst hr
      rw [show (2 / 2 : ℝ) = 1 by norm_num]
      intro h
      have := (Examples.rodLight_escapes (3 / 2)).1 h
      norm_num at this) reps (minE := 1 / 100) (by
      intro r hr
      rw [List.mem_singleton] at hr
      subst hr
      show (1 / 100 : ℝ) < 1
      norm_num)
  obtain ⟨r2, h2, _⟩ := C93_infinite (frame := 1) (n1 := 6 / 5) (n2 := 1) (na := 1) (nb := 6 / 5) two_pos Tf.Rigid.one (by norm_num) one_pos (by norm_num)
    (Or.inr ⟨rfl, rfl⟩) () (hin (6 / 5) (by norm_num)) reps (1 / 100)
  obtain ⟨r3, h3, _⟩ := C93_finite (frame := 1) (n1 := 1) (n2 := 6 / 5) (na := 1) (nb := 6 / 5) two_pos Tf.Rigid.one one_pos (by norm_num) (by norm_num)
    (Or.inl ⟨rfl, rfl⟩) () (hin (6 / 5) (by norm_num)) hends reps (1 / 100)
  refine ⟨⟨r1, h1, fun k hk => ?_⟩, ⟨r2, h2⟩, ⟨r3, h3⟩, ?_⟩
  · rw [(k1 k hk).2]
    show ([(1 : ℝ)]).sum = 1
    simp
  · exact ((C93_angles one_pos (by norm_num [V3.IsUnit, V3.dot]) one_pos (Examples.rodLight_in (n := 6 / 5) (by norm_num)).toInPipe 0 reps).2.2.2.2.2
      ((Examples.rodLight_escapes (6 / 5)).2 (by norm_num))).1

/-- Light that has come at the angle with the sine 3/5 into the flat end of a rod of index 3/2. -/
noncomputable def Examples.fibreLight : Ray ℝ Unit := ⟨0, ⟨2 / 5, 0, √21 / 5⟩, 1, 0, some (3 / 2), ()⟩

theorem Examples.fibreLight_cross : crosswise (⟨0, 0, 1⟩ : V3 ℝ) Examples.fibreLight.dir = ⟨2 / 5, 0, 0⟩ := by
  unfold crosswise V3.dot; apply V3.ext <;> simp [Examples.fibreLight]

theorem Examples.fibreLight_in : InPipe 1 ⟨0, 0, 1⟩ 0 Examples.fibreLight := by
  have hz : crosswise (⟨0, 0, 1⟩ : V3 ℝ) (Examples.fibreLight.vertex - 0) = 0 := by
    unfold crosswise V3.dot; apply V3.ext <;> simp [Examples.fibreLight]
  have hspeed : crossSpeed (⟨0, 0, 1⟩ : V3 ℝ) Examples.fibreLight = 2 / 5 := by
    unfold crossSpeed
    rw [Examples.fibreLight_cross]
    have : V3.dot (⟨2 / 5, 0, 0⟩ : V3 ℝ) ⟨2 / 5, 0, 0⟩ = (2 / 5) ^ 2 := by unfold V3.dot; norm_num
    rw [this, Real.sqrt_sq (by norm_num)]
  have hsv : (shadow (⟨0, 0, 1⟩ : V3 ℝ) 0 Examples.fibreLight).vertex = 0 := by
    show (0 : V3 ℝ) + crosswise _ (Examples.fibreLight.vertex - 0) = 0
    rw [hz]; apply V3.ext <;> simp
  have hmiss : missSq 0 (shadow (⟨0, 0, 1⟩ : V3 ℝ) 0 Examples.fibreLight) = 0 := by
    unfold missSq
    rw [hsv]
    unfold V3.cross V3.dot; simp
  have hway : pipeWay 1 (⟨0, 0, 1⟩ : V3 ℝ) 0 Examples.fibreLight 0 = 5 / 2 := by
    unfold pipeWay wayToWall halfChord
    rw [hmiss, hsv, hspeed]
    unfold V3.dot; norm_num
  refine ⟨?_, ?_, ?_, ?_⟩
  · show (2 / 5 : ℝ) * (2 / 5) + 0 * 0 + √21 / 5 * (√21 / 5) = 1
    have := Real.mul_self_sqrt (show (0 : ℝ) ≤ 21 by norm_num)
    linarith
  · rw [hz]; unfold V3.dot; simp
  · rw [Examples.fibreLight_cross]; unfold V3.dot; norm_num
  · rw [hway]; norm_num

/-- It is within the numerical aperture. -/
example : ¬ Escapes 1 ⟨0, 0, 1⟩ 0 1 (3 / 2) Examples.fibreLight := by
  refine C93_aperture (d := ⟨3 / 5, 0, 4 / 5⟩) one_pos (by norm_num [V3.IsUnit, V3.dot]) one_pos Examples.fibreLight_in ⟨Examples.fibreLight_in.unit, ?_, ?_⟩ ?_
  · unfold V3.cross Examples.fibreLight
    apply V3.ext <;> simp <;> norm_num
  · unfold V3.dot Examples.fibreLight
    have : 0 ≤ √21 := Real.sqrt_nonneg _
    simp
    positivity
  · rw [one_mul]
    refine Real.sqrt_lt_sqrt (dot_self_nonneg _) ?_
    unfold V3.dot V3.cross
    norm_num

/-- It meets the axis, so that the condition is exact for it: a rod of index 1.05 does not guide it. -/
example : (¬ Escapes 1 ⟨0, 0, 1⟩ 0 1 (3 / 2) Examples.fibreLight) ∧ Escapes 1 ⟨0, 0, 1⟩ 0 1 (21 / 20) Examples.fibreLight := by
  have hmiss : missSq 0 (shadow (⟨0, 0, 1⟩ : V3 ℝ) 0 Examples.fibreLight) = 0 := by
    have hsv : (shadow (⟨0, 0, 1⟩ : V3 ℝ) 0 Examples.fibreLight).vertex = 0 := by
      show (0 : V3 ℝ) + crosswise _ (Examples.fibreLight.vertex - 0) = 0
      unfold crosswise V3.dot; apply V3.ext <;> simp [Examples.fibreLight]
    unfold missSq
    rw [hsv]
    unfold V3.cross V3.dot; simp
  have hsq : V3.dot (⟨2 / 5, 0, 0⟩ : V3 ℝ) ⟨2 / 5, 0, 0⟩ = 4 / 25 := by unfold V3.dot; norm_num
  have hm := fun n => C93_meridional (na := 1) (nb := n) one_pos Examples.fibreLight_in hmiss
  rw [Examples.fibreLight_cross, hsq] at hm
  refine ⟨(hm (3 / 2)).2 (by norm_num), ?_⟩
  by_contra h
  have := (hm (21 / 20)).1 h
  norm_num at this

end Tracer
