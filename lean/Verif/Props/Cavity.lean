import Verif.Lemmas.Cavity

/-!
# Light in a hollow sphere (C90)

A sphere with a mirror or a receiver on it, and a source inside.  The light goes round on equal chords for ever; every trace records it so,
reflection by reflection, and a receiver that absorbs some of it absorbs, in the end, all.
-/

namespace Tracer

open Real

variable {E σ : Type _}

section
variable {δ R : ℝ} {c : V3 ℝ} {r : Ray ℝ E}

/-- C90: what the rays of `cavityRay` are.  They begin on the sphere and go on to where the next of them begins, have unit direction, the same
distance from the centre, and stay in one plane through it. -/
theorem C90_chords (hR : 0 < R) (hin : InCavity δ R c r) (a : ℝ) (k : Nat) :
    V3.dist2 (cavityRay R c a r (k + 1)).vertex c = R ^ 2 ∧
    (cavityRay R c a r (k + 1)).vertex = (cavityRay R c a r k).at (if k = 0 then wayToWall R c r else 2 * halfChord R c r) ∧
    (cavityRay R c a r k).dir.IsUnit ∧ missSq c (cavityRay R c a r k) = missSq c r ∧
    V3.dot ((cavityRay R c a r k).vertex - c) (V3.cross (r.vertex - c) r.dir) = 0 ∧
    V3.dot (cavityRay R c a r k).dir (V3.cross (r.vertex - c) r.dir) = 0 ∧
    (cavityRay R c a r k).energy = r.energy * (1 - a) ^ k := by
  have hc := hin.chord
  obtain ⟨hk, hwall, hhalf, _⟩ := cavityRay_inside hin hR a k
  have hs := hc.spos
  have hB : ∀ j, V3.dot (bouncePoint R c r j) (V3.cross (r.vertex - c) r.dir) = 0 := by
    intro j
    unfold bouncePoint sideways wallPoint Ray.at V3.dot V3.cross
    simp only [V3.add_x, V3.add_y, V3.add_z, V3.sub_x, V3.sub_y, V3.sub_z, V3.smul_x, V3.smul_y, V3.smul_z]
    ring
  refine ⟨?_, ?_, hk.unit, ?_, ?_, ?_, ?_⟩
  · have e : (cavityRay R c a r (k + 1)).vertex - c = bouncePoint R c r k := by
      show c + bouncePoint R c r k - c = _
      apply V3.ext <;> simp
    unfold V3.dist2
    rw [e]
    exact (hc.points hR (bouncePoint R c r) (fun _ => rfl) k).2.1
  · show c + bouncePoint R c r k = _
    cases k with
    | zero => rw [← hwall]; unfold wallPoint; apply V3.ext <;> simp [cavityRay]
    | succ k =>
      rw [if_neg (Nat.succ_ne_zero k)]
      show _ = c + bouncePoint R c r k + (2 * halfChord R c r) • ((1 / (2 * halfChord R c r)) • (bouncePoint R c r (k + 1) - bouncePoint R c r k))
      apply V3.ext <;> simp only [V3.add_x, V3.add_y, V3.add_z, V3.sub_x, V3.sub_y, V3.sub_z, V3.smul_x, V3.smul_y, V3.smul_z] <;> field_simp <;> ring
  · have h1 := halfChord_sq hk
    have h2 := halfChord_sq hin
    rw [hhalf, h2] at h1
    linarith
  · cases k with
    | zero =>
      show V3.dot (r.vertex - c) _ = 0
      unfold V3.dot V3.cross; ring
    | succ k =>
      have e : (cavityRay R c a r (k + 1)).vertex - c = bouncePoint R c r k := by
        show c + bouncePoint R c r k - c = _
        apply V3.ext <;> simp
      rw [e, hB]
  · cases k with
    | zero =>
      show V3.dot r.dir _ = 0
      unfold V3.dot V3.cross; ring
    | succ k =>
      show V3.dot ((1 / (2 * halfChord R c r)) • (bouncePoint R c r (k + 1) - bouncePoint R c r k)) _ = 0
      have e : ∀ (A B n : V3 ℝ) (m : ℝ), V3.dot (m • (B - A)) n = m * (V3.dot B n - V3.dot A n) := by
        intro A B n m; unfold V3.dot; simp only [V3.sub_x, V3.sub_y, V3.sub_z, V3.smul_x, V3.smul_y, V3.smul_z]; ring
      rw [e, hB, hB]; ring
  · cases k with
    | zero => simp [cavityRay]
    | succ k => rfl

end

section
variable {R a : ℝ} {g : Geometry ℝ E} {opt : Optics σ ℝ E} {frame : Tf ℝ}

theorem cavity_orbit (hg : sphereGM R = .ok g) (hf : frame.Rigid)
    (ho : opt = reflective a ∨ ∃ get set, opt = reflectiveReceiver a get set) (w : σ) {b : Bundle ℝ E}
    (hin : ∀ r ∈ b, InCavity (1 / 10 ^ 6) R frame.loc r) :
    Orbits (mkSurf g opt frame) w b (fun _ _ => true) (cavityRay R frame.loc a)
      (fun r k => wayToWall R frame.loc (cavityRay R frame.loc a r k)) := by
  have hR := (sphere_normal hg).2
  have hp : PlainGeometry g := .sphere R g hg
  obtain ⟨f, hper⟩ := hp.perRay
  have h1 : ∀ r ∈ b, ∀ k, InCavity (1 / 10 ^ 6) R frame.loc (cavityRay R frame.loc a r k) :=
    fun r hr k => (cavityRay_inside (hin r hr) hR a k).1
  refine ⟨fun _ _ => rfl, fun r hr k _ => ⟨sphere_single hg hf (h1 r hr k), (h1 r hr k).far, ?_⟩, fun r hr k h => by simp at h⟩
  rcases ho with rfl | ⟨get, set, rfl⟩
  · rw [alone_reflective hper w (sphere_single hg hf (h1 r hr k)), cavityRay_next hg (hin r hr) a k]
  · rw [alone_receiver hper w (sphere_single hg hf (h1 r hr k)), cavityRay_next hg (hin r hr) a k]

theorem followed_cavity (minE : ℝ) (c : V3 ℝ) (k : Nat) :
    (fun r : Ray ℝ E => followed minE (fun _ _ => true) (cavityRay R c a) k r && true) = stillTraced a minE k := by
  funext r
  unfold followed stillTraced
  simp only [Bool.true_and, Bool.and_true]
  rfl

/-- C90: a hollow sphere, mirror or receiver of absorptivity `a`, is traced without an exception from any source inside, and the recorded
bundles are just the rays on the chords, as long as they are above the threshold.  Nothing gets out and nothing is lost on the way, for however
many reflections. -/
theorem C90_cavity (hg : sphereGM R = .ok g) (hf : frame.Rigid)
    (ho : opt = reflective a ∨ ∃ get set, opt = reflectiveReceiver a get set) (w : σ) {b : Bundle ℝ E}
    (hin : ∀ r ∈ b, InCavity (1 / 10 ^ 6) R frame.loc r) (reps : Nat) (minE : ℝ) :
    ∃ res, rayTracer [⟨[mkSurf g opt frame], Obj.defaultOwn, Obj.defaultNext 1⟩] w b reps minE true = .ok res ∧
      ∀ k < reps, (((res.tree[k + 1]?).getD []).map Ray.strip).Perm
        ((b.filter (stillTraced a minE k)).map fun r => (cavityRay R frame.loc a r (k + 1)).strip) := by
  have hmo : MirrorOptics opt := by
    rcases ho with rfl | ⟨get, set, rfl⟩
    · exact .mirror a
    · exact .receiver a get set _ (.mirror a)
  obtain ⟨res, hres⟩ := lone_traced (.sphere R g hg) hmo hf w (fun r hr => (hin r hr).unit) reps minE
  refine ⟨res, hres, fun k hk => ?_⟩
  have horb := cavity_orbit hg hf ho w hin
  have := C84_mirrors (lone_plain _) (lone_mirrors (.sphere R g hg) hmo) hres (k := k + 1) hk
  refine this.trans (List.Perm.of_eq ?_)
  rw [(lone_generation horb k).2, followed_cavity, List.map_map]
  rfl

/-- C90: the receiver reports every reflection: its place and what it absorbed there. -/
theorem C90_receiver (hg : sphereGM R = .ok g) (hf : frame.Rigid) {get : σ → Account ℝ} {set : Account ℝ → σ → σ}
    (hgs : ∀ acc w, get (set acc w) = acc) {w : σ} (hw : get w = Account.reset) {b : Bundle ℝ E}
    (hin : ∀ r ∈ b, InCavity (1 / 10 ^ 6) R frame.loc r) (reps : Nat) (minE : ℝ) :
    ∃ res es ps, rayTracer [⟨[mkSurf g (reflectiveReceiver a get set) frame], Obj.defaultOwn, Obj.defaultNext 1⟩] w b reps minE true = .ok res ∧
      (get res.world).getAllHits = .ok (es, ps) ∧ es.length = ps.length ∧
      (es.zip ps).Perm ((List.range reps).flatMap fun k => (b.filter (stillTraced a minE k)).map fun r =>
        (r.energy * (1 - a) ^ k * a, frame.loc + bouncePoint R frame.loc r k)) := by
  have hmo : MirrorOptics (reflectiveReceiver a get set : Optics σ ℝ E) := .receiver a get set _ (.mirror a)
  obtain ⟨res, hres⟩ := lone_traced (.sphere R g hg) hmo hf w (fun r hr => (hin r hr).unit) reps minE
  have horb := cavity_orbit (a := a) hg hf (Or.inr ⟨get, set, rfl⟩) w hin
  have hR := (sphere_normal hg).2
  obtain ⟨es, ps, hes, hlen, hperm⟩ := C67_mirrors (lone_plain _) (lone_mirrors (.sphere R g hg) hmo) hgs
    (C51_reflective a get).1 (x := ⟨0, 0, mkSurf g (reflectiveReceiver a get set) frame⟩) (by rw [lone_sites]; exact List.mem_singleton.2 rfl) rfl
    (fun y hy hne => by
      rw [lone_sites, List.mem_singleton] at hy
      subst hy
      exact absurd ⟨rfl, rfl⟩ hne) hres hw
  refine ⟨res, es, ps, hres, hes, hlen, hperm.trans (List.Perm.of_eq ?_)⟩
  rw [lone_hits horb, List.map_flatMap]
  refine List.flatMap_congr fun k _ => ?_
  rw [followed_cavity, List.map_map]
  refine List.map_congr_left fun r hr => ?_
  have hr' := (List.mem_filter.1 hr).1
  have h1 := C90_chords hR (hin r hr') a k
  have h2 := (cavityRay_inside (hin r hr') hR a k).2.1
  show ((cavityRay R frame.loc a r k).energy * a, (cavityRay R frame.loc a r k).at (wayToWall R frame.loc (cavityRay R frame.loc a r k))) = _
  rw [h1.2.2.2.2.2.2, ← h2]
  congr 1
  unfold wallPoint
  apply V3.ext <;> simp

/-- C90: as long as the light is above the threshold, the receiver has absorbed what the mirrors have not left: all but the fraction
`(1 - a) ^ reps`. -/
theorem C90_absorbed (hg : sphereGM R = .ok g) (hf : frame.Rigid) {get : σ → Account ℝ} {set : Account ℝ → σ → σ}
    (hgs : ∀ acc w, get (set acc w) = acc) {w : σ} (hw : get w = Account.reset) {b : Bundle ℝ E}
    (hin : ∀ r ∈ b, InCavity (1 / 10 ^ 6) R frame.loc r) (reps : Nat) {minE : ℝ}
    (hE : ∀ r ∈ b, ∀ j, 0 < j → j < reps → minE < r.energy * (1 - a) ^ j) :
    ∃ res es ps, rayTracer [⟨[mkSurf g (reflectiveReceiver a get set) frame], Obj.defaultOwn, Obj.defaultNext 1⟩] w b reps minE true = .ok res ∧
      (get res.world).getAllHits = .ok (es, ps) ∧ es.sum = totalEnergy b * (1 - (1 - a) ^ reps) := by
  obtain ⟨res, es, ps, h1, h2, hlen, hperm⟩ := C90_receiver (a := a) hg hf hgs hw hin reps minE
  refine ⟨res, es, ps, h1, h2, ?_⟩
  have hes : es = (es.zip ps).map Prod.fst := (List.map_fst_zip hlen.le).symm
  rw [hes, (hperm.map Prod.fst).sum_eq, List.map_flatMap]
  clear hes hperm h1 h2 hlen
  induction reps with
  | zero => simp
  | succ n ih =>
    rw [List.range_succ, List.flatMap_append, List.sum_append, ih (fun r hr j h0 hj => hE r hr j h0 (by omega))]
    have hfil : b.filter (stillTraced a minE n) = b := by
      refine List.filter_eq_self.2 fun r hr => ?_
      unfold stillTraced
      rw [List.all_eq_true]
      intro j hj
      have := List.mem_range.1 hj
      simpa using hE r hr (j + 1) (by omega) (by omega)
    rw [List.flatMap_singleton, hfil, List.map_map]
    have : (b.map (Prod.fst ∘ fun r => (r.energy * (1 - a) ^ n * a, frame.loc + bouncePoint R frame.loc r n))).sum =
        totalEnergy b * ((1 - a) ^ n * a) := by
      unfold totalEnergy
      clear ih hE hfil hin
      induction b with
      | nil => simp
      | cons r b ih =>
        simp only [List.map_cons, List.sum_cons, Function.comp_apply] at ih ⊢
        rw [ih]; ring
    rw [this, pow_succ]
    ring

/-- C90: a cavity is black.  Whatever small fraction of the light its wall absorbs at a time, in the end it absorbs all but as little as one likes. -/
theorem C90_black (hg : sphereGM R = .ok g) (hf : frame.Rigid) {get : σ → Account ℝ} {set : Account ℝ → σ → σ}
    (hgs : ∀ acc w, get (set acc w) = acc) {w : σ} (hw : get w = Account.reset) {b : Bundle ℝ E}
    (hin : ∀ r ∈ b, InCavity (1 / 10 ^ 6) R frame.loc r) (hpos : ∀ r ∈ b, 0 < r.energy) (ha : 0 < a) (ha1 : a < 1) {ε : ℝ} (hε : 0 < ε) :
    ∃ n, ∀ reps, n ≤ reps → ∃ res es ps,
      rayTracer [⟨[mkSurf g (reflectiveReceiver a get set) frame], Obj.defaultOwn, Obj.defaultNext 1⟩] w b reps 0 true = .ok res ∧
      (get res.world).getAllHits = .ok (es, ps) ∧ totalEnergy b - ε < es.sum ∧ es.sum ≤ totalEnergy b := by
  have h0 : 0 ≤ totalEnergy b := List.sum_nonneg (by
    intro x hx
    obtain ⟨r, hr, rfl⟩ := List.mem_map.1 hx
    exact (hpos r hr).le)
  obtain ⟨n, hn⟩ := exists_pow_lt_of_lt_one (div_pos hε (by linarith : 0 < totalEnergy b + 1)) (by linarith : 1 - a < 1)
  refine ⟨n, fun reps hreps => ?_⟩
  obtain ⟨res, es, ps, h1, h2, h3⟩ := C90_absorbed hg hf hgs hw hin reps (a := a) (minE := 0)
    (fun r hr j _ _ => mul_pos (hpos r hr) (pow_pos (by linarith) j))
  refine ⟨res, es, ps, h1, h2, ?_⟩
  have hle : (1 - a) ^ reps ≤ (1 - a) ^ n := pow_le_pow_of_le_one (by linarith) (by linarith) hreps
  have hp : 0 ≤ (1 - a) ^ reps := pow_nonneg (by linarith) _
  have hlt : (1 - a) ^ reps * (totalEnergy b + 1) < ε := (lt_div_iff₀ (by linarith)).1 (lt_of_le_of_lt hle hn)
  rw [h3]
  constructor <;> nlinarith

end

/-- A ray from half way to the wall of the unit sphere, at a right angle to the radius. -/
noncomputable def Examples.triangleRay : Ray ℝ Unit := ⟨⟨1 / 2, 0, 0⟩, ⟨0, 1, 0⟩, 1, 0, none, ()⟩

theorem Examples.triangleRay_half : halfChord 1 0 Examples.triangleRay = √3 / 2 := by
  have hmiss : missSq 0 Examples.triangleRay = 1 / 4 := by
    simp only [missSq, V3.cross, V3.dot, V3.sub_x, V3.sub_y, V3.sub_z, V3.zero_x, V3.zero_y, V3.zero_z, Examples.triangleRay]; norm_num
  unfold halfChord
  rw [hmiss, show (1 : ℝ) ^ 2 - 1 / 4 = 3 / 2 ^ 2 by norm_num, Real.sqrt_div (by norm_num), Real.sqrt_sq (by norm_num)]

theorem Examples.triangleRay_in : InCavity (1 / 10 ^ 6) 1 0 Examples.triangleRay := by
  have h3 : (1 : ℝ) ≤ √3 := by rw [Real.one_le_sqrt]; norm_num
  refine ⟨?_, ?_, ?_, by norm_num⟩
  · simp only [V3.IsUnit, V3.dot, Examples.triangleRay]; norm_num
  · simp only [V3.dist2, V3.dot, V3.sub_x, V3.sub_y, V3.sub_z, V3.zero_x, V3.zero_y, V3.zero_z, Examples.triangleRay]; norm_num
  · unfold wayToWall
    rw [Examples.triangleRay_half]
    simp only [V3.dot, V3.sub_x, V3.sub_y, V3.sub_z, V3.zero_x, V3.zero_y, V3.zero_z, Examples.triangleRay]
    norm_num
    linarith

theorem Examples.triangleRay_all : ∀ q ∈ [Examples.triangleRay], InCavity (1 / 10 ^ 6) 1 (1 : Tf ℝ).loc q := by
  intro q hq
  rw [List.mem_singleton] at hq
  subst hq
  exact Examples.triangleRay_in

/-- It goes round on chords whose half is half the root of 3, at an angle of 120 degrees: on the sides of a triangle. -/
example : ∃ r : Ray ℝ Unit, r.energy = 1 ∧ InCavity (1 / 10 ^ 6) 1 0 r ∧ halfChord 1 0 r = √3 / 2 ∧ bouncePoint 1 0 r 3 = bouncePoint 1 0 r 0 ∧
    ∀ w : Account ℝ, w = Account.reset → ∃ (g : Geometry ℝ Unit) (res : TraceResult (Account ℝ) ℝ Unit) (es : List ℝ) (ps : List (V3 ℝ)),
      sphereGM 1 = .ok g ∧
      rayTracer [⟨[mkSurf g (reflectiveReceiver (1 / 10) id fun x _ => x) 1], Obj.defaultOwn, Obj.defaultNext 1⟩] w [r] 7 (1 / 100) true = .ok res ∧
      res.world.getAllHits = .ok (es, ps) ∧ es.sum = 1 * (1 - (1 - 1 / 10) ^ 7) := by
  have hang : chordAngle 1 0 Examples.triangleRay = 2 * (π / 3) := by
    unfold chordAngle
    rw [Examples.triangleRay_half, div_one, ← Real.sin_pi_div_three, Real.arcsin_sin (by linarith [pi_pos]) (by linarith [pi_pos])]
  refine ⟨Examples.triangleRay, rfl, Examples.triangleRay_in, Examples.triangleRay_half, ?_, ?_⟩
  · unfold bouncePoint
    rw [hang, show ((3 : ℕ) : ℝ) * (2 * (π / 3)) = 2 * π by push_cast; ring, cos_two_pi, sin_two_pi]
    simp
  · intro w hw
    obtain ⟨g, hg⟩ := (C34_constructor (E := Unit) 1).1 one_pos
    obtain ⟨res, es, ps, e1, e2, e4⟩ := C90_absorbed (a := 1 / 10) (frame := 1) (get := id) (set := fun x _ => x) hg
      Tf.Rigid.one (fun _ _ => rfl) hw (b := [Examples.triangleRay]) Examples.triangleRay_all 7 (minE := 1 / 100)
      (fun q hq j _ hj => by
        rw [List.mem_singleton] at hq
        subst hq
        show (1 / 100 : ℝ) < 1 * (1 - 1 / 10) ^ j
        have : ((1 : ℝ) - 1 / 10) ^ 7 ≤ (1 - 1 / 10) ^ j := pow_le_pow_of_le_one (by norm_num) (by norm_num) hj.le
        norm_num at this ⊢
        linarith)
    exact ⟨g, res, es, ps, hg, e1, e2, by rw [e4]; simp [totalEnergy, Examples.triangleRay]⟩

/-- Every chord of that ray passes the centre at the distance one half. -/
example (k : Nat) : V3.dist2 (cavityRay 1 0 (1 / 10) Examples.triangleRay (k + 1)).vertex 0 = 1 ^ 2 ∧
    missSq 0 (cavityRay 1 0 (1 / 10) Examples.triangleRay k) = missSq 0 Examples.triangleRay := by
  obtain ⟨h1, _, _, h2, _⟩ := C90_chords one_pos Examples.triangleRay_in (1 / 10) k
  exact ⟨h1, h2⟩

/-- Its trace in a mirror that absorbs a tenth, and in a receiver that does. -/
example : ∃ (g : Geometry ℝ Unit) (res : TraceResult Unit ℝ Unit), sphereGM 1 = .ok g ∧
    rayTracer [⟨[mkSurf g (reflective (1 / 10)) 1], Obj.defaultOwn, Obj.defaultNext 1⟩] () [Examples.triangleRay] 7 (1 / 100) true = .ok res ∧
    ∀ k < 7, (((res.tree[k + 1]?).getD []).map Ray.strip).Perm
        (([Examples.triangleRay].filter (stillTraced (1 / 10) (1 / 100) k)).map fun r => (cavityRay 1 0 (1 / 10) r (k + 1)).strip) := by
  obtain ⟨g, hg⟩ := (C34_constructor (E := Unit) 1).1 one_pos
  obtain ⟨res, h1, h2⟩ := C90_cavity (opt := reflective (1 / 10)) hg Tf.Rigid.one (.inl rfl) () Examples.triangleRay_all 7 (1 / 100)
  exact ⟨g, res, hg, h1, h2⟩

example : ∃ (g : Geometry ℝ Unit) (res : TraceResult (Account ℝ) ℝ Unit) (es : List ℝ) (ps : List (V3 ℝ)), sphereGM 1 = .ok g ∧
    rayTracer [⟨[mkSurf g (reflectiveReceiver (1 / 10) id fun x _ => x) 1], Obj.defaultOwn, Obj.defaultNext 1⟩] Account.reset
      [Examples.triangleRay] 7 (1 / 100) true = .ok res ∧
    res.world.getAllHits = .ok (es, ps) ∧
    (es.zip ps).Perm ((List.range 7).flatMap fun k => ([Examples.triangleRay].filter (stillTraced (1 / 10) (1 / 100) k)).map fun r =>
        (r.energy * (1 - 1 / 10) ^ k * (1 / 10), 0 + bouncePoint 1 0 r k)) := by
  obtain ⟨g, hg⟩ := (C34_constructor (E := Unit) 1).1 one_pos
  obtain ⟨res, es, ps, h1, h2, _, h3⟩ := C90_receiver (a := 1 / 10) (get := id) (set := fun x _ => x) hg Tf.Rigid.one (fun _ _ => rfl) rfl
    Examples.triangleRay_all 7 (1 / 100)
  exact ⟨g, res, es, ps, hg, h1, h2, h3⟩

/-- After enough iterations all but a thousandth is absorbed. -/
example : ∃ (g : Geometry ℝ Unit) (n : Nat), sphereGM 1 = .ok g ∧ ∀ reps, n ≤ reps → ∃ res es ps,
    rayTracer [⟨[mkSurf g (reflectiveReceiver (1 / 10) id fun x _ => x) 1], Obj.defaultOwn, Obj.defaultNext 1⟩] Account.reset
      [Examples.triangleRay] reps 0 true = .ok res ∧
    res.world.getAllHits = .ok (es, ps) ∧ totalEnergy [Examples.triangleRay] - 1 / 1000 < es.sum ∧ es.sum ≤ totalEnergy [Examples.triangleRay] := by
  obtain ⟨g, hg⟩ := (C34_constructor (E := Unit) 1).1 one_pos
  obtain ⟨n, h⟩ := C90_black (a := 1 / 10) (get := id) (set := fun x _ => x) hg Tf.Rigid.one (fun _ _ => rfl) (w := Account.reset) rfl
    Examples.triangleRay_all (by intro r hr; rw [List.mem_singleton] at hr; subst hr; exact one_pos) (by norm_num) (by norm_num)
    (ε := 1 / 1000) (by norm_num)
  exact ⟨g, n, hg, h⟩

end Tracer
