import Verif.Lemmas.Pipe
import Verif.Props.Cavity

/-!
# Light in a round pipe (C91)

A cylinder with a mirror or a receiver on it, infinite or of finite length, and a source inside.
-/

namespace Tracer

variable {E σ : Type _}

section
variable {R : ℝ} {e c : V3 ℝ} {r : Ray ℝ E}

theorem height_of_point (he : V3.dot e e = 1) (k : Nat) : V3.dot (pipePoint R e c r k - c) e = pipeHeight R e c r k := by
  have hb := bounce_flat (R := R) (c := c) (r := r) he k
  have : V3.dot (pipePoint R e c r k - c) e = V3.dot (bouncePoint R c (shadow e c r) k) e + pipeHeight R e c r k * V3.dot e e := by
    unfold pipePoint V3.dot
    simp only [V3.add_x, V3.add_y, V3.add_z, V3.sub_x, V3.sub_y, V3.sub_z, V3.smul_x, V3.smul_y, V3.smul_z]
    ring
  rw [this, hb, he]; ring

/-- C91: what the rays of `pipeRay` are.  They begin on the wall, where the one before has arrived, have unit direction and always the same angle
with the axis. -/
theorem C91_helix (hR : 0 < R) (he : e.IsUnit) (hin : InPipe R e c r) (a : ℝ) (k : Nat) :
    V3.dot (crosswise e (pipePoint R e c r k - c)) (crosswise e (pipePoint R e c r k - c)) = R ^ 2 ∧
    (pipeRay R e c a r k).at (pipeWay R e c r k - if k = 0 then 0 else pipeWay R e c r (k - 1)) = (pipeRay R e c a r (k + 1)).vertex ∧
    (pipeRay R e c a r k).dir.IsUnit ∧ V3.dot (pipeRay R e c a r k).dir e = V3.dot r.dir e ∧
    (pipeRay R e c a r k).energy = r.energy * (1 - a) ^ k := by
  have hsh := hin.shadow_in
  have hc := hsh.chord
  obtain ⟨f1, f2, f3, f4, f5⟩ := pipeRay_facts hin hR he a k
  obtain ⟨g1, _⟩ := pipeRay_facts hin hR he a (k + 1)
  obtain ⟨hm, hm2⟩ := hin.speed
  have hu := (cavityRay_inside hsh hR a k).1.unit
  refine ⟨?_, ?_, ?_, f2, ?_⟩
  · have := g1.vertex
    have e1 : (pipeRay R e c a r (k + 1)).vertex = pipePoint R e c r k := rfl
    have e2 : (cavityRay R c a (shadow e c r) (k + 1)).vertex = c + bouncePoint R c (shadow e c r) k := rfl
    rw [e1, e2] at this
    rw [this]
    have e3 : c + bouncePoint R c (shadow e c r) k - c = bouncePoint R c (shadow e c r) k := by apply V3.ext <;> simp
    rw [e3]
    exact (hc.points hR (bouncePoint R c (shadow e c r)) (fun _ => rfl) k).2.1
  · rw [← f5, f4]; rfl
  · -- the crosswise part and the part along the axis
    have hpy : ∀ v : V3 ℝ, V3.dot v v = V3.dot (crosswise e v) (crosswise e v) + V3.dot v e ^ 2 := by
      intro v
      have he' : V3.dot e e = 1 := he
      unfold crosswise
      generalize hz : V3.dot v e = z
      have : V3.dot (v - z • e) (v - z • e) = V3.dot v v - 2 * z * V3.dot v e + z ^ 2 * V3.dot e e := by
        unfold V3.dot; simp only [V3.sub_x, V3.sub_y, V3.sub_z, V3.smul_x, V3.smul_y, V3.smul_z]; ring
      rw [this, hz, he']; ring
    have hru : V3.dot r.dir r.dir = 1 := hin.unit
    show V3.dot (pipeRay R e c a r k).dir (pipeRay R e c a r k).dir = 1
    rw [hpy, f1.dir, f2]
    have : V3.dot (crossSpeed e r • (cavityRay R c a (shadow e c r) k).dir) (crossSpeed e r • (cavityRay R c a (shadow e c r) k).dir) =
        crossSpeed e r ^ 2 * V3.dot (cavityRay R c a (shadow e c r) k).dir (cavityRay R c a (shadow e c r) k).dir := by
      unfold V3.dot; simp only [V3.smul_x, V3.smul_y, V3.smul_z]; ring
    rw [this, show V3.dot (cavityRay R c a (shadow e c r) k).dir (cavityRay R c a (shadow e c r) k).dir = 1 from hu, mul_one, hm2, ← hpy, hru]
  · cases k with
    | zero => simp [pipeRay]
    | succ k => rfl

/-- Reflections follow each other by the same way. -/
theorem pipeWay_step (k : Nat) : pipeWay R e c r (k + 1) = pipeWay R e c r k + 2 * halfChord R c (shadow e c r) / crossSpeed e r := by
  unfold pipeWay; push_cast; ring

theorem pipeWay_mono (hin : InPipe R e c r) {j k : Nat} (h : j ≤ k) : pipeWay R e c r j ≤ pipeWay R e c r k := by
  have hm := hin.speed.1
  have hs := hin.shadow_in.chord.spos
  have hd : 0 ≤ 2 * halfChord R c (shadow e c r) / crossSpeed e r := by positivity
  induction k with
  | zero => rw [Nat.le_zero.1 h]
  | succ k ih =>
    rcases Nat.lt_or_ge k j with hk | hk
    · rw [show j = k + 1 by omega]
    · rw [pipeWay_step]; linarith [ih hk]

/-- Where a reflection is within reach of the ends, all before it are. -/
theorem inside_before (hin : InPipe R e c r) {L : ℝ} (h0 : |V3.dot (r.vertex - c) e| ≤ L) {j k : Nat} (hjk : j ≤ k)
    (h : |pipeHeight R e c r k| ≤ L) : |pipeHeight R e c r j| ≤ L := by
  have hpos : 0 ≤ pipeWay R e c r 0 := by have := hin.far; norm_num at this; linarith
  have h1 := pipeWay_mono hin hjk
  have h2 := pipeWay_mono hin (Nat.zero_le j)
  unfold pipeHeight at h ⊢
  rw [abs_le] at *
  generalize V3.dot (r.vertex - c) e = z at *
  generalize V3.dot r.dir e = d at *
  rcases le_total 0 d with hd | hd <;> constructor <;> nlinarith

/-- C91: light that moves along the axis leaves a pipe of finite length: it is reflected in it a certain number of times, and no more. -/
theorem C91_out (hin : InPipe R e c r) {L : ℝ} (h0 : |V3.dot (r.vertex - c) e| ≤ L) (hd : V3.dot r.dir e ≠ 0) :
    ∃ n, (∀ k < n, |pipeHeight R e c r k| ≤ L) ∧ ∀ k, n ≤ k → L < |pipeHeight R e c r k| := by
  classical
  have hm := hin.speed.1
  have hs := hin.shadow_in.chord.spos
  have hex : ∃ k, L < |pipeHeight R e c r k| := by
    have hstep : 0 < 2 * halfChord R c (shadow e c r) / crossSpeed e r := by positivity
    have hway : ∀ k : Nat, k * (2 * halfChord R c (shadow e c r) / crossSpeed e r) ≤ pipeWay R e c r k := by
      intro k
      induction k with
      | zero =>
        have := hin.far
        norm_num at this ⊢
        linarith
      | succ k ih => rw [pipeWay_step]; push_cast; linarith
    obtain ⟨k, hk⟩ := exists_nat_gt (2 * L / (2 * halfChord R c (shadow e c r) / crossSpeed e r * |V3.dot r.dir e|))
    have hdpos : 0 < |V3.dot r.dir e| := abs_pos.2 hd
    rw [div_lt_iff₀ (by positivity)] at hk
    refine ⟨k, ?_⟩
    have h1 := hway k
    have h2 : 2 * L < pipeWay R e c r k * |V3.dot r.dir e| := by nlinarith
    have h3 : 0 ≤ pipeWay R e c r k := le_trans (by positivity) h1
    unfold pipeHeight
    have h4 : |pipeWay R e c r k * V3.dot r.dir e| = pipeWay R e c r k * |V3.dot r.dir e| := by rw [abs_mul, abs_of_nonneg h3]
    have h5 := abs_sub_abs_le_abs_sub (pipeWay R e c r k * V3.dot r.dir e) (-V3.dot (r.vertex - c) e)
    rw [abs_neg, sub_neg_eq_add, add_comm (pipeWay R e c r k * V3.dot r.dir e)] at h5
    linarith
  refine ⟨Nat.find hex, fun k hk => not_lt.1 (Nat.find_min hex hk), fun k hk => ?_⟩
  by_contra h
  exact absurd (Nat.find_spec hex) (not_lt.2 (inside_before hin h0 hk (not_lt.1 h)))

end

section
variable {a : ℝ} {g : Geometry ℝ E} {opt : Optics σ ℝ E} {frame : Tf ℝ}

open Classical in
theorem pipe_orbit {R : ℝ} (hR : 0 < R) (hf : frame.Rigid) {S : V3 ℝ → Prop} {Z : ℝ → Prop} (hS : ∀ q, S q ↔ cylinderSet R q ∧ Z q.z)
    (hfind : ∀ r : Ray ℝ E, 1 / 10 ^ 10 < offAxis frame r.dir → ∃ p, (g.find frame [r])[0]? = some p ∧ FirstAmong (0 < ·) (Placed frame S) r.vertex r.dir p)
    (hper : ∃ f, g.PerRay f) (hn : g.normal = cylinderNormal)
    (ho : opt = reflective a ∨ ∃ get set, opt = reflectiveReceiver a get set) (w : σ) {b : Bundle ℝ E}
    (hin : ∀ r ∈ b, InPipe R frame.rot.c3 frame.loc r) :
    Orbits (mkSurf g opt frame) w b (fun r k => decide (Z (pipeHeight R frame.rot.c3 frame.loc r k))) (pipeRay R frame.rot.c3 frame.loc a)
      (fun r k => wayToWall R frame.loc (cavityRay R frame.loc a (shadow frame.rot.c3 frame.loc r) k) / crossSpeed frame.rot.c3 r) := by
  have he := axis_unit hf
  obtain ⟨f, hper⟩ := hper
  have hs : ∀ r ∈ b, ∀ k, (Z (pipeHeight R frame.rot.c3 frame.loc r k) →
      (mkSurf g opt frame : Surf σ ℝ E).single (pipeRay R frame.rot.c3 frame.loc a r k) =
        ((wayToWall R frame.loc (cavityRay R frame.loc a (shadow frame.rot.c3 frame.loc r) k) / crossSpeed frame.rot.c3 r : ℝ) : WithTop ℝ)) ∧
      (¬ Z (pipeHeight R frame.rot.c3 frame.loc r k) → (mkSurf g opt frame : Surf σ ℝ E).single (pipeRay R frame.rot.c3 frame.loc a r k) = ⊤) := by
    intro r hr k
    obtain ⟨hm, hm2⟩ := (hin r hr).speed
    obtain ⟨f1, _, _, f4, _⟩ := pipeRay_facts (hin r hr) hR he a k
    have hk := (cavityRay_inside (hin r hr).shadow_in hR a k).1
    have hoff : 1 / 10 ^ 10 < offAxis frame (pipeRay R frame.rot.c3 frame.loc a r k).dir := by
      rw [offAxis_eq hf, f1.dir]
      have hu : V3.dot (cavityRay R frame.loc a (shadow frame.rot.c3 frame.loc r) k).dir (cavityRay R frame.loc a (shadow frame.rot.c3 frame.loc r) k).dir = 1 := hk.unit
      have : ∀ (m : ℝ) (v : V3 ℝ), V3.dot (m • v) (m • v) = m ^ 2 * V3.dot v v := by
        intro m v; unfold V3.dot; simp only [V3.smul_x, V3.smul_y, V3.smul_z]; ring
      rw [this, hu, mul_one, hm2]
      exact (hin r hr).steep
    have := pipe_single (σ := σ) (opt := opt) hf hS (hfind _ hoff) hm hk f1
    rw [f4, height_of_point he] at this
    exact this
  refine ⟨fun _ _ => rfl, fun r hr k hh => ?_, fun r hr k hh => (hs r hr k).2 (by simpa using hh)⟩
  have hz : Z (pipeHeight R frame.rot.c3 frame.loc r k) := by simpa using hh
  have h1 := (hs r hr k).1 hz
  obtain ⟨hm, _⟩ := (hin r hr).speed
  obtain ⟨_, _, _, f4, _⟩ := pipeRay_facts (hin r hr) hR he a k
  refine ⟨h1, ?_, ?_⟩
  · rw [lt_div_iff₀ hm]
    have := (cavityRay_inside (hin r hr).shadow_in hR a k).1.far
    linarith
  · rcases ho with rfl | ⟨get, set, rfl⟩
    · rw [alone_reflective hper w h1, f4, pipeRay_next hf hR hn (hin r hr) a k]
    · rw [alone_receiver hper w h1, f4, pipeRay_next hf hR hn (hin r hr) a k]

theorem followed_pipe {R : ℝ} (e c : V3 ℝ) {minE : ℝ} {hits : Ray ℝ E → Nat → Bool} {k : Nat} {r : Ray ℝ E}
    (hmono : hits r k = true → ∀ j ≤ k, hits r j = true) :
    (followed minE hits (pipeRay R e c a) k r && hits r k) = (stillTraced a minE k r && hits r k) := by
  cases hk : hits r k with
  | false => simp
  | true =>
    have hm := hmono hk
    unfold followed stillTraced
    simp only [Bool.and_true]
    have : ∀ l : List Nat, (∀ j ∈ l, j ≤ k) → (l.all fun j => hits r j && decide (minE < (pipeRay R e c a r (j + 1)).energy)) =
        l.all fun j => decide (minE < r.energy * (1 - a) ^ (j + 1)) := by
      intro l hl
      induction l with
      | nil => rfl
      | cons j l ih =>
        simp only [List.all_cons]
        rw [ih fun i hi => hl i (List.mem_cons_of_mem _ hi), hm j (hl j List.mem_cons_self), Bool.true_and]
        rfl
    exact this _ fun j hj => (List.mem_range.1 hj).le

theorem mirrorOptics_of (ho : opt = reflective a ∨ ∃ get set, opt = reflectiveReceiver a get set) : MirrorOptics opt := by
  rcases ho with rfl | ⟨get, set, rfl⟩
  · exact .mirror a
  · exact .receiver a get set _ (.mirror a)

/-- C91: an infinite pipe keeps its light for ever.  It is traced without an exception, and the recorded bundles are just the rays of `pipeRay`, as
long as they are above the threshold. -/
theorem C91_infinite {diameter : ℝ} (hD : 0 < diameter) (hf : frame.Rigid)
    (ho : opt = reflective a ∨ ∃ get set, opt = reflectiveReceiver a get set) (w : σ) {b : Bundle ℝ E}
    (hin : ∀ r ∈ b, InPipe (diameter / 2) frame.rot.c3 frame.loc r) (reps : Nat) (minE : ℝ) :
    ∃ res, rayTracer [⟨[mkSurf (infiniteCylinderGM diameter) opt frame], Obj.defaultOwn, Obj.defaultNext 1⟩] w b reps minE true = .ok res ∧
      ∀ k < reps, (((res.tree[k + 1]?).getD []).map Ray.strip).Perm
        ((b.filter (stillTraced a minE k)).map fun r => (pipeRay (diameter / 2) frame.rot.c3 frame.loc a r (k + 1)).strip) := by
  classical
  have hmo := mirrorOptics_of ho
  obtain ⟨res, hres⟩ := lone_traced (.cylinder diameter hD) hmo hf w (fun r hr => (hin r hr).unit) reps minE
  refine ⟨res, hres, fun k hk => ?_⟩
  have horb := pipe_orbit (g := infiniteCylinderGM diameter) (Z := fun _ => True) (S := cylinderSet (diameter / 2)) (by positivity) hf (fun q => by simp)
    (fun r h => by
      obtain ⟨p, h1, h2, _⟩ := C35_infinite_cylinder hf diameter [r] 0 r rfl
      exact ⟨p, h1, h2 h⟩) (PlainGeometry.cylinder diameter hD).perRay rfl ho w hin
  have := C84_mirrors (lone_plain _) (lone_mirrors (.cylinder diameter hD) hmo) hres (k := k + 1) hk
  refine this.trans (List.Perm.of_eq ?_)
  rw [(lone_generation horb k).2, List.map_map]
  have hfil : ∀ hits : Ray ℝ E → Nat → Bool, (∀ r k, hits r k = true) →
      b.filter (fun r => followed minE hits (pipeRay (diameter / 2) frame.rot.c3 frame.loc a) k r && hits r k) = b.filter (stillTraced a minE k) := by
    intro hits hh
    refine List.filter_congr fun r _ => ?_
    rw [followed_pipe frame.rot.c3 frame.loc (fun _ j _ => hh r j), hh, Bool.and_true]
  rw [hfil _ (fun r k => by simp)]
  rfl

/-- C91: in a pipe of finite length, the recorded bundles are the rays of `pipeRay` that are above the threshold and have been reflected within the
length of the pipe.  All others have left it at an end. -/
theorem C91_finite {diameter height : ℝ} (hD : 0 < diameter) (hf : frame.Rigid)
    (ho : opt = reflective a ∨ ∃ get set, opt = reflectiveReceiver a get set) (w : σ) {b : Bundle ℝ E}
    (hin : ∀ r ∈ b, InPipe (diameter / 2) frame.rot.c3 frame.loc r) (hends : ∀ r ∈ b, |V3.dot (r.vertex - frame.loc) frame.rot.c3| ≤ height / 2)
    (reps : Nat) (minE : ℝ) :
    ∃ res, rayTracer [⟨[mkSurf (finiteCylinderGM diameter height) opt frame], Obj.defaultOwn, Obj.defaultNext 1⟩] w b reps minE true = .ok res ∧
      ∀ k < reps, (((res.tree[k + 1]?).getD []).map Ray.strip).Perm
        ((b.filter fun r => stillTraced a minE k r && decide (|pipeHeight (diameter / 2) frame.rot.c3 frame.loc r k| ≤ height / 2)).map fun r =>
          (pipeRay (diameter / 2) frame.rot.c3 frame.loc a r (k + 1)).strip) := by
  have hmo := mirrorOptics_of ho
  obtain ⟨res, hres⟩ := lone_traced (.finiteCylinder diameter height hD) hmo hf w (fun r hr => (hin r hr).unit) reps minE
  refine ⟨res, hres, fun k hk => ?_⟩
  have horb := pipe_orbit (g := finiteCylinderGM diameter height) (Z := fun z => |z| ≤ height / 2) (S := finiteCylinderSet (diameter / 2) height)
    (by positivity) hf (fun q => Iff.rfl)
    (fun r h => by
      obtain ⟨p, h1, h2, _⟩ := C35_finite_cylinder hf diameter height [r] 0 r rfl
      exact ⟨p, h1, h2 h⟩) (PlainGeometry.finiteCylinder diameter height hD).perRay rfl ho w hin
  have := C84_mirrors (lone_plain _) (lone_mirrors (.finiteCylinder diameter height hD) hmo) hres (k := k + 1) hk
  refine this.trans (List.Perm.of_eq ?_)
  rw [(lone_generation horb k).2, List.map_map]
  have hfil : ∀ hits : Ray ℝ E → Nat → Bool, (∀ r k, hits r k = true ↔ |pipeHeight (diameter / 2) frame.rot.c3 frame.loc r k| ≤ height / 2) →
      b.filter (fun r => followed minE hits (pipeRay (diameter / 2) frame.rot.c3 frame.loc a) k r && hits r k) =
      b.filter (fun r => stillTraced a minE k r && decide (|pipeHeight (diameter / 2) frame.rot.c3 frame.loc r k| ≤ height / 2)) := by
    intro hits hh
    refine List.filter_congr fun r hr => ?_
    rw [followed_pipe frame.rot.c3 frame.loc (fun h j hj => (hh r j).2 (inside_before (hin r hr) (hends r hr) hj ((hh r k).1 h)))]
    congr 1
    rw [Bool.eq_iff_iff, hh]
    simp
  rw [hfil _ (fun r k => by simp)]
  rfl

/-- C91: the receiver on the wall of a pipe of finite length reports every reflection: its place and what it absorbed there. -/
theorem C91_receiver {diameter height : ℝ} (hD : 0 < diameter) (hf : frame.Rigid) {get : σ → Account ℝ} {set : Account ℝ → σ → σ}
    (hgs : ∀ acc w, get (set acc w) = acc) {w : σ} (hw : get w = Account.reset) {b : Bundle ℝ E}
    (hin : ∀ r ∈ b, InPipe (diameter / 2) frame.rot.c3 frame.loc r) (hends : ∀ r ∈ b, |V3.dot (r.vertex - frame.loc) frame.rot.c3| ≤ height / 2)
    (reps : Nat) (minE : ℝ) :
    ∃ res es ps, rayTracer [⟨[mkSurf (finiteCylinderGM diameter height) (reflectiveReceiver a get set) frame], Obj.defaultOwn, Obj.defaultNext 1⟩]
        w b reps minE true = .ok res ∧
      (get res.world).getAllHits = .ok (es, ps) ∧ es.length = ps.length ∧
      (es.zip ps).Perm ((List.range reps).flatMap fun k =>
        (b.filter fun r => stillTraced a minE k r && decide (|pipeHeight (diameter / 2) frame.rot.c3 frame.loc r k| ≤ height / 2)).map fun r =>
        (r.energy * (1 - a) ^ k * a, pipePoint (diameter / 2) frame.rot.c3 frame.loc r k)) := by
  have hmo : MirrorOptics (reflectiveReceiver a get set : Optics σ ℝ E) := .receiver a get set _ (.mirror a)
  obtain ⟨res, hres⟩ := lone_traced (.finiteCylinder diameter height hD) hmo hf w (fun r hr => (hin r hr).unit) reps minE
  have horb := pipe_orbit (a := a) (g := finiteCylinderGM diameter height) (Z := fun z => |z| ≤ height / 2) (S := finiteCylinderSet (diameter / 2) height)
    (by positivity) hf (fun q => Iff.rfl)
    (fun r h => by
      obtain ⟨p, h1, h2, _⟩ := C35_finite_cylinder hf diameter height [r] 0 r rfl
      exact ⟨p, h1, h2 h⟩) (PlainGeometry.finiteCylinder diameter height hD).perRay rfl (Or.inr ⟨get, set, rfl⟩) w hin
  obtain ⟨es, ps, hes, hlen, hperm⟩ := C67_mirrors (lone_plain _) (lone_mirrors (.finiteCylinder diameter height hD) hmo) hgs
    (C51_reflective a get).1 (x := ⟨0, 0, mkSurf (finiteCylinderGM diameter height) (reflectiveReceiver a get set) frame⟩)
    (by rw [lone_sites]; exact List.mem_singleton.2 rfl) rfl
    (fun y hy hne => by
      rw [lone_sites, List.mem_singleton] at hy
      subst hy
      exact absurd ⟨rfl, rfl⟩ hne) hres hw
  refine ⟨res, es, ps, hres, hes, hlen, hperm.trans (List.Perm.of_eq ?_)⟩
  rw [lone_hits horb, List.map_flatMap]
  refine List.flatMap_congr fun k _ => ?_
  have hfil : ∀ hits : Ray ℝ E → Nat → Bool, (∀ r k, hits r k = true ↔ |pipeHeight (diameter / 2) frame.rot.c3 frame.loc r k| ≤ height / 2) →
      b.filter (fun r => followed minE hits (pipeRay (diameter / 2) frame.rot.c3 frame.loc a) k r && hits r k) =
      b.filter (fun r => stillTraced a minE k r && decide (|pipeHeight (diameter / 2) frame.rot.c3 frame.loc r k| ≤ height / 2)) := by
    intro hits hh
    refine List.filter_congr fun r hr => ?_
    rw [followed_pipe frame.rot.c3 frame.loc (fun h j hj => (hh r j).2 (inside_before (hin r hr) (hends r hr) hj ((hh r k).1 h)))]
    congr 1
    rw [Bool.eq_iff_iff, hh]
    simp
  rw [hfil _ (fun r k => by simp), List.map_map]
  refine List.map_congr_left fun r hr => ?_
  have hr' := (List.mem_filter.1 hr).1
  have hR : 0 < diameter / 2 := by positivity
  obtain ⟨_, _, _, f4, _⟩ := pipeRay_facts (hin r hr') hR (axis_unit hf) a k
  have h1 := C91_helix hR (axis_unit hf) (hin r hr') a k
  show ((pipeRay _ _ _ a r k).energy * a, (pipeRay _ _ _ a r k).at (_ / _)) = _
  rw [f4, h1.2.2.2.2]

end

/-- Light for a pipe of radius 1 and length 10: it starts on the axis at -4 and goes half way across and half way up. -/
noncomputable def Examples.pipeLight : Ray ℝ Unit := ⟨⟨0, 0, -4⟩, ⟨√(1 / 2), 0, √(1 / 2)⟩, 1, 0, none, ()⟩

theorem Examples.pipeLight_dir : V3.dot Examples.pipeLight.dir (⟨0, 0, 1⟩ : V3 ℝ) = √(1 / 2) := by unfold V3.dot; simp [Examples.pipeLight]

theorem Examples.pipeLight_start : V3.dot (Examples.pipeLight.vertex - 0) (⟨0, 0, 1⟩ : V3 ℝ) = -4 := by unfold V3.dot; simp [Examples.pipeLight]

theorem Examples.pipeLight_cross_dir : crosswise (⟨0, 0, 1⟩ : V3 ℝ) Examples.pipeLight.dir = ⟨√(1 / 2), 0, 0⟩ := by
  unfold crosswise V3.dot; apply V3.ext <;> simp [Examples.pipeLight]

theorem Examples.pipeLight_cross : crosswise (⟨0, 0, 1⟩ : V3 ℝ) (Examples.pipeLight.vertex - 0) = 0 := by
  unfold crosswise V3.dot; apply V3.ext <;> simp [Examples.pipeLight]

theorem Examples.half_sq : √(1 / 2 : ℝ) * √(1 / 2) = 1 / 2 := Real.mul_self_sqrt (by norm_num)

theorem Examples.pipeLight_way (k : Nat) : pipeWay 1 (⟨0, 0, 1⟩ : V3 ℝ) 0 Examples.pipeLight k = (1 + 2 * k) / √(1 / 2) := by
  have hspeed : crossSpeed (⟨0, 0, 1⟩ : V3 ℝ) Examples.pipeLight = √(1 / 2) := by
    unfold crossSpeed
    rw [Examples.pipeLight_cross_dir]
    congr 1
    unfold V3.dot; simp only; rw [Examples.half_sq]; norm_num
  have hsv : (shadow (⟨0, 0, 1⟩ : V3 ℝ) 0 Examples.pipeLight).vertex = 0 := by
    show (0 : V3 ℝ) + crosswise _ (Examples.pipeLight.vertex - 0) = 0
    rw [Examples.pipeLight_cross]; apply V3.ext <;> simp
  have hmiss : missSq 0 (shadow (⟨0, 0, 1⟩ : V3 ℝ) 0 Examples.pipeLight) = 0 := by
    unfold missSq
    rw [hsv]
    unfold V3.cross V3.dot; simp
  have hhalf : halfChord 1 0 (shadow (⟨0, 0, 1⟩ : V3 ℝ) 0 Examples.pipeLight) = 1 := by
    unfold halfChord; rw [hmiss]; simp
  have hway : wayToWall 1 0 (shadow (⟨0, 0, 1⟩ : V3 ℝ) 0 Examples.pipeLight) = 1 := by
    unfold wayToWall; rw [hhalf, hsv]; unfold V3.dot; simp
  unfold pipeWay; rw [hway, hhalf, hspeed, mul_one]

theorem Examples.pipeLight_in : InPipe 1 ⟨0, 0, 1⟩ 0 Examples.pipeLight := by
  have hp : 0 < √(1 / 2 : ℝ) := Real.sqrt_pos.2 (by norm_num)
  refine ⟨?_, ?_, ?_, ?_⟩
  · show √(1 / 2 : ℝ) * √(1 / 2) + 0 * 0 + √(1 / 2) * √(1 / 2) = 1
    rw [Examples.half_sq]; norm_num
  · rw [Examples.pipeLight_cross]; unfold V3.dot; simp
  · rw [Examples.pipeLight_cross_dir]; unfold V3.dot; simp only; rw [Examples.half_sq]; norm_num
  · rw [Examples.pipeLight_way, lt_div_iff₀ hp]
    have := Examples.half_sq
    have : √(1 / 2 : ℝ) ≤ 1 := by nlinarith
    norm_num at this ⊢
    linarith

theorem Examples.pipeLight_height (k : Nat) : pipeHeight 1 (⟨0, 0, 1⟩ : V3 ℝ) 0 Examples.pipeLight k = 2 * k - 3 := by
  have hp : 0 < √(1 / 2 : ℝ) := Real.sqrt_pos.2 (by norm_num)
  unfold pipeHeight
  rw [Examples.pipeLight_way, Examples.pipeLight_start, Examples.pipeLight_dir]
  field_simp
  ring

theorem Examples.pipeLight_ends : |V3.dot (Examples.pipeLight.vertex - 0) (⟨0, 0, 1⟩ : V3 ℝ)| ≤ 10 / 2 := by
  rw [Examples.pipeLight_start, abs_le]; norm_num

/-- The conditions can be met: the light meets the wall at the heights -3, -1, 1, 3 and 5, and then leaves. -/
example : (∃ n, (∀ k < n, |pipeHeight 1 (⟨0, 0, 1⟩ : V3 ℝ) 0 Examples.pipeLight k| ≤ 10 / 2) ∧
      ∀ k, n ≤ k → 10 / 2 < |pipeHeight 1 (⟨0, 0, 1⟩ : V3 ℝ) 0 Examples.pipeLight k|) ∧
    (∀ k : Nat, (pipeRay 1 ⟨0, 0, 1⟩ 0 (1 / 10) Examples.pipeLight k).energy = 1 * (1 - 1 / 10) ^ k) :=
  ⟨C91_out Examples.pipeLight_in Examples.pipeLight_ends (by rw [Examples.pipeLight_dir]; exact (Real.sqrt_pos.2 (by norm_num)).ne'),
    fun k => (C91_helix one_pos (by norm_num [V3.IsUnit, V3.dot]) Examples.pipeLight_in (1 / 10) k).2.2.2.2⟩

/-- Traced in such a pipe, open or without end; a receiver records it on the wall. -/
example (reps : Nat) :
    (∃ res : TraceResult Unit ℝ Unit, rayTracer [⟨[mkSurf (infiniteCylinderGM 2) (reflective (1 / 10)) 1], Obj.defaultOwn, Obj.defaultNext 1⟩]
      () [Examples.pipeLight] reps (1 / 100) true = .ok res) ∧
    (∃ res : TraceResult Unit ℝ Unit, rayTracer [⟨[mkSurf (finiteCylinderGM 2 10) (reflective (1 / 10)) 1], Obj.defaultOwn, Obj.defaultNext 1⟩]
      () [Examples.pipeLight] reps (1 / 100) true = .ok res) ∧
    ∃ (res : TraceResult (Account ℝ) ℝ Unit) (es : List ℝ) (ps : List (V3 ℝ)),
      rayTracer [⟨[mkSurf (finiteCylinderGM 2 10) (reflectiveReceiver (1 / 10) id fun a _ => a) 1], Obj.defaultOwn, Obj.defaultNext 1⟩]
        Account.reset [Examples.pipeLight] reps (1 / 100) true = .ok res ∧ res.world.getAllHits = .ok (es, ps) := by
  have hin : ∀ r ∈ [Examples.pipeLight], InPipe (2 / 2) (1 : Tf ℝ).rot.c3 (1 : Tf ℝ).loc r := by
    intro r hr
    rw [List.mem_singleton] at hr
    subst hr
    rw [show (2 / 2 : ℝ) = 1 by norm_num]
    exact Examples.pipeLight_in
  have hends : ∀ r ∈ [Examples.pipeLight], |V3.dot (r.vertex - (1 : Tf ℝ).loc) (1 : Tf ℝ).rot.c3| ≤ 10 / 2 := by
    intro r hr
    rw [List.mem_singleton] at hr
    subst hr
    exact Examples.pipeLight_ends
  obtain ⟨r1, h1, _⟩ := C91_infinite two_pos Tf.Rigid.one (opt := reflective (1 / 10)) (Or.inl rfl) () hin reps (1 / 100)
  obtain ⟨r2, h2, _⟩ := C91_finite two_pos Tf.Rigid.one (opt := reflective (1 / 10)) (Or.inl rfl) () hin hends reps (1 / 100)
  obtain ⟨r3, es, ps, h3, h4, _⟩ := C91_receiver (a := 1 / 10) (get := id) (set := fun a (_ : Account ℝ) => a) (w := Account.reset) two_pos Tf.Rigid.one
    (fun _ _ => rfl) rfl hin hends reps (1 / 100)
  exact ⟨⟨r1, h1⟩, ⟨r2, h2⟩, r3, es, ps, h3, h4⟩

end Tracer
