import Verif.Lemmas.Cavity
import Verif.Spec.Pipe

/-! Rays in a round pipe, and its surface as the engine sees it. -/

namespace Tracer

variable {E σ : Type _}

section
variable {R : ℝ} {e c : V3 ℝ} {r : Ray ℝ E}

theorem crosswise_e (he : V3.dot e e = 1) (v : V3 ℝ) : V3.dot (crosswise e v) e = 0 := by
  have : V3.dot (crosswise e v) e = V3.dot v e - V3.dot v e * V3.dot e e := by
    unfold crosswise V3.dot; simp only [V3.sub_x, V3.sub_y, V3.sub_z, V3.smul_x, V3.smul_y, V3.smul_z]; ring
  rw [this, he]; ring

theorem InPipe.speed (hin : InPipe R e c r) : 0 < crossSpeed e r ∧ crossSpeed e r ^ 2 = V3.dot (crosswise e r.dir) (crosswise e r.dir) := by
  have h := hin.steep
  have h0 : 0 < V3.dot (crosswise e r.dir) (crosswise e r.dir) := lt_trans (by norm_num) h
  exact ⟨Real.sqrt_pos.2 h0, Real.sq_sqrt h0.le⟩

theorem InPipe.shadow_in (hin : InPipe R e c r) : InCavity (crossSpeed e r / 10 ^ 6) R c (shadow e c r) := by
  obtain ⟨hm, hm2⟩ := hin.speed
  refine ⟨?_, ?_, ?_, by positivity⟩
  · show V3.dot ((1 / crossSpeed e r) • crosswise e r.dir) ((1 / crossSpeed e r) • crosswise e r.dir) = 1
    have : V3.dot ((1 / crossSpeed e r) • crosswise e r.dir) ((1 / crossSpeed e r) • crosswise e r.dir) =
        (1 / crossSpeed e r) ^ 2 * V3.dot (crosswise e r.dir) (crosswise e r.dir) := by
      unfold V3.dot; simp only [V3.smul_x, V3.smul_y, V3.smul_z]; ring
    rw [this, ← hm2]
    field_simp
  · have : V3.dist2 (shadow e c r).vertex c = V3.dot (crosswise e (r.vertex - c)) (crosswise e (r.vertex - c)) := by
      unfold V3.dist2
      have e1 : (shadow e c r).vertex - c = crosswise e (r.vertex - c) := by
        show c + crosswise e (r.vertex - c) - c = _
        apply V3.ext <;> simp
      rw [e1]
    rw [this]
    exact hin.inside
  · have h := hin.far
    unfold pipeWay at h
    rw [lt_div_iff₀ hm] at h
    simp only [Nat.cast_zero, mul_zero, zero_mul, add_zero] at h
    linarith

/-- A ray and its shadow on the plane at right angles to the axis. -/
structure Casts (e c : V3 ℝ) (m : ℝ) (r ρ : Ray ℝ E) : Prop where
  vertex : crosswise e (r.vertex - c) = ρ.vertex - c
  dir : crosswise e r.dir = m • ρ.dir

theorem InPipe.casts (hin : InPipe R e c r) : Casts e c (crossSpeed e r) r (shadow e c r) := by
  obtain ⟨hm, _⟩ := hin.speed
  constructor
  · show _ = c + crosswise e (r.vertex - c) - c
    apply V3.ext <;> simp
  · show _ = crossSpeed e r • ((1 / crossSpeed e r) • crosswise e r.dir)
    apply V3.ext <;> simp only [V3.smul_x, V3.smul_y, V3.smul_z] <;> field_simp

theorem Casts.at {m : ℝ} {r ρ : Ray ℝ E} (h : Casts e c m r ρ) (t : ℝ) : crosswise e (r.at t - c) = ρ.at (t * m) - c := by
  have hv := h.vertex
  have hd := h.dir
  have e1 : crosswise e (r.at t - c) = crosswise e (r.vertex - c) + t • crosswise e r.dir := by
    unfold crosswise Ray.at V3.dot
    apply V3.ext <;> simp only [V3.add_x, V3.add_y, V3.add_z, V3.sub_x, V3.sub_y, V3.sub_z, V3.smul_x, V3.smul_y, V3.smul_z] <;> ring
  rw [e1, hv, hd]
  unfold Ray.at
  apply V3.ext <;> simp only [V3.add_x, V3.add_y, V3.add_z, V3.sub_x, V3.sub_y, V3.sub_z, V3.smul_x, V3.smul_y, V3.smul_z] <;> ring

theorem bounce_flat (he : V3.dot e e = 1) (k : Nat) : V3.dot (bouncePoint R c (shadow e c r) k) e = 0 := by
  have h1 := crosswise_e he (r.vertex - c)
  have h2 := crosswise_e he r.dir
  have hw : V3.dot (wallPoint R c (shadow e c r)) e = 0 := by
    have : V3.dot (wallPoint R c (shadow e c r)) e = V3.dot (crosswise e (r.vertex - c)) e +
        wayToWall R c (shadow e c r) * (1 / crossSpeed e r) * V3.dot (crosswise e r.dir) e := by
      unfold wallPoint Ray.at shadow V3.dot
      simp only [V3.add_x, V3.add_y, V3.add_z, V3.sub_x, V3.sub_y, V3.sub_z, V3.smul_x, V3.smul_y, V3.smul_z]
      ring
    rw [this, h1, h2]; ring
  have hs : V3.dot (sideways R c (shadow e c r)) e = 0 := by
    have : V3.dot (sideways R c (shadow e c r)) e = 1 / missDistance c (shadow e c r) * (R ^ 2 * ((1 / crossSpeed e r) * V3.dot (crosswise e r.dir) e) -
        halfChord R c (shadow e c r) * V3.dot (wallPoint R c (shadow e c r)) e) := by
      have hd : (shadow e c r).dir = (1 / crossSpeed e r) • crosswise e r.dir := rfl
      unfold sideways
      rw [hd]
      unfold V3.dot
      simp only [V3.sub_x, V3.sub_y, V3.sub_z, V3.smul_x, V3.smul_y, V3.smul_z]
      ring
    rw [this, h2, hw]; ring
  have : V3.dot (bouncePoint R c (shadow e c r) k) e = Real.cos (k * chordAngle R c (shadow e c r)) * V3.dot (wallPoint R c (shadow e c r)) e +
      Real.sin (k * chordAngle R c (shadow e c r)) * V3.dot (sideways R c (shadow e c r)) e := by
    unfold bouncePoint V3.dot
    simp only [V3.add_x, V3.add_y, V3.add_z, V3.smul_x, V3.smul_y, V3.smul_z]
    ring
  rw [this, hw, hs]; ring

theorem crosswise_of_flat {v : V3 ℝ} (h : V3.dot v e = 0) : crosswise e v = v := by
  unfold crosswise; rw [h]; apply V3.ext <;> simp

/-- The rays of the pipe, by their shadows and their motion along the axis. -/
theorem pipeRay_facts (hin : InPipe R e c r) (hR : 0 < R) (he : V3.dot e e = 1) (a : ℝ) (k : Nat) :
    Casts e c (crossSpeed e r) (pipeRay R e c a r k) (cavityRay R c a (shadow e c r) k) ∧
    V3.dot (pipeRay R e c a r k).dir e = V3.dot r.dir e ∧
    (pipeRay R e c a r k).dir = crossSpeed e r • (cavityRay R c a (shadow e c r) k).dir + V3.dot r.dir e • e ∧
    (pipeRay R e c a r k).at (wayToWall R c (cavityRay R c a (shadow e c r) k) / crossSpeed e r) = pipePoint R e c r k ∧
    wayToWall R c (cavityRay R c a (shadow e c r) k) / crossSpeed e r = pipeWay R e c r k - (if k = 0 then 0 else pipeWay R e c r (k - 1)) := by
  obtain ⟨hm, hm2⟩ := hin.speed
  have hsh := hin.shadow_in
  have hc := hsh.chord
  have hs := hc.spos
  obtain ⟨hk, hwall, hhalf, hway⟩ := cavityRay_inside hsh hR a k
  have hdec : ∀ v : V3 ℝ, v = crosswise e v + V3.dot v e • e := by
    intro v; unfold crosswise; apply V3.ext <;> simp
  cases k with
  | zero =>
    have hcast := hin.casts
    have hr0 : (pipeRay R e c a r 0) = r := rfl
    have hc0 : (cavityRay R c a (shadow e c r) 0) = shadow e c r := rfl
    rw [hr0, hc0]
    have hway0 : wayToWall R c (shadow e c r) / crossSpeed e r = pipeWay R e c r 0 := by unfold pipeWay; simp
    refine ⟨hcast, rfl, ?_, ?_, by rw [hway0]; simp⟩
    · conv_lhs => rw [hdec r.dir, hcast.dir]
    · have h1 := hcast.at (pipeWay R e c r 0)
      rw [hway0]
      have h2 : (shadow e c r).at (pipeWay R e c r 0 * crossSpeed e r) - c = bouncePoint R c (shadow e c r) 0 := by
        rw [(hc.points hR (bouncePoint R c (shadow e c r)) (fun _ => rfl) 0).1, ← hway0, div_mul_cancel₀ _ hm.ne']
        rfl
      rw [h2] at h1
      have h3 : V3.dot (r.at (pipeWay R e c r 0) - c) e = pipeHeight R e c r 0 := by
        unfold pipeHeight Ray.at V3.dot
        simp only [V3.add_x, V3.add_y, V3.add_z, V3.sub_x, V3.sub_y, V3.sub_z, V3.smul_x, V3.smul_y, V3.smul_z]
        ring
      have h4 := hdec (r.at (pipeWay R e c r 0) - c)
      rw [h1, h3] at h4
      have hx := congrArg V3.x h4
      have hy := congrArg V3.y h4
      have hz := congrArg V3.z h4
      unfold pipePoint
      simp only [V3.add_x, V3.add_y, V3.add_z, V3.sub_x, V3.sub_y, V3.sub_z, V3.smul_x, V3.smul_y, V3.smul_z] at hx hy hz
      apply V3.ext <;> simp only [V3.add_x, V3.add_y, V3.add_z, V3.smul_x, V3.smul_y, V3.smul_z] <;> linarith
  | succ k =>
    have hleg : pipeWay R e c r (k + 1) - pipeWay R e c r k = 2 * halfChord R c (shadow e c r) / crossSpeed e r := by
      unfold pipeWay; push_cast; field_simp; ring
    have hheight : pipeHeight R e c r (k + 1) - pipeHeight R e c r k = 2 * halfChord R c (shadow e c r) / crossSpeed e r * V3.dot r.dir e := by
      unfold pipeHeight; rw [← hleg]; ring
    have hdir : (pipeRay R e c a r (k + 1)).dir = crossSpeed e r • (cavityRay R c a (shadow e c r) (k + 1)).dir + V3.dot r.dir e • e := by
      show (1 / (pipeWay R e c r (k + 1) - pipeWay R e c r k)) • (pipePoint R e c r (k + 1) - pipePoint R e c r k) =
        crossSpeed e r • ((1 / (2 * halfChord R c (shadow e c r))) • (bouncePoint R c (shadow e c r) (k + 1) - bouncePoint R c (shadow e c r) k)) + _
      have hh : pipeHeight R e c r (k + 1) = pipeHeight R e c r k + 2 * halfChord R c (shadow e c r) / crossSpeed e r * V3.dot r.dir e := by linarith
      rw [hleg]
      unfold pipePoint
      rw [hh]
      apply V3.ext <;> simp only [V3.add_x, V3.add_y, V3.add_z, V3.sub_x, V3.sub_y, V3.sub_z, V3.smul_x, V3.smul_y, V3.smul_z] <;> field_simp <;> ring
    have hb := bounce_flat (R := R) (c := c) (r := r) he
    have hflat : V3.dot (cavityRay R c a (shadow e c r) (k + 1)).dir e = 0 := by
      show V3.dot ((1 / (2 * halfChord R c (shadow e c r))) • (bouncePoint R c (shadow e c r) (k + 1) - bouncePoint R c (shadow e c r) k)) e = 0
      have : ∀ (A B : V3 ℝ) (m : ℝ), V3.dot (m • (B - A)) e = m * (V3.dot B e - V3.dot A e) := by
        intro A B m; unfold V3.dot; simp only [V3.sub_x, V3.sub_y, V3.sub_z, V3.smul_x, V3.smul_y, V3.smul_z]; ring
      rw [this, hb, hb]; ring
    have hde : V3.dot (pipeRay R e c a r (k + 1)).dir e = V3.dot r.dir e := by
      rw [hdir]
      have : V3.dot (crossSpeed e r • (cavityRay R c a (shadow e c r) (k + 1)).dir + V3.dot r.dir e • e) e =
          crossSpeed e r * V3.dot (cavityRay R c a (shadow e c r) (k + 1)).dir e + V3.dot r.dir e * V3.dot e e := by
        generalize V3.dot r.dir e = z
        unfold V3.dot; simp only [V3.add_x, V3.add_y, V3.add_z, V3.smul_x, V3.smul_y, V3.smul_z]; ring
      rw [this, hflat, he]; ring
    have hwk : wayToWall R c (cavityRay R c a (shadow e c r) (k + 1)) / crossSpeed e r = pipeWay R e c r (k + 1) - pipeWay R e c r k := by
      rw [hway, if_neg (Nat.succ_ne_zero k), hleg]
    refine ⟨⟨?_, ?_⟩, hde, hdir, ?_, ?_⟩
    · show crosswise e (pipePoint R e c r k - c) = c + bouncePoint R c (shadow e c r) k - c
      have h1 : pipePoint R e c r k - c = bouncePoint R c (shadow e c r) k + pipeHeight R e c r k • e := by
        unfold pipePoint
        apply V3.ext <;> simp only [V3.add_x, V3.add_y, V3.add_z, V3.sub_x, V3.sub_y, V3.sub_z] <;> ring
      have h2 : V3.dot (bouncePoint R c (shadow e c r) k + pipeHeight R e c r k • e) e = pipeHeight R e c r k := by
        have : V3.dot (bouncePoint R c (shadow e c r) k + pipeHeight R e c r k • e) e =
            V3.dot (bouncePoint R c (shadow e c r) k) e + pipeHeight R e c r k * V3.dot e e := by
          unfold V3.dot; simp only [V3.add_x, V3.add_y, V3.add_z, V3.smul_x, V3.smul_y, V3.smul_z]; ring
        rw [this, hb, he]; ring
      rw [h1]
      unfold crosswise
      rw [h2]
      apply V3.ext <;> simp only [V3.add_x, V3.add_y, V3.add_z, V3.sub_x, V3.sub_y, V3.sub_z, V3.smul_x, V3.smul_y, V3.smul_z] <;> ring
    · unfold crosswise
      rw [hde, hdir]
      apply V3.ext <;> simp only [V3.add_x, V3.add_y, V3.add_z, V3.sub_x, V3.sub_y, V3.sub_z, V3.smul_x, V3.smul_y, V3.smul_z] <;> ring
    · rw [hwk]
      show pipePoint R e c r k + (pipeWay R e c r (k + 1) - pipeWay R e c r k) •
        ((1 / (pipeWay R e c r (k + 1) - pipeWay R e c r k)) • (pipePoint R e c r (k + 1) - pipePoint R e c r k)) = _
      have : pipeWay R e c r (k + 1) - pipeWay R e c r k ≠ 0 := by rw [hleg]; positivity
      generalize pipeWay R e c r (k + 1) - pipeWay R e c r k = x at *
      apply V3.ext <;> simp only [V3.add_x, V3.add_y, V3.add_z, V3.sub_x, V3.sub_y, V3.sub_z, V3.smul_x, V3.smul_y, V3.smul_z] <;> field_simp <;> ring
    · rw [hwk, if_neg (Nat.succ_ne_zero k)]
      rfl

end

section
variable {R : ℝ} {g : Geometry ℝ E} {frame : Tf ℝ} {opt : Optics σ ℝ E} {r ρ : Ray ℝ E}

theorem local_point (hf : frame.Rigid) (p : V3 ℝ) : frame.inv.point p = localDir frame (p - frame.loc) := by
  rw [localDir_eq hf]
  unfold Tf.inv Tf.point Tf.dir
  apply V3.ext <;> simp <;> ring

theorem localDir_z (d : V3 ℝ) : (localDir frame d).z = V3.dot d frame.rot.c3 := by
  unfold localDir V3.dot M3.transpose; simp only [M3.mulVec_z]; ring

theorem axis_unit (hf : frame.Rigid) : V3.dot frame.rot.c3 frame.rot.c3 = 1 := ((M3.isRotation_iff _).1 hf).1.2.2.1

theorem offAxis_eq (hf : frame.Rigid) (d : V3 ℝ) : offAxis frame d = V3.dot (crosswise frame.rot.c3 d) (crosswise frame.rot.c3 d) := by
  have hu := axis_unit hf
  have h1 : offAxis frame d = V3.dot d d * V3.dot frame.rot.c3 frame.rot.c3 - V3.dot d frame.rot.c3 ^ 2 := by
    unfold offAxis V3.dot V3.cross; ring
  have h2 : V3.dot (crosswise frame.rot.c3 d) (crosswise frame.rot.c3 d) = V3.dot d d - 2 * V3.dot d frame.rot.c3 ^ 2 +
      V3.dot d frame.rot.c3 ^ 2 * V3.dot frame.rot.c3 frame.rot.c3 := by
    unfold crosswise
    generalize hz : V3.dot d frame.rot.c3 = z
    have : V3.dot (d - z • frame.rot.c3) (d - z • frame.rot.c3) = V3.dot d d - 2 * z * V3.dot d frame.rot.c3 + z ^ 2 * V3.dot frame.rot.c3 frame.rot.c3 := by
      unfold V3.dot; simp only [V3.sub_x, V3.sub_y, V3.sub_z, V3.smul_x, V3.smul_y, V3.smul_z]; ring
    rw [this, hz]; ring
  rw [h1, h2, hu]; ring

/-- The points of a pipe, possibly of finite length. -/
theorem pipe_placed (hf : frame.Rigid) {S : V3 ℝ → Prop} {Z : ℝ → Prop} (hS : ∀ q, S q ↔ cylinderSet R q ∧ Z q.z) (p : V3 ℝ) :
    Placed frame S p ↔ V3.dot (crosswise frame.rot.c3 (p - frame.loc)) (crosswise frame.rot.c3 (p - frame.loc)) = R ^ 2 ∧
      Z (V3.dot (p - frame.loc) frame.rot.c3) := by
  rw [placed_iff (M3.IsRotation.det_ne hf), hS, local_point hf, localDir_z, ← offAxis_eq hf, ← local_sq hf]
  rfl

/-- What a ray in a pipe meets. -/
theorem pipe_single (hf : frame.Rigid) {S : V3 ℝ → Prop} {Z : ℝ → Prop} (hS : ∀ q, S q ↔ cylinderSet R q ∧ Z q.z)
    (hfind : ∃ p, (g.find frame [r])[0]? = some p ∧ FirstAmong (0 < ·) (Placed frame S) r.vertex r.dir p)
    {m δ : ℝ} (hm : 0 < m) (hin : InCavity δ R frame.loc ρ) (hc : Casts frame.rot.c3 frame.loc m r ρ) :
    (Z (V3.dot (r.at (wayToWall R frame.loc ρ / m) - frame.loc) frame.rot.c3) →
      (mkSurf g opt frame : Surf σ ℝ E).single r = ((wayToWall R frame.loc ρ / m : ℝ) : WithTop ℝ)) ∧
    (¬ Z (V3.dot (r.at (wayToWall R frame.loc ρ / m) - frame.loc) frame.rot.c3) → (mkSurf g opt frame : Surf σ ℝ E).single r = ⊤) := by
  obtain ⟨p, hp, hfirst⟩ := hfind
  rw [single_of_find hp]
  have hpos : 0 < wayToWall R frame.loc ρ := lt_of_le_of_lt hin.nonneg hin.far
  have hpm : 0 < wayToWall R frame.loc ρ / m := by positivity
  have hon : ∀ t : ℝ, Placed frame S (r.vertex + t • r.dir) ↔ V3.dist2 (ρ.vertex + (t * m) • ρ.dir) frame.loc = R ^ 2 ∧
      Z (V3.dot (r.at t - frame.loc) frame.rot.c3) := by
    intro t
    rw [pipe_placed hf hS]
    have := hc.at t
    unfold Ray.at at this ⊢
    rw [this]
    rfl
  have hend : V3.dist2 (ρ.vertex + (wayToWall R frame.loc ρ / m * m) • ρ.dir) frame.loc = R ^ 2 := by
    rw [div_mul_cancel₀ _ hm.ne', hin.on_wall]; ring
  have huniq : ∀ t : ℝ, 0 < t → Placed frame S (r.vertex + t • r.dir) → t = wayToWall R frame.loc ρ / m := by
    intro t ht h
    rw [eq_div_iff hm.ne']
    exact hin.ahead (by positivity) ((hon t).1 h).1
  constructor
  · intro hz
    cases p with
    | top => exact absurd ((hon _).2 ⟨hend, hz⟩) (hfirst _ hpm)
    | coe t => rw [huniq t hfirst.1 hfirst.2.1]
  · intro hz
    cases p with
    | top => rfl
    | coe t =>
      exfalso
      have ht := huniq t hfirst.1 hfirst.2.1
      have := ((hon t).1 hfirst.2.1).2
      rw [ht] at this
      exact hz this

theorem crosswise_local (hf : frame.Rigid) (v : V3 ℝ) :
    frame.rot.mulVec ⟨(localDir frame v).x, (localDir frame v).y, 0⟩ = crosswise frame.rot.c3 v := by
  have h1 : frame.rot.mulVec (localDir frame v) = v := by
    have := Tf.point_inv_point (t := frame) (M3.IsRotation.det_ne hf) (v + frame.loc)
    rw [local_point hf] at this
    have e1 : v + frame.loc - frame.loc = v := by apply V3.ext <;> simp
    rw [e1] at this
    unfold Tf.point at this
    have hx := congrArg V3.x this
    have hy := congrArg V3.y this
    have hz := congrArg V3.z this
    simp only [V3.add_x, V3.add_y, V3.add_z] at hx hy hz
    apply V3.ext <;> linarith
  have h2 := localDir_z (frame := frame) v
  unfold crosswise
  rw [← h2]
  conv_rhs => rw [← h1]
  have h3 : localDir frame (frame.rot.mulVec (localDir frame v)) = localDir frame v := by rw [h1]
  rw [h3]
  apply V3.ext <;> simp only [M3.mulVec_x, M3.mulVec_y, M3.mulVec_z, V3.sub_x, V3.sub_y, V3.sub_z, V3.smul_x, V3.smul_y, V3.smul_z] <;> ring

/-- The reflection at the wall of a pipe. -/
theorem pipe_reflection (hf : frame.Rigid) (hR : 0 < R) {p d : V3 ℝ}
    (hp : V3.dot (crosswise frame.rot.c3 (p - frame.loc)) (crosswise frame.rot.c3 (p - frame.loc)) = R ^ 2) :
    reflection d (cylinderNormal frame p d) = d - (2 * V3.dot d (crosswise frame.rot.c3 (p - frame.loc)) / R ^ 2) • crosswise frame.rot.c3 (p - frame.loc) := by
  have hl := local_sq hf (p - frame.loc)
  rw [offAxis_eq hf, hp] at hl
  have hs : √((localDir frame (p - frame.loc)).x ^ 2 + (localDir frame (p - frame.loc)).y ^ 2) = R := by rw [hl, Real.sqrt_sq hR.le]
  have hq := crosswise_local hf (p - frame.loc)
  have key : ∀ ε : ℝ, ε ^ 2 = 1 → reflection d (frame.rot.mulVec (ε • (⟨(localDir frame (p - frame.loc)).x / R,
      (localDir frame (p - frame.loc)).y / R, 0 / R⟩ : V3 ℝ))) =
      d - (2 * V3.dot d (crosswise frame.rot.c3 (p - frame.loc)) / R ^ 2) • crosswise frame.rot.c3 (p - frame.loc) := by
    intro ε hε
    have e1 : frame.rot.mulVec (ε • (⟨(localDir frame (p - frame.loc)).x / R, (localDir frame (p - frame.loc)).y / R, 0 / R⟩ : V3 ℝ)) =
        (ε / R) • crosswise frame.rot.c3 (p - frame.loc) := by
      rw [← hq]
      apply V3.ext <;> simp only [M3.mulVec_x, M3.mulVec_y, M3.mulVec_z, V3.smul_x, V3.smul_y, V3.smul_z] <;> field_simp <;> ring
    rw [e1]
    generalize crosswise frame.rot.c3 (p - frame.loc) = q
    unfold reflection
    have e2 : V3.dot d ((ε / R) • q) = ε / R * V3.dot d q := by
      unfold V3.dot; simp only [V3.smul_x, V3.smul_y, V3.smul_z]; ring
    rw [e2]
    generalize V3.dot d q = z
    apply V3.ext <;> simp only [V3.sub_x, V3.sub_y, V3.sub_z, V3.smul_x, V3.smul_y, V3.smul_z]
    · have : 2 * (ε / R * z * (ε / R * q.x)) = 2 * z / R ^ 2 * q.x * ε ^ 2 := by field_simp
      rw [this, hε]; ring
    · have : 2 * (ε / R * z * (ε / R * q.y)) = 2 * z / R ^ 2 * q.y * ε ^ 2 := by field_simp
      rw [this, hε]; ring
    · have : 2 * (ε / R * z * (ε / R * q.z)) = 2 * z / R ^ 2 * q.z * ε ^ 2 := by field_simp
      rw [this, hε]; ring
  unfold cylinderNormal
  simp only [local_point hf, hs]
  split
  · exact key (-1) (by norm_num)
  · have := key 1 (by norm_num)
    have e1 : (1 : ℝ) • (⟨(localDir frame (p - frame.loc)).x / R, (localDir frame (p - frame.loc)).y / R, 0 / R⟩ : V3 ℝ) =
      ⟨(localDir frame (p - frame.loc)).x / R, (localDir frame (p - frame.loc)).y / R, 0 / R⟩ := by apply V3.ext <;> simp
    rwa [e1] at this

/-- A ray of the pipe becomes the next. -/
theorem pipeRay_next (hf : frame.Rigid) (hR : 0 < R) (hn : g.normal = cylinderNormal) (hin : InPipe R frame.rot.c3 frame.loc r) (a : ℝ) (k : Nat) :
    reflectOne a ⟨0, pipeRay R frame.rot.c3 frame.loc a r k, pipePoint R frame.rot.c3 frame.loc r k,
      g.normal frame (pipePoint R frame.rot.c3 frame.loc r k) (pipeRay R frame.rot.c3 frame.loc a r k).dir⟩ =
      pipeRay R frame.rot.c3 frame.loc a r (k + 1) := by
  have he := axis_unit hf
  obtain ⟨hm, _⟩ := hin.speed
  have hsh := hin.shadow_in
  have hc := hsh.chord
  obtain ⟨f1, f2, f3, f4, _⟩ := pipeRay_facts hin hR he a k
  obtain ⟨g1, _, g3, _, _⟩ := pipeRay_facts hin hR he a (k + 1)
  have hq : crosswise frame.rot.c3 (pipePoint R frame.rot.c3 frame.loc r k - frame.loc) = bouncePoint R frame.loc (shadow frame.rot.c3 frame.loc r) k := by
    have := g1.vertex
    have e1 : (pipeRay R frame.rot.c3 frame.loc a r (k + 1)).vertex = pipePoint R frame.rot.c3 frame.loc r k := rfl
    have e2 : (cavityRay R frame.loc a (shadow frame.rot.c3 frame.loc r) (k + 1)).vertex = frame.loc + bouncePoint R frame.loc (shadow frame.rot.c3 frame.loc r) k := rfl
    rw [e1, e2] at this
    rw [this]
    apply V3.ext <;> simp
  have hlen := (hc.points hR (bouncePoint R frame.loc (shadow frame.rot.c3 frame.loc r)) (fun _ => rfl) k).2.1
  have hb := bounce_flat (R := R) (c := frame.loc) (r := r) he k
  obtain ⟨t1, t2⟩ := cavityRay_turn hsh hR a k
  obtain ⟨hk, _, hhalf, _⟩ := cavityRay_inside hsh hR a k
  have halong := hk.chord.along
  rw [t1, hhalf] at halong
  have hdq : V3.dot (pipeRay R frame.rot.c3 frame.loc a r k).dir (bouncePoint R frame.loc (shadow frame.rot.c3 frame.loc r) k) =
      crossSpeed frame.rot.c3 r * halfChord R frame.loc (shadow frame.rot.c3 frame.loc r) := by
    rw [f3, ← halong]
    generalize V3.dot r.dir frame.rot.c3 = z
    have : ∀ u q e : V3 ℝ, ∀ m : ℝ, V3.dot (m • u + z • e) q = m * V3.dot q u + z * V3.dot q e := by
      intro u q e m; unfold V3.dot; simp only [V3.add_x, V3.add_y, V3.add_z, V3.smul_x, V3.smul_y, V3.smul_z]; ring
    rw [this, hb]; ring
  have hdir : reflection (pipeRay R frame.rot.c3 frame.loc a r k).dir (g.normal frame (pipePoint R frame.rot.c3 frame.loc r k)
      (pipeRay R frame.rot.c3 frame.loc a r k).dir) = (pipeRay R frame.rot.c3 frame.loc a r (k + 1)).dir := by
    rw [hn, pipe_reflection hf hR (by rw [hq]; exact hlen), hq, hdq, g3, f3, ← t2]
    generalize V3.dot r.dir frame.rot.c3 = z
    apply V3.ext <;> simp only [V3.add_x, V3.add_y, V3.add_z, V3.sub_x, V3.sub_y, V3.sub_z, V3.smul_x, V3.smul_y, V3.smul_z] <;> ring
  have hen : (pipeRay R frame.rot.c3 frame.loc a r k).energy * (1 - a) = (pipeRay R frame.rot.c3 frame.loc a r (k + 1)).energy := by
    cases k with
    | zero =>
      show r.energy * (1 - a) = r.energy * (1 - a) ^ (0 + 1)
      simp
    | succ k =>
      show r.energy * (1 - a) ^ (k + 1) * (1 - a) = r.energy * (1 - a) ^ (k + 1 + 1)
      ring
  unfold reflectOne
  simp only [hdir, hen]
  cases k <;> rfl

end

end Tracer
