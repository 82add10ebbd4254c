import Verif.Props.Tower
import Verif.Props.Stagger
import Mathlib.Analysis.Real.Pi.Bounds
import Mathlib.Analysis.SpecialFunctions.Trigonometric.Bounds

/-!
# Fields whose heliostats do not shade or block each other (C85)
-/

namespace Tracer

open Real

variable {E σ : Type _}

theorem dist2_eq (p q : V3 ℝ) : V3.dist2 p q = (p.x - q.x) ^ 2 + (p.y - q.y) ^ 2 + (p.z - q.z) ^ 2 := by
  unfold V3.dist2 V3.dot
  simp only [V3.sub_x, V3.sub_y, V3.sub_z]
  ring

/-- The triangle inequality. -/
theorem dist2_triangle {p q m : V3 ℝ} {a b : ℝ} (ha : 0 ≤ a) (hb : 0 ≤ b) (h1 : V3.dist2 p m ≤ a ^ 2) (h2 : V3.dist2 m q ≤ b ^ 2) :
    V3.dist2 p q ≤ (a + b) ^ 2 := by
  rw [dist2_eq] at h1 h2 ⊢
  generalize hx : p.x - m.x = x1 at h1
  generalize hy : p.y - m.y = y1 at h1
  generalize hz : p.z - m.z = z1 at h1
  generalize hx2 : m.x - q.x = x2 at h2
  generalize hy2 : m.y - q.y = y2 at h2
  generalize hz2 : m.z - q.z = z2 at h2
  have e1 : p.x - q.x = x1 + x2 := by linarith
  have e2 : p.y - q.y = y1 + y2 := by linarith
  have e3 : p.z - q.z = z1 + z2 := by linarith
  rw [e1, e2, e3]
  have hcs : x1 * x2 + y1 * y2 + z1 * z2 ≤ a * b := by
    refine abs_le_of_sq_le_sq' ?_ (mul_nonneg ha hb) |>.2
    have hl : (x1 * x2 + y1 * y2 + z1 * z2) ^ 2 ≤ (x1 ^ 2 + y1 ^ 2 + z1 ^ 2) * (x2 ^ 2 + y2 ^ 2 + z2 ^ 2) := by
      nlinarith [sq_nonneg (x1 * y2 - y1 * x2), sq_nonneg (x1 * z2 - z1 * x2), sq_nonneg (y1 * z2 - z1 * y2)]
    refine hl.trans ?_
    rw [mul_pow]
    exact mul_le_mul h1 h2 (by positivity) (by positivity)
  nlinarith

/-- A plate is in the ball around its centre. -/
theorem placed_inBall {frame : Tf ℝ} (hf : frame.Rigid) {W L ρ : ℝ} (hρ : (W ^ 2 + L ^ 2) / 4 ≤ ρ ^ 2) {m : V3 ℝ}
    (h : Placed frame (rectXY W L) m) : InBall frame.loc ρ m := by
  obtain ⟨q, ⟨hz, hx, hy⟩, rfl⟩ := h
  unfold InBall
  have hl : frame.loc = frame.point ⟨0, 0, 0⟩ := by
    unfold Tf.point
    apply V3.ext <;> simp
  rw [hl, Tf.Rigid.dist hf, dist2_eq]
  simp only [hz, sub_zero]
  have h1 := abs_nonneg q.x
  have h2 := abs_nonneg q.y
  have e1 : q.x ^ 2 ≤ (W / 2) ^ 2 := by rw [← sq_abs]; nlinarith
  have e2 : q.y ^ 2 ≤ (L / 2) ^ 2 := by rw [← sq_abs]; nlinarith
  nlinarith

theorem Clear.mono {S S' : V3 ℝ → Prop} (h : ∀ m, S' m → S m) {p q : V3 ℝ} (hc : Clear S p q) : Clear S' p q :=
  fun u h0 h1 hs => hc u h0 h1 (h _ hs)

/-- A ball farther from the end of a short segment than the segment is long. -/
theorem clear_near {p q s : V3 ℝ} {ρ d : ℝ} (hρ : 0 ≤ ρ) (hd : 0 ≤ d) (hs : V3.dist2 s p ≤ d ^ 2) (hq : (d + ρ) ^ 2 < V3.dist2 p q) :
    Clear (InBall q ρ) s p := by
  intro u h0 h1 hin
  refine absurd (dist2_triangle (p := p) hd hρ ?_ hin) (not_le.2 hq)
  rw [dist2_eq] at hs ⊢
  simp only [V3.add_x, V3.add_y, V3.add_z, V3.smul_x, V3.smul_y, V3.smul_z, V3.sub_x, V3.sub_y, V3.sub_z]
  have e : (p.x - (s.x + u * (p.x - s.x))) ^ 2 + (p.y - (s.y + u * (p.y - s.y))) ^ 2 + (p.z - (s.z + u * (p.z - s.z))) ^ 2 =
      (1 - u) ^ 2 * ((s.x - p.x) ^ 2 + (s.y - p.y) ^ 2 + (s.z - p.z) ^ 2) := by ring
  rw [e]
  have hu : (1 - u) ^ 2 ≤ 1 := by nlinarith
  nlinarith [sq_nonneg (s.x - p.x), sq_nonneg (s.y - p.y), sq_nonneg (s.z - p.z)]

/-- A ball on the ground does not reach a rising segment that starts far from it. -/
theorem clear_rising {p q : V3 ℝ} {ρ H k : ℝ} (hρ : 0 ≤ ρ) (hH : 0 < H) (hp : p.z = 0) (hq : q.z = 0) (hk : 0 ≤ k)
    (hr : p.x ^ 2 + p.y ^ 2 ≤ (k * H) ^ 2) (h : (ρ * k + ρ) ^ 2 < V3.dist2 p q) : Clear (InBall q ρ) p ⟨0, 0, H⟩ := by
  intro u h0 h1 hin
  unfold InBall at hin
  rw [dist2_eq] at hin
  simp only [V3.add_x, V3.add_y, V3.add_z, V3.smul_x, V3.smul_y, V3.smul_z, V3.sub_x, V3.sub_y, V3.sub_z, hp, hq] at hin
  have hu : u * H ≤ ρ := by
    refine abs_le_of_sq_le_sq' ?_ hρ |>.2
    nlinarith [sq_nonneg (p.x + u * (0 - p.x) - q.x), sq_nonneg (p.y + u * (0 - p.y) - q.y)]
  refine absurd (dist2_triangle (p := p) (q := q) (m := ⟨p.x + u * (0 - p.x), p.y + u * (0 - p.y), 0⟩) (mul_nonneg hρ hk) hρ ?_ ?_)
    (not_le.2 h)
  · rw [dist2_eq]
    simp only [hp]
    have e : (p.x - (p.x + u * (0 - p.x))) ^ 2 + (p.y - (p.y + u * (0 - p.y))) ^ 2 + (0 - 0) ^ 2 = u ^ 2 * (p.x ^ 2 + p.y ^ 2) := by ring
    rw [e]
    have h2 : u ^ 2 * (p.x ^ 2 + p.y ^ 2) ≤ u ^ 2 * (k * H) ^ 2 := mul_le_mul_of_nonneg_left hr (sq_nonneg u)
    have h3 : (u * H) ^ 2 ≤ ρ ^ 2 := pow_le_pow_left₀ (by positivity) hu 2
    have h4 : (u * H) ^ 2 * k ^ 2 ≤ ρ ^ 2 * k ^ 2 := mul_le_mul_of_nonneg_right h3 (sq_nonneg k)
    nlinarith
  · rw [dist2_eq]
    simp only [hq]
    nlinarith [sq_nonneg (u * H)]

theorem towerFace_rigid (H : ℝ) : (towerFace H).Rigid :=
  (C26_rigid (π / 2) 0 0 0).2.1

theorem towerFace_c3 (H : ℝ) : (towerFace H).rot.c3 = ⟨1, 0, 0⟩ := by
  unfold towerFace roty
  simp

/-- The back of the receiver is in the same ball as its front. -/
theorem back_inBall {F : Tf ℝ} (hF : F.Rigid) {x y ρ : ℝ} (hρ : (x ^ 2 + y ^ 2) / 4 + (1 / 10 ^ 10) ^ 2 ≤ ρ ^ 2) {m : V3 ℝ}
    (h : Placed (F * ⟨1, ⟨0, 0, -(1 / 10 ^ 10)⟩⟩) (rectXY x y) m) : InBall F.loc ρ m := by
  obtain ⟨q, ⟨hz, hx, hy⟩, rfl⟩ := h
  unfold InBall
  have hl : F.loc = F.point ⟨0, 0, 0⟩ := by
    unfold Tf.point
    apply V3.ext <;> simp
  have hm : (F * ⟨1, ⟨0, 0, -(1 / 10 ^ 10)⟩⟩ : Tf ℝ).point q = F.point ⟨q.x, q.y, q.z - 1 / 10 ^ 10⟩ := by
    unfold Tf.point
    apply V3.ext <;> simp [M3.mulVec_x, M3.mulVec_y, M3.mulVec_z] <;> ring
  rw [hl, hm, Tf.Rigid.dist hF, dist2_eq]
  simp only [hz, sub_zero]
  have h1 := abs_nonneg q.x
  have h2 := abs_nonneg q.y
  have e1 : q.x ^ 2 ≤ (x / 2) ^ 2 := by rw [← sq_abs]; nlinarith
  have e2 : q.y ^ 2 ≤ (y / 2) ^ 2 := by rw [← sq_abs]; nlinarith
  nlinarith

theorem Spread.delivery {positions : List (V3 ℝ)} {W L absorpt x y az el H ρ ρ' k minE : ℝ} (h : Spread positions H ρ k)
    (hH : 0 < H) (hρ : 0 ≤ ρ) (hρ' : 0 ≤ ρ') (hk : 0 ≤ k) (hk9 : k ≤ 9) (hplate : (W ^ 2 + L ^ 2) / 4 ≤ ρ ^ 2)
    (hface : (x ^ 2 + y ^ 2) / 4 + (1 / 10 ^ 10) ^ 2 ≤ ρ' ^ 2) (hhigh : 1 + ρ' < H) (hsun : 0 ≤ cos el) (hm : minE < 1 - absorpt)
    (ref : Option ℝ) (extra : E) :
    Delivery positions W L absorpt x y az el H (towerFace H) (towerRays positions az el ref extra) minE := by
  have hget : ∀ {i : Nat} {r : Ray ℝ E} {p : V3 ℝ}, (towerRays positions az el ref extra)[i]? = some r → positions[i]? = some p →
      r = ⟨p + solarVector az el, -solarVector az el, 1, 0, ref, extra⟩ := by
    intro i r p hr hp
    unfold towerRays at hr
    simp only [List.getElem?_map, hp, Option.map_some, Option.some.injEq] at hr
    exact hr.symm
  have hstart : ∀ p : V3 ℝ, V3.dist2 (p + solarVector az el) p ≤ 1 ^ 2 := by
    intro p
    have := (C59_solar_vector az el).1
    unfold V3.IsUnit V3.dot at this
    rw [dist2_eq]
    simp only [V3.add_x, V3.add_y, V3.add_z]
    nlinarith
  refine ⟨towerFace_rigid H, rfl, ?_, ?_, ?_, ?_, ?_⟩
  · unfold towerRays
    simp
  · intro i r p hr hp
    rw [hget hr hp]
    refine ⟨⟨rfl, 1, by norm_num, ?_⟩, by simpa using hm⟩
    apply V3.ext <;> simp
  · intro p hp
    obtain ⟨hz, hx, hr⟩ := h.ground p hp
    have hd : V3.dist2 ⟨0, 0, H⟩ p = p.x ^ 2 + p.y ^ 2 + H ^ 2 := by
      rw [dist2_eq]
      simp only [hz]
      ring
    have hpos : 0 < V3.dist2 ⟨0, 0, H⟩ p := by rw [hd]; positivity
    have hs : 0 < √(V3.dist2 ⟨0, 0, H⟩ p) := sqrt_pos.2 hpos
    have hle : √(V3.dist2 ⟨0, 0, H⟩ p) < 10 * H := by
      rw [sqrt_lt' (by positivity), hd]
      nlinarith [mul_self_nonneg (9 - k), mul_nonneg hk (sub_nonneg.2 hk9)]
    refine ⟨?_, ?_, ?_⟩
    · rw [hd]
      nlinarith [sq_nonneg p.x, sq_nonneg p.y]
    · have hzz : 1 / 10 < (toward p ⟨0, 0, H⟩).z := by
        unfold toward
        simp only [V3.smul_z, V3.sub_z, hz, sub_zero]
        rw [one_div_mul_eq_div, lt_div_iff₀ hs]
        linarith
      have hsz : 0 ≤ (solarVector az el).z := hsun
      rw [dist2_eq]
      simp only [V3.neg_x, V3.neg_y, V3.neg_z]
      nlinarith [sq_nonneg ((toward p ⟨0, 0, H⟩).x - -(solarVector az el).x), sq_nonneg ((toward p ⟨0, 0, H⟩).y - -(solarVector az el).y)]
    · rw [towerFace_c3]
      unfold toward V3.dot
      have hsym : V3.dist2 p ⟨0, 0, H⟩ = V3.dist2 ⟨0, 0, H⟩ p := by rw [dist2_eq, dist2_eq]; ring
      rw [hsym]
      simp only [V3.smul_x, V3.sub_x, sub_zero, mul_one, mul_zero, add_zero]
      rw [one_div_mul_eq_div, lt_div_iff₀ hs]
      nlinarith
  · intro i j r p q hij hr hp hq
    rw [hget hr hp]
    obtain ⟨h1, h2⟩ := h.apart i j p q hij hp hq
    have hloc : (aimTransform az el H q).loc = q := rfl
    have hin : ∀ m, Placed (aimTransform az el H q) (rectXY W L) m → InBall q ρ m := by
      intro m hm
      have := placed_inBall (aimTransform_rigid az el H q) hplate hm
      rwa [hloc] at this
    refine ⟨Clear.mono hin (clear_near hρ zero_le_one (hstart p) h1), Clear.mono hin ?_⟩
    obtain ⟨hz, _, hr⟩ := h.ground p (List.mem_of_getElem? hp)
    exact clear_rising hρ hH hz (h.ground q (List.mem_of_getElem? hq)).1 hk hr h2
  · intro i r p hr hp
    rw [hget hr hp]
    obtain ⟨hz, _, _⟩ := h.ground p (List.mem_of_getElem? hp)
    have hfar : (1 + ρ') ^ 2 < V3.dist2 p ⟨0, 0, H⟩ := by
      rw [dist2_eq]
      simp only [hz]
      nlinarith [sq_nonneg p.x, sq_nonneg p.y]
    have hc := clear_near (q := ⟨0, 0, H⟩) hρ' zero_le_one (hstart p) hfar
    have hl : (towerFace H).loc = ⟨0, 0, H⟩ := rfl
    refine ⟨Clear.mono (fun m hm => ?_) hc, Clear.mono (fun m hm => ?_) hc⟩
    · rw [← hl]
      refine placed_inBall (towerFace_rigid H) ?_ hm
      have : (0 : ℝ) ≤ (1 / 10 ^ 10) ^ 2 := by positivity
      linarith
    · rw [← hl]
      exact back_inBall (towerFace_rigid H) hface hm

/-- C85: rays of energy 1 from the sun to the centres of heliostats that are spread on the ground in front of the tower all arrive at the
centre of the receiver, wherever the sun is above the horizon: the receiver reports `1 - absorptivity` for each of them. -/
theorem C85_spread {positions : List (V3 ℝ)} {W L absorpt x y az el H ρ ρ' k minE : ℝ} (h : Spread positions H ρ k)
    (hW : 0 < W) (hL : 0 < L) (hx : 0 < x) (hy : 0 < y) (hH : 0 < H) (hρ : 0 ≤ ρ) (hρ' : 0 ≤ ρ') (hk : 0 ≤ k) (hk9 : k ≤ 9)
    (hplate : (W ^ 2 + L ^ 2) / 4 ≤ ρ ^ 2) (hface : (x ^ 2 + y ^ 2) / 4 + (1 / 10 ^ 10) ^ 2 ≤ ρ' ^ 2) (hhigh : 1 + ρ' < H)
    (hsun : 0 ≤ cos el) (hm0 : 0 ≤ minE) (hm : minE < 1 - absorpt) (ref : Option ℝ) (extra : E)
    {get : σ → Account ℝ} {set : Account ℝ → σ → σ} (hgs : ∀ acc w, get (set acc w) = acc) {w : σ} (hw : get w = Account.reset)
    (junk junk' : M3 ℝ) {reps : Nat} (hreps : 2 ≤ reps) :
    ∃ (t : Tower σ E) (res : TraceResult σ ℝ E),
      Tower.new positions W L absorpt H x y (towerFace H) get set junk junk' = .ok t ∧
      rayTracer (t.onField (HelioField.aimToSun az el)).plant.scene w (towerRays positions az el ref extra) reps minE true = .ok res ∧
      (get res.world).getAllHits =
        .ok (List.replicate positions.length (1 - absorpt), List.replicate positions.length ⟨0, 0, H⟩) := by
  obtain ⟨t, res, h1, h2, _, _, _, _, es, ps, h3, h4, h5⟩ := C85_tower hW hL hx hy junk junk' []
    (h.delivery (az := az) hH hρ hρ' hk hk9 hplate hface hhigh hsun hm ref extra) hm0 hgs hw hreps
  refine ⟨t, res, h1, h2, ?_⟩
  have hlen : (towerRays positions az el ref extra).length = positions.length := by unfold towerRays; simp
  rw [hlen] at h5
  have hes : es = List.replicate positions.length (1 - absorpt) := by
    rw [List.eq_replicate_iff]
    refine ⟨by rw [h4.length_eq, List.length_map, hlen], fun e he => ?_⟩
    obtain ⟨r, hr, rfl⟩ := List.mem_map.1 (h4.subset he)
    unfold towerRays at hr
    obtain ⟨p, _, rfl⟩ := List.mem_map.1 hr
    simp
  rw [h3, hes, h5]
  rfl

/-- The field of the example is spread, at its default resolution and at any coarser one. -/
theorem towerPositions_spread {angRes radialRes : ℝ} (hrad : 1 ≤ radialRes) (hang : π / 8 ≤ angRes) (hang' : angRes ≤ π) :
    Spread (towerPositions angRes radialRes) 10 (36 / 100) 2 := by
  have hpi := pi_gt_d2
  have hpi4 := pi_lt_d2
  have ha : 0 < angRes := by linarith
  have hr : 0 < radialRes := by linarith
  constructor
  · intro p hp
    obtain ⟨q, hq, rfl⟩ := List.mem_map.1 hp
    obtain ⟨i, j, r, a, _, h1, h2, h3, h4, rfl⟩ := (C69_positions ha hr q).1 hq
    have hr5 : 5 ≤ r := by rw [h1]; have : 0 ≤ (i : ℝ) * radialRes := by positivity
                           linarith
    have hal : -(π / 4) ≤ a := by rw [h3]; have : 0 ≤ (j : ℝ) * (angRes / 2) := by positivity
                                  linarith
    have hcos : 1 / 2 ≤ cos a := by
      rw [← cos_pi_div_three, ← cos_abs a]
      refine cos_le_cos_of_nonneg_of_le_pi (abs_nonneg a) (by linarith) ?_
      rw [abs_le]
      constructor <;> linarith
    refine ⟨rfl, ?_, ?_⟩
    · simp only
      nlinarith
    · simp only
      have := sin_sq_add_cos_sq a
      have e : (r * cos a) ^ 2 + (r * sin a) ^ 2 = r ^ 2 := by linear_combination r ^ 2 * this
      rw [e]
      nlinarith
  · intro i j p q hij hp hq
    have hnd : (towerPositions angRes radialRes).Nodup := by
      unfold towerPositions
      refine (C69_distinct ha hr (by norm_num) (by linarith)).map fun u v huv => ?_
      simp only [V3.mk.injEq] at huv
      exact Prod.ext huv.1 huv.2.1
    have hne : p ≠ q := by
      intro h
      subst h
      obtain ⟨hi, e1⟩ := List.getElem?_eq_some_iff.1 hp
      obtain ⟨hj, e2⟩ := List.getElem?_eq_some_iff.1 hq
      exact hij ((List.Nodup.getElem_inj_iff hnd).1 (e1.trans e2.symm))
    obtain ⟨u, hu, rfl⟩ := List.mem_map.1 (List.mem_of_getElem? hp)
    obtain ⟨v, hv, rfl⟩ := List.mem_map.1 (List.mem_of_getElem? hq)
    have huv : u ≠ v := fun h => hne (by rw [h])
    have key : (186 / 100 : ℝ) ≤ (u.1 - v.1) ^ 2 + (u.2 - v.2) ^ 2 := by
      have s32 : (97 / 1000 : ℝ) ≤ sin (angRes / 4) := by
        have h1 := sin_gt_sub_cube (x := π / 32) (by positivity)
        have h2 : sin (π / 32) ≤ sin (angRes / 4) := sin_ge_of_between (by positivity) (by linarith) (by linarith)
        have h3 : (π / 32) ^ 3 ≤ (1 / 10) ^ 3 := pow_le_pow_left₀ (by positivity) (by linarith) 3
        nlinarith
      have s16 : (19 / 100 : ℝ) ≤ sin (angRes / 2) := by
        have h1 := sin_gt_sub_cube (x := π / 16) (by positivity)
        have h2 : sin (π / 16) ≤ sin (angRes / 2) := sin_ge_of_between (by positivity) (by linarith) (by linarith)
        have h3 : (π / 16) ^ 3 ≤ (2 / 10) ^ 3 := pow_le_pow_left₀ (by positivity) (by linarith) 3
        nlinarith
      rcases C69_apart ha hr (by norm_num) (by linarith) hu hv huv with h | h | h
      · nlinarith
      · have : (97 / 1000 : ℝ) ^ 2 ≤ sin (angRes / 4) ^ 2 := pow_le_pow_left₀ (by norm_num) s32 2
        nlinarith
      · have : (19 / 100 : ℝ) ^ 2 ≤ sin (angRes / 2) ^ 2 := pow_le_pow_left₀ (by norm_num) s16 2
        nlinarith
    rw [dist2_eq]
    simp only [sub_self]
    constructor <;> nlinarith

/-- C85, for the example `tower_gui.py` with its default resolution or a coarser one: wherever the sun is above the horizon, all of its
rays reach the centre of the receiver with all of their energy. -/
theorem C85_tower_gui {angRes radialRes az el minE : ℝ} (hrad : 1 ≤ radialRes) (hang : π / 8 ≤ angRes) (hang' : angRes ≤ π)
    (hsun : 0 ≤ cos el) (hm0 : 0 ≤ minE) (hm : minE < 1) (ref : Option ℝ) (extra : E)
    {get : σ → Account ℝ} {set : Account ℝ → σ → σ} (hgs : ∀ acc w, get (set acc w) = acc) {w : σ} (hw : get w = Account.reset)
    (junk junk' : M3 ℝ) {reps : Nat} (hreps : 2 ≤ reps) :
    ∃ (t : Tower σ E) (res : TraceResult σ ℝ E),
      Tower.new (towerPositions angRes radialRes) 0.5 0.5 0 10 1 1 (towerFace 10) get set junk junk' = .ok t ∧
      rayTracer (t.onField (HelioField.aimToSun az el)).plant.scene w
        (towerRays (towerPositions angRes radialRes) az el ref extra) reps minE true = .ok res ∧
      (get res.world).getAllHits = .ok (List.replicate (towerPositions angRes radialRes).length 1,
        List.replicate (towerPositions angRes radialRes).length ⟨0, 0, 10⟩) := by
  have h := C85_spread (E := E) (σ := σ) (W := 0.5) (L := 0.5) (absorpt := 0) (x := 1) (y := 1) (az := az) (el := el) (ρ' := 8)
    (towerPositions_spread hrad hang hang') (by norm_num) (by norm_num) one_pos one_pos
    (by norm_num) (by norm_num) (by norm_num) (by norm_num) (by norm_num) (by norm_num) (by norm_num) (by norm_num) hsun hm0
    (by simpa using hm) ref extra hgs hw junk junk' hreps
  rwa [sub_zero] at h

/-- The field is not empty: there is a heliostat before the middle of the tower. -/
example : (⟨5, 0, 0⟩ : V3 ℝ) ∈ towerPositions (π / 8) 1 ∧ (⟨5 * cos (π / 4), 5 * sin (π / 4), 0⟩ : V3 ℝ) ∈ towerPositions (π / 8) 1 := by
  have hpi := pi_pos
  constructor
  · refine List.mem_map.2 ⟨(5, 0), (C69_positions (by positivity) one_pos _).2 ⟨0, 4, 5, 0, rfl, ?_, ?_, ?_, ?_, ?_⟩, rfl⟩
    · norm_num
    · norm_num
    · push_cast; ring
    · linarith
    · simp
  · refine List.mem_map.2 ⟨(5 * cos (π / 4), 5 * sin (π / 4)),
      (C69_positions (by positivity) one_pos _).2 ⟨0, 8, 5, π / 4, rfl, ?_, ?_, ?_, ?_, rfl⟩, rfl⟩
    · norm_num
    · norm_num
    · push_cast; ring
    · linarith

/-- The display of `tower_gui.py`, with the sun in the south-east halfway up and the field as in the program. -/
example : ∃ (t : Tower (Account ℝ) Unit) (res : TraceResult (Account ℝ) ℝ Unit),
    Tower.new (towerPositions (π / 8) 1) 0.5 0.5 0 10 1 1 (towerFace 10) id (fun acc _ => acc) 1 1 = .ok t ∧
    rayTracer (t.onField (HelioField.aimToSun (3 * π / 4) (π / 4))).plant.scene Account.reset
      (towerRays (towerPositions (π / 8) 1) (3 * π / 4) (π / 4) none ()) 40000 (1 / 20) true = .ok res ∧
    res.world.getAllHits = .ok (List.replicate (towerPositions (π / 8) 1).length 1,
      List.replicate (towerPositions (π / 8) 1).length ⟨0, 0, 10⟩) :=
  C85_tower_gui (get := id) (set := fun acc _ => acc) le_rfl le_rfl (by linarith [pi_pos])
    (cos_nonneg_of_mem_Icc ⟨by linarith [pi_pos], by linarith [pi_pos]⟩) (by norm_num) (by norm_num) none ()
    (fun _ _ => rfl) rfl 1 1 (by norm_num)

/-- Two heliostats, eight apart, before a tower of height ten. -/
theorem Examples.two_spread : Spread [⟨4, 4, 0⟩, ⟨4, -4, 0⟩] 10 1 1 := by
  refine ⟨by intro p hp; simp at hp; rcases hp with rfl | rfl <;> norm_num, ?_⟩
  intro i j p q hij hi hj
  rcases i with _ | _ | i <;> rcases j with _ | _ | j <;> simp at hi hj hij <;> subst hi hj <;>
    norm_num [V3.dist2, V3.dot]

example : ∃ (t : Tower (Account ℝ) Unit) (res : TraceResult (Account ℝ) ℝ Unit),
    Tower.new [⟨4, 4, 0⟩, ⟨4, -4, 0⟩] 1 1 (1 / 10) 10 1 1 (towerFace 10) id (fun acc _ => acc) 1 1 = .ok t ∧
    rayTracer (t.onField (HelioField.aimToSun (3 * π / 4) (π / 4))).plant.scene Account.reset
      (towerRays [⟨4, 4, 0⟩, ⟨4, -4, 0⟩] (3 * π / 4) (π / 4) none ()) 4 (1 / 20) true = .ok res ∧
    res.world.getAllHits = .ok (List.replicate 2 (1 - 1 / 10), List.replicate 2 ⟨0, 0, 10⟩) :=
  C85_spread (get := id) (set := fun acc _ => acc) (ρ := 1) (ρ' := 1) (k := 1) Examples.two_spread (by norm_num) (by norm_num)
    (by norm_num) (by norm_num) (by norm_num) (by norm_num) (by norm_num) (by norm_num) (by norm_num) (by norm_num)
    (by norm_num) (by norm_num) (cos_nonneg_of_mem_Icc ⟨by linarith [pi_pos], by linarith [pi_pos]⟩) (by norm_num)
    (by norm_num) none () (fun _ _ => rfl) rfl 1 1 (by norm_num)

/-- The same field, built for a tower of height seven, aimed, and then given the right height. -/
example : ∃ (t : Tower (Account ℝ) Unit) (res : TraceResult (Account ℝ) ℝ Unit),
    Tower.new [⟨4, 4, 0⟩, ⟨4, -4, 0⟩] 1 1 (1 / 10) 7 1 1 (towerFace 10) id (fun acc _ => acc) 1 1 = .ok t ∧
    rayTracer (t.onField (runHelio [.aim 0 0, .height 10, .aim (3 * π / 4) (π / 4)])).plant.scene Account.reset
      (towerRays [⟨4, 4, 0⟩, ⟨4, -4, 0⟩] (3 * π / 4) (π / 4) none ()) 4 (1 / 20) true = .ok res ∧
    (∀ k : Nat, 3 ≤ k → (res.tree[k]?).getD [] = []) := by
  have D : Delivery (E := Unit) [⟨4, 4, 0⟩, ⟨4, -4, 0⟩] 1 1 (1 / 10) 1 1 (3 * π / 4) (π / 4)
      (heightAfter 7 [.aim 0 0, .height 10]) (towerFace 10)
      (towerRays [⟨4, 4, 0⟩, ⟨4, -4, 0⟩] (3 * π / 4) (π / 4) none ()) (1 / 20) :=
    Spread.delivery (ρ := 1) (ρ' := 1) (k := 1) Examples.two_spread (by norm_num) (by norm_num) (by norm_num) (by norm_num)
      (by norm_num) (by norm_num) (by norm_num) (by norm_num)
      (cos_nonneg_of_mem_Icc ⟨by linarith [pi_pos], by linarith [pi_pos]⟩) (by norm_num) none ()
  obtain ⟨t, res, h1, h2, _, _, _, h3, _⟩ := C85_tower (get := id) (set := fun acc _ => acc) one_pos one_pos one_pos one_pos
    1 1 [.aim 0 0, .height 10] D (by norm_num) (fun _ _ => rfl) (w := Account.reset) rfl (reps := 4) (by norm_num)
  exact ⟨t, res, h1, h2, h3⟩

end Tracer
