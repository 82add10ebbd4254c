import Verif.Props.Quadric
import Mathlib.Analysis.SpecialFunctions.Trigonometric.Deriv
import Mathlib.Analysis.Calculus.Deriv.Comp

/-! # Normals of the curved surfaces (C40) -/

set_option linter.unusedSectionVars false

namespace Tracer

open Real

variable {E : Type _}

/-! ## Lemmas -/

theorem hasDerivAt_affine {x y z : ℝ → ℝ} {u v w : ℝ} (hx : HasDerivAt x u 0) (hy : HasDerivAt y v 0)
    (hz : HasDerivAt z w 0) (a b c e : ℝ) :
    HasDerivAt (fun t => a * x t + b * y t + c * z t + e) (a * u + b * v + c * w) 0 :=
  ((((hx.const_mul a).add (hy.const_mul b)).add (hz.const_mul c)).add_const e)

/-- Affine maps carry tangents to tangents. -/
theorem Tangent.image (T : Tf ℝ) {S S' : V3 ℝ → Prop} (hS : ∀ q, S q → S' (T.point q)) {p u : V3 ℝ}
    (h : Tangent S p u) : Tangent S' (T.point p) (T.dir u) := by
  obtain ⟨x, y, z, hmem, hp, hx, hy, hz⟩ := h
  refine ⟨fun t => (T.point ⟨x t, y t, z t⟩).x, fun t => (T.point ⟨x t, y t, z t⟩).y,
    fun t => (T.point ⟨x t, y t, z t⟩).z, fun t => hS _ (hmem t), ?_, ?_, ?_, ?_⟩
  · show T.point ⟨x 0, y 0, z 0⟩ = _
    rw [hp]
  · exact hasDerivAt_affine hx hy hz T.rot.c1.x T.rot.c2.x T.rot.c3.x T.loc.x
  · exact hasDerivAt_affine hx hy hz T.rot.c1.y T.rot.c2.y T.rot.c3.y T.loc.y
  · exact hasDerivAt_affine hx hy hz T.rot.c1.z T.rot.c2.z T.rot.c3.z T.loc.z

/-- Tangents of a placed surface in local coordinates. -/
theorem tangent_placed {frame : Tf ℝ} (h : frame.Rigid) (S : V3 ℝ → Prop) (p u : V3 ℝ) :
    Tangent (Placed frame S) p u ↔ Tangent S (frame.inv.point p) (localDir frame u) := by
  have hdet := M3.IsRotation.det_ne h
  constructor
  · intro ht
    rw [localDir_eq h]
    exact ht.image frame.inv fun q hq => (placed_iff hdet S q).1 hq
  · intro ht
    have := ht.image (S' := Placed frame S) frame fun q hq => ⟨q, hq, rfl⟩
    rw [Tf.point_inv_point hdet, localDir_eq h] at this
    have hu : frame.dir (frame.inv.dir u) = u := M3.mulVec_inv_mulVec hdet u
    rwa [hu] at this

theorem FacingNormal.mono {S S' : V3 ℝ → Prop} (hS : ∀ q, S' q → S q) {p d n : V3 ℝ} (h : FacingNormal S p d n) :
    FacingNormal S' p d n where
  unit := h.unit
  orthogonal := fun u ⟨x, y, z, hmem, hr⟩ => h.orthogonal u ⟨x, y, z, fun t => hS _ (hmem t), hr⟩
  faces := h.faces

theorem dot_local {frame : Tf ℝ} (h : frame.Rigid) (u n : V3 ℝ) :
    V3.dot u (frame.rot.mulVec n) = V3.dot (localDir frame u) n := by
  have : u = frame.rot.mulVec (localDir frame u) := by
    rw [localDir_eq h]; exact (M3.mulVec_inv_mulVec (M3.IsRotation.det_ne h) u).symm
  rw [this, M3.IsRotation.dot h, ← this]

/-- From local to global coordinates. -/
theorem facing_placed {frame : Tf ℝ} (h : frame.Rigid) {S : V3 ℝ → Prop} {p d n : V3 ℝ}
    (hn : FacingNormal S (frame.inv.point p) (localDir frame d) n) :
    FacingNormal (Placed frame S) p d (frame.rot.mulVec n) where
  unit := M3.IsRotation.unit h hn.unit
  orthogonal u hu := by
    rw [dot_local h]
    exact hn.orthogonal _ ((tangent_placed h S p u).1 hu)
  faces := by rw [dot_local h]; exact hn.faces

theorem const_deriv {f : ℝ → ℝ} {c f' : ℝ} (hc : ∀ t, f t = c) (hf : HasDerivAt f f' 0) : f' = 0 := by
  have : f = fun _ => c := funext hc
  rw [this] at hf
  exact hf.unique (hasDerivAt_const 0 c)

theorem hasDerivAt_sq {x : ℝ → ℝ} {u : ℝ} (hx : HasDerivAt x u 0) : HasDerivAt (fun t => x t ^ 2) (2 * x 0 * u) 0 := by
  have e1 : (fun t => x t ^ 2) = fun t => x t * x t := funext fun t => pow_two _
  have e2 : 2 * x 0 * u = u * x 0 + x 0 * u := by ring
  rw [e1, e2]
  exact hx.mul hx

/-! ## Tangents of the three quadrics, in local coordinates -/

theorem sphere_tangent {R : ℝ} {q u : V3 ℝ} (h : Tangent (sphereSet R) q u) : V3.dot u q = 0 := by
  obtain ⟨x, y, z, hmem, rfl, hx, hy, hz⟩ := h
  have := const_deriv hmem ((hasDerivAt_sq hx).add (hasDerivAt_sq hy) |>.add (hasDerivAt_sq hz))
  unfold V3.dot
  linarith

theorem cylinder_tangent {R : ℝ} {q u : V3 ℝ} (h : Tangent (cylinderSet R) q u) : u.x * q.x + u.y * q.y = 0 := by
  obtain ⟨x, y, z, hmem, rfl, hx, hy, hz⟩ := h
  have := const_deriv hmem ((hasDerivAt_sq hx).add (hasDerivAt_sq hy))
  linarith

theorem paraboloid_tangent {a b : ℝ} {q u : V3 ℝ} (h : Tangent (paraboloidSet a b) q u) :
    u.z = 2 * q.x * (1 / a ^ 2) * u.x + 2 * q.y * (1 / b ^ 2) * u.y := by
  obtain ⟨x, y, z, hmem, rfl, hx, hy, hz⟩ := h
  have hc : ∀ t, (x t / a) ^ 2 + (y t / b) ^ 2 - z t = 0 := fun t => by
    have : z t = (x t / a) ^ 2 + (y t / b) ^ 2 := hmem t
    linarith
  have := const_deriv hc (((hasDerivAt_sq (hx.div_const a)).add (hasDerivAt_sq (hy.div_const b))).sub hz)
  have e : 2 * (x 0 / a) * (u.x / a) + 2 * (y 0 / b) * (u.y / b) =
      2 * x 0 * (1 / a ^ 2) * u.x + 2 * y 0 * (1 / b ^ 2) * u.y := by ring
  simp only at this ⊢
  linarith

/-! Conversely, these are all the tangents. -/

theorem sphere_tangent_of {R : ℝ} (hR : 0 < R) {q u : V3 ℝ} (hq : sphereSet R q) (hu : V3.dot u q = 0) :
    Tangent (sphereSet R) q u := by
  unfold sphereSet at hq
  unfold V3.dot at hu
  by_cases h0 : V3.dot u u = 0
  · unfold V3.dot at h0
    have hx : u.x = 0 := by nlinarith [sq_nonneg u.x, sq_nonneg u.y, sq_nonneg u.z]
    have hy : u.y = 0 := by nlinarith [sq_nonneg u.x, sq_nonneg u.y, sq_nonneg u.z]
    have hz : u.z = 0 := by nlinarith [sq_nonneg u.x, sq_nonneg u.y, sq_nonneg u.z]
    refine ⟨fun _ => q.x, fun _ => q.y, fun _ => q.z, fun _ => hq, rfl, ?_, ?_, ?_⟩
    · rw [hx]; exact hasDerivAt_const 0 _
    · rw [hy]; exact hasDerivAt_const 0 _
    · rw [hz]; exact hasDerivAt_const 0 _
  · have hpos : 0 < V3.dot u u := by
      have : 0 ≤ V3.dot u u := by unfold V3.dot; nlinarith [sq_nonneg u.x, sq_nonneg u.y, sq_nonneg u.z]
      exact lt_of_le_of_ne this (Ne.symm h0)
    have hn := Real.sqrt_pos.2 hpos
    have hsq := Real.sq_sqrt hpos.le
    generalize hN : √(V3.dot u u) = N at hn hsq
    -- angular velocity N / R
    have hcurve : ∀ c v : ℝ, HasDerivAt (fun t => c * cos (N / R * t) + v * (R / N) * sin (N / R * t)) v 0 := by
      intro c v
      have hlin : HasDerivAt (fun t : ℝ => N / R * t) (N / R) 0 := by
        simpa using (hasDerivAt_id (0 : ℝ)).const_mul (N / R)
      have h1 := (hlin.cos).const_mul c
      have h2 := (hlin.sin).const_mul (v * (R / N))
      have h3 := h1.add h2
      have e : c * (-sin (N / R * 0) * (N / R)) + v * (R / N) * (cos (N / R * 0) * (N / R)) = v := by
        simp; field_simp
      rw [e] at h3
      exact h3
    refine ⟨_, _, _, ?_, ?_, hcurve q.x u.x, hcurve q.y u.y, hcurve q.z u.z⟩
    · intro t
      unfold sphereSet
      have hcs := Real.sin_sq_add_cos_sq (N / R * t)
      generalize sin (N / R * t) = S at hcs
      generalize cos (N / R * t) = C at hcs
      have hRN : (R / N) ^ 2 * V3.dot u u = R ^ 2 := by rw [← hsq]; field_simp
      unfold V3.dot at hRN
      simp only
      linear_combination C ^ 2 * hq + 2 * C * S * (R / N) * hu + S ^ 2 * hRN + R ^ 2 * hcs
    · apply V3.ext <;> simp

theorem cylinder_tangent_of {R : ℝ} (hR : 0 < R) {q u : V3 ℝ} (hq : cylinderSet R q) (hu : u.x * q.x + u.y * q.y = 0) :
    Tangent (cylinderSet R) q u := by
  unfold cylinderSet at hq
  have hR2 : R ^ 2 ≠ 0 := pow_ne_zero 2 hR.ne'
  -- a helix
  generalize hw : (q.x * u.y - q.y * u.x) / R ^ 2 = w
  have hw' : w * R ^ 2 = q.x * u.y - q.y * u.x := by rw [← hw]; field_simp
  have hux : -q.y * w = u.x := by
    have : (-q.y * w) * R ^ 2 = u.x * R ^ 2 := by
      rw [mul_assoc, hw', ← hq]; linear_combination q.x * (-hu)
    exact mul_right_cancel₀ hR2 this
  have huy : q.x * w = u.y := by
    have : (q.x * w) * R ^ 2 = u.y * R ^ 2 := by
      rw [mul_assoc, hw', ← hq]; linear_combination q.y * (-hu)
    exact mul_right_cancel₀ hR2 this
  have hlin : HasDerivAt (fun t : ℝ => w * t) w 0 := by simpa using (hasDerivAt_id (0 : ℝ)).const_mul w
  refine ⟨fun t => q.x * cos (w * t) + -q.y * sin (w * t), fun t => q.y * cos (w * t) + q.x * sin (w * t),
    fun t => q.z + u.z * t, ?_, ?_, ?_, ?_, ?_⟩
  · intro t
    unfold cylinderSet
    have hcs := Real.sin_sq_add_cos_sq (w * t)
    simp only
    linear_combination (q.x ^ 2 + q.y ^ 2) * hcs + hq
  · apply V3.ext <;> simp
  · have := (hlin.cos.const_mul q.x).add (hlin.sin.const_mul (-q.y))
    have e : q.x * (-sin (w * 0) * w) + -q.y * (cos (w * 0) * w) = u.x := by rw [← hux]; simp
    rw [e] at this
    exact this
  · have := (hlin.cos.const_mul q.y).add (hlin.sin.const_mul q.x)
    have e : q.y * (-sin (w * 0) * w) + q.x * (cos (w * 0) * w) = u.y := by rw [← huy]; simp
    rw [e] at this
    exact this
  · have := ((hasDerivAt_id (0 : ℝ)).const_mul u.z).const_add q.z
    simpa using this

theorem paraboloid_tangent_of {a b : ℝ} {q u : V3 ℝ} (hq : paraboloidSet a b q)
    (hu : u.z = 2 * q.x * (1 / a ^ 2) * u.x + 2 * q.y * (1 / b ^ 2) * u.y) : Tangent (paraboloidSet a b) q u := by
  have hlin : ∀ c v : ℝ, HasDerivAt (fun t : ℝ => c + v * t) v 0 := fun c v => by
    simpa using ((hasDerivAt_id (0 : ℝ)).const_mul v).const_add c
  refine ⟨fun t => q.x + u.x * t, fun t => q.y + u.y * t,
    fun t => ((q.x + u.x * t) / a) ^ 2 + ((q.y + u.y * t) / b) ^ 2, fun t => rfl, ?_, hlin _ _, hlin _ _, ?_⟩
  · unfold paraboloidSet at hq
    apply V3.ext <;> simp [hq]
  · have := (hasDerivAt_sq ((hlin q.x u.x).div_const a)).add (hasDerivAt_sq ((hlin q.y u.y).div_const b))
    have e : u.z = 2 * ((q.x + u.x * 0) / a) * (u.x / a) + 2 * ((q.y + u.y * 0) / b) * (u.y / b) := by
      rw [hu]; ring
    rw [e]
    exact this

/-! ## C40 -/

/-- Multiplying by the inverse of the length gives a unit vector. -/
theorem unit_of_sqrt {n : V3 ℝ} {s : ℝ} (hs : 0 < s) (h : V3.dot n n = s ^ 2) : ((1 / s) • n).IsUnit := by
  unfold V3.IsUnit V3.dot at *
  simp only [V3.smul_x, V3.smul_y, V3.smul_z]
  have : 1 / s * n.x * (1 / s * n.x) + 1 / s * n.y * (1 / s * n.y) + 1 / s * n.z * (1 / s * n.z) =
      (1 / s) ^ 2 * (n.x * n.x + n.y * n.y + n.z * n.z) := by ring
  rw [this, h]
  field_simp

theorem neg_one_smul (n : V3 ℝ) : (-1 : ℝ) • n = -n := by apply V3.ext <;> simp

theorem dot_smul (u n : V3 ℝ) (c : ℝ) : V3.dot u (c • n) = c * V3.dot u n := by
  unfold V3.dot; simp only [V3.smul_x, V3.smul_y, V3.smul_z]; ring

theorem dot_neg' (u n : V3 ℝ) : V3.dot u (-n) = -V3.dot u n := by
  unfold V3.dot; simp only [V3.neg_x, V3.neg_y, V3.neg_z]; ring

/-- C40, spheres (closed, hemisphere and cut sphere report the same normals).  The tangents are exactly the
vectors orthogonal to the normal. -/
theorem C40_sphere {frame : Tf ℝ} (h : frame.Rigid) {R : ℝ} (hR : 0 < R) {p : V3 ℝ}
    (hp : Placed frame (sphereSet R) p) (d : V3 ℝ) :
    FacingNormal (Placed frame (sphereSet R)) p d (sphereNormal frame p d) ∧
    ∀ u, V3.dot u (sphereNormal frame p d) = 0 → Tangent (Placed frame (sphereSet R)) p u := by
  have hdet := M3.IsRotation.det_ne h
  have hp2 : V3.dot (p - frame.loc) (p - frame.loc) = R ^ 2 := (sphere_placed h R p).1 hp
  rw [placed_iff hdet] at hp
  -- the local position
  have hlw : frame.inv.point p = localDir frame (p - frame.loc) := by
    rw [localDir_eq h]
    unfold Tf.inv Tf.point Tf.dir
    apply V3.ext <;> simp <;> ring
  have htan : ∀ u, Tangent (Placed frame (sphereSet R)) p u ↔ V3.dot u (p - frame.loc) = 0 := by
    intro u
    rw [tangent_placed h, ← local_dot h u, ← hlw]
    exact ⟨sphere_tangent, sphere_tangent_of hR hp⟩
  have hlen : ∀ n : V3 ℝ, n = p - frame.loc ∨ n = -(p - frame.loc) → √(n.x ^ 2 + n.y ^ 2 + n.z ^ 2) = R ∧ V3.dot n n = R ^ 2 := by
    intro n hn
    have : V3.dot n n = R ^ 2 := by
      rcases hn with rfl | rfl
      · exact hp2
      · rw [← hp2]; unfold V3.dot; simp only [V3.neg_x, V3.neg_y, V3.neg_z]; ring
    refine ⟨?_, this⟩
    have e : n.x ^ 2 + n.y ^ 2 + n.z ^ 2 = R ^ 2 := by rw [← this]; unfold V3.dot; ring
    rw [e, Real.sqrt_sq hR.le]
  have hR1 : 0 < 1 / R := by positivity
  have key : ∀ n : V3 ℝ, n = p - frame.loc ∨ n = -(p - frame.loc) → V3.dot d n ≤ 0 →
      FacingNormal (Placed frame (sphereSet R)) p d ((1 / √(n.x ^ 2 + n.y ^ 2 + n.z ^ 2)) • n) ∧
      ∀ u, V3.dot u ((1 / √(n.x ^ 2 + n.y ^ 2 + n.z ^ 2)) • n) = 0 → Tangent (Placed frame (sphereSet R)) p u := by
    intro n hn hd
    obtain ⟨h1, h2⟩ := hlen n hn
    rw [h1]
    have hz : ∀ u, V3.dot u n = 0 ↔ V3.dot u (p - frame.loc) = 0 := by
      intro u
      rcases hn with rfl | rfl
      · rfl
      · rw [dot_neg', neg_eq_zero]
    refine ⟨⟨unit_of_sqrt hR h2, ?_, ?_⟩, ?_⟩
    · intro u hu
      rw [dot_smul, (hz u).2 ((htan u).1 hu), mul_zero]
    · rw [dot_smul]
      exact mul_nonpos_of_nonneg_of_nonpos hR1.le hd
    · intro u hu
      rw [dot_smul] at hu
      rcases mul_eq_zero.1 hu with h | h
      · exact absurd h hR1.ne'
      · exact (htan u).2 ((hz u).1 h)
  unfold sphereNormal
  simp only [neg_one_smul]
  have hside : (frame.loc - p).x * d.x + (frame.loc - p).y * d.y + (frame.loc - p).z * d.z = -V3.dot d (p - frame.loc) := by
    unfold V3.dot; simp only [V3.sub_x, V3.sub_y, V3.sub_z]; ring
  rw [hside]
  split
  · rename_i hs
    exact key _ (Or.inr rfl) (by rw [dot_neg']; linarith)
  · rename_i hs
    exact key _ (Or.inl rfl) (by linarith)

/-- C40, cylinders. -/
theorem C40_cylinder {frame : Tf ℝ} (h : frame.Rigid) {R : ℝ} (hR : 0 < R) {p : V3 ℝ}
    (hp : Placed frame (cylinderSet R) p) (d : V3 ℝ) :
    FacingNormal (Placed frame (cylinderSet R)) p d (cylinderNormal frame p d) ∧
    ∀ u, V3.dot u (cylinderNormal frame p d) = 0 → Tangent (Placed frame (cylinderSet R)) p u := by
  have hdet := M3.IsRotation.det_ne h
  rw [placed_iff hdet] at hp
  generalize hq : frame.inv.point p = q at hp
  have hlen : √(q.x ^ 2 + q.y ^ 2) = R := by
    have : q.x ^ 2 + q.y ^ 2 = R ^ 2 := hp
    rw [this, Real.sqrt_sq hR.le]
  have key : ∀ c : ℝ, c = 1 ∨ c = -1 → V3.dot (localDir frame d) (c • (⟨q.x / R, q.y / R, 0 / R⟩ : V3 ℝ)) ≤ 0 →
      FacingNormal (Placed frame (cylinderSet R)) p d (frame.rot.mulVec (c • (⟨q.x / R, q.y / R, 0 / R⟩ : V3 ℝ))) ∧
      ∀ u, V3.dot u (frame.rot.mulVec (c • (⟨q.x / R, q.y / R, 0 / R⟩ : V3 ℝ))) = 0 →
        Tangent (Placed frame (cylinderSet R)) p u := by
    intro c hc hd
    have hc2 : c ^ 2 = 1 := by rcases hc with rfl | rfl <;> norm_num
    have hc0 : c ≠ 0 := by rintro rfl; norm_num at hc2
    have hdot : ∀ u : V3 ℝ, V3.dot u (c • (⟨q.x / R, q.y / R, 0 / R⟩ : V3 ℝ)) = c / R * (u.x * q.x + u.y * q.y) := by
      intro u; unfold V3.dot; simp only [V3.smul_x, V3.smul_y, V3.smul_z]; ring
    constructor
    · apply facing_placed h
      rw [hq]
      refine ⟨?_, ?_, hd⟩
      · unfold V3.IsUnit
        rw [hdot]
        simp only [V3.smul_x, V3.smul_y]
        have : c / R * (c * (q.x / R) * q.x + c * (q.y / R) * q.y) = c ^ 2 * ((q.x ^ 2 + q.y ^ 2) / R ^ 2) := by
          field_simp
        rw [this, hc2, show q.x ^ 2 + q.y ^ 2 = R ^ 2 from hp, div_self (pow_ne_zero 2 hR.ne'), one_mul]
      · intro u hu
        rw [hdot, cylinder_tangent hu, mul_zero]
    · intro u hu
      rw [dot_local h, hdot] at hu
      rw [tangent_placed h, hq]
      apply cylinder_tangent_of hR hp
      rcases mul_eq_zero.1 hu with h | h
      · exact absurd h (div_ne_zero hc0 hR.ne')
      · exact h
  unfold cylinderNormal
  simp only [hq, hlen]
  split
  · rename_i hs
    apply key _ (Or.inr rfl)
    unfold V3.dot; simp only [V3.smul_x, V3.smul_y, V3.smul_z, zero_div]; linarith
  · rename_i hs
    have := key 1 (Or.inl rfl)
    have e : (1 : ℝ) • (⟨q.x / R, q.y / R, 0 / R⟩ : V3 ℝ) = ⟨q.x / R, q.y / R, 0 / R⟩ := by apply V3.ext <;> simp
    rw [e] at this
    apply this
    unfold V3.dot; simp only [zero_div]; linarith

/-- C40, paraboloids. -/
theorem C40_paraboloid {frame : Tf ℝ} (h : frame.Rigid) {a b : ℝ} {p : V3 ℝ}
    (hp : Placed frame (paraboloidSet a b) p) (d : V3 ℝ) :
    FacingNormal (Placed frame (paraboloidSet a b)) p d ((paraboloidGM a b : Geometry ℝ E).normal frame p d) ∧
    ∀ u, V3.dot u ((paraboloidGM a b : Geometry ℝ E).normal frame p d) = 0 → Tangent (Placed frame (paraboloidSet a b)) p u := by
  have hdet := M3.IsRotation.det_ne h
  rw [placed_iff hdet] at hp
  show FacingNormal _ p d (paraboloidNormal (1 / a ^ 2) (1 / b ^ 2) frame p d) ∧
    ∀ u, V3.dot u (paraboloidNormal (1 / a ^ 2) (1 / b ^ 2) frame p d) = 0 → _
  unfold paraboloidNormal
  simp only
  generalize hq : frame.inv.point p = q at hp
  have hN : 0 < (-(2 * q.x * (1 / a ^ 2))) ^ 2 + (-(2 * q.y * (1 / b ^ 2))) ^ 2 + (1 : ℝ) ^ 2 := by positivity
  have hsq := Real.sq_sqrt hN.le
  have hsp := Real.sqrt_pos.2 hN
  generalize √((-(2 * q.x * (1 / a ^ 2))) ^ 2 + (-(2 * q.y * (1 / b ^ 2))) ^ 2 + (1 : ℝ) ^ 2) = N at hsq hsp
  generalize hn : (⟨-(2 * q.x * (1 / a ^ 2)), -(2 * q.y * (1 / b ^ 2)), 1⟩ : V3 ℝ) = n
  have hdot : ∀ u : V3 ℝ, V3.dot u n = u.z - (2 * q.x * (1 / a ^ 2) * u.x + 2 * q.y * (1 / b ^ 2) * u.y) := by
    intro u; rw [← hn]; unfold V3.dot; simp only; ring
  have hnn : V3.dot n n = N ^ 2 := by rw [hsq, ← hn]; unfold V3.dot; simp only; ring
  have hN1 : 0 < 1 / N := by positivity
  have key : ∀ c : ℝ, c = 1 ∨ c = -1 → V3.dot (localDir frame d) (c • (1 / N) • n) ≤ 0 →
      FacingNormal (Placed frame (paraboloidSet a b)) p d (frame.rot.mulVec (c • (1 / N) • n)) ∧
      ∀ u, V3.dot u (frame.rot.mulVec (c • (1 / N) • n)) = 0 → Tangent (Placed frame (paraboloidSet a b)) p u := by
    intro c hc hd
    constructor
    · apply facing_placed h
      rw [hq]
      refine ⟨?_, ?_, hd⟩
      · have := unit_of_sqrt hsp hnn
        rcases hc with rfl | rfl
        · have e : (1 : ℝ) • (1 / N) • n = (1 / N) • n := by apply V3.ext <;> simp
          rw [e]; exact this
        · rw [neg_one_smul]
          unfold V3.IsUnit V3.dot at *
          simp only [V3.neg_x, V3.neg_y, V3.neg_z]
          linarith
      · intro u hu
        rw [dot_smul, dot_smul, hdot, paraboloid_tangent hu]
        ring
    · intro u hu
      rw [dot_local h, dot_smul, dot_smul, hdot] at hu
      rw [tangent_placed h, hq]
      apply paraboloid_tangent_of hp
      have hc0 : c ≠ 0 := by rcases hc with rfl | rfl <;> norm_num
      rcases mul_eq_zero.1 hu with h | h
      · exact absurd h hc0
      · rcases mul_eq_zero.1 h with h | h
        · exact absurd h hN1.ne'
        · linarith
  split
  · rename_i hs
    apply key _ (Or.inr rfl)
    rw [dot_smul]
    unfold V3.dot
    linarith
  · rename_i hs
    have := key 1 (Or.inl rfl)
    have e : (1 : ℝ) • (1 / N) • n = (1 / N) • n := by apply V3.ext <;> simp
    rw [e] at this
    apply this
    unfold V3.dot
    linarith

/-- C40, parabolic dishes: the part of the paraboloid in any aperture. -/
theorem C40_dish {frame : Tf ℝ} (h : frame.Rigid) {focal : ℝ} (hf : 0 < focal) {P : V3 ℝ → Prop} {p : V3 ℝ}
    (hp : Placed frame (fun q => dishSet focal q ∧ P q) p) (diameter : ℝ) (d : V3 ℝ) :
    FacingNormal (Placed frame fun q => dishSet focal q ∧ P q) p d
      ((parabolicDishGM diameter focal : Geometry ℝ E).normal frame p d) ∧
    FacingNormal (Placed frame fun q => dishSet focal q ∧ P q) p d
      ((hexagonalDishGM diameter focal : Geometry ℝ E).normal frame p d) := by
  have hm : ∀ q, Placed frame (fun q => dishSet focal q ∧ P q) q → Placed frame (paraboloidSet (2 * √focal) (2 * √focal)) q := by
    rintro q ⟨c, hc, rfl⟩
    exact ⟨c, (dish_iff hf c).1 hc.1, rfl⟩
  have := ((C40_paraboloid (E := E) h (hm p hp) d).1).mono hm
  exact ⟨this, this⟩

/-- C40, the finite cylinder. -/
theorem C40_finite_cylinder {frame : Tf ℝ} (h : frame.Rigid) {diameter height : ℝ} (hD : 0 < diameter) {p : V3 ℝ}
    (hp : Placed frame (finiteCylinderSet (diameter / 2) height) p) (d : V3 ℝ) :
    FacingNormal (Placed frame (finiteCylinderSet (diameter / 2) height)) p d
      ((finiteCylinderGM diameter height : Geometry ℝ E).normal frame p d) := by
  have hm : ∀ q, Placed frame (finiteCylinderSet (diameter / 2) height) q → Placed frame (cylinderSet (diameter / 2)) q := by
    rintro q ⟨c, hc, rfl⟩
    exact ⟨c, hc.1, rfl⟩
  exact ((C40_cylinder h (by linarith) (hm p hp) d).1).mono hm

/-! ## Example -/

/-- The paraboloid z = x² + y² at (2, 0, 4), seen from above. -/
example : FacingNormal (Placed (1 : Tf ℝ) (paraboloidSet 1 1)) ⟨2, 0, 4⟩ ⟨0, 0, -1⟩
    ((paraboloidGM 1 1 : Geometry ℝ Unit).normal 1 ⟨2, 0, 4⟩ ⟨0, 0, -1⟩) := by
  refine (C40_paraboloid (E := Unit) Tf.Rigid.one ⟨⟨2, 0, 4⟩, ?_, ?_⟩ _).1
  · unfold paraboloidSet; norm_num
  · unfold Tf.point; apply V3.ext <;> simp

/-- The other shapes, in one place each. -/
example : FacingNormal (Placed (1 : Tf ℝ) (sphereSet 5)) ⟨3, 0, 4⟩ ⟨0, 0, -1⟩ (sphereNormal 1 ⟨3, 0, 4⟩ ⟨0, 0, -1⟩) ∧
    FacingNormal (Placed (1 : Tf ℝ) (cylinderSet 5)) ⟨3, 4, 7⟩ ⟨-1, 0, 0⟩ (cylinderNormal 1 ⟨3, 4, 7⟩ ⟨-1, 0, 0⟩) ∧
    FacingNormal (Placed (1 : Tf ℝ) fun q => dishSet 1 q ∧ q.x ^ 2 + q.y ^ 2 ≤ (6 / 2) ^ 2) ⟨2, 0, 1⟩ ⟨0, 0, -1⟩
      ((parabolicDishGM 6 1 : Geometry ℝ Unit).normal 1 ⟨2, 0, 1⟩ ⟨0, 0, -1⟩) ∧
    FacingNormal (Placed (1 : Tf ℝ) (finiteCylinderSet (10 / 2) 8)) ⟨3, 4, -2⟩ ⟨-1, 0, 0⟩
      ((finiteCylinderGM 10 8 : Geometry ℝ Unit).normal 1 ⟨3, 4, -2⟩ ⟨-1, 0, 0⟩) := by
  refine ⟨(C40_sphere Tf.Rigid.one (by norm_num) ⟨_, ?_, (Tf.one_point _).symm⟩ _).1,
    (C40_cylinder Tf.Rigid.one (by norm_num) ⟨_, ?_, (Tf.one_point _).symm⟩ _).1,
    (C40_dish (E := Unit) Tf.Rigid.one one_pos ⟨_, ⟨?_, ?_⟩, (Tf.one_point _).symm⟩ 6 _).1,
    C40_finite_cylinder (E := Unit) Tf.Rigid.one (by norm_num) ⟨_, ⟨?_, ?_⟩, (Tf.one_point _).symm⟩ _⟩
  · unfold sphereSet; norm_num
  · unfold cylinderSet; norm_num
  · unfold dishSet; norm_num
  · norm_num
  · norm_num
  · rw [abs_le]; norm_num

end Tracer
