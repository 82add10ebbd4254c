import Verif.Lemmas.Drop
import Verif.Props.Cavity

/-!
# Light and a ball of glass (C92)

A sphere with refracting optics, outside or inside of which the source is.
-/

namespace Tracer

variable {E σ : Type _}

section
variable {R : ℝ} {c : V3 ℝ} {r : Ray ℝ E} {na nb : ℝ}

/-- C92: at the ball the moment about its centre, times the refractive index, is kept: by the part that is thrown off, the part that enters, all
that goes round inside and all that gets out. -/
theorem C92_moment (hR : 0 < R) (ha : 0 < na) (hb : 0 < nb) (hf : FallsOn R c na nb r) (k : Nat) :
    na • moment c (thrownOff R c na nb r) = na • moment c r ∧ nb • moment c (entering R c na nb r) = na • moment c r ∧
    nb • moment c (cavityRay R c (1 - ballShare R c na nb r) (entering R c na nb r) k) = na • moment c r ∧
    na • moment c (exitRay R c na nb (entering R c na nb r) k) = na • moment c r := by
  obtain ⟨e1, e2, _, _, e5, _⟩ := hf.entering hR ha hb
  have h1 : nb • moment c (entering R c na nb r) = na • moment c r := by
    rw [e2]
    apply V3.ext <;> simp only [V3.smul_x, V3.smul_y, V3.smul_z] <;> field_simp
  refine ⟨by rw [(hf.thrown hR).2.2.2], h1, by rw [(cavity_moment e1 hR _ k).1, h1], ?_⟩
  rw [(exitRay_facts e1 hR ha e5 k).2.2.2, ← h1]
  apply V3.ext <;> simp only [V3.smul_x, V3.smul_y, V3.smul_z] <;> field_simp

/-- C92: light that has entered a ball is never totally reflected in it: at each place a part of it gets out. -/
theorem C92_not_trapped (hR : 0 < R) (ha : 0 < na) (hb : 0 < nb) (hf : FallsOn R c na nb r) : Bends R c nb na (entering R c na nb r) :=
  (hf.entering hR ha hb).2.2.2.2.1

/-- C92: what a ball throws off, what has got out of it after `n` reflections and what is still inside are together the light that fell on it. -/
theorem C92_energy (hR : 0 < R) (ha : 0 < na) (hb : 0 < nb) (hf : FallsOn R c na nb r) (n : Nat) :
    (thrownOff R c na nb r).energy + ((List.range n).map fun k => (exitRay R c na nb (entering R c na nb r) k).energy).sum +
      (cavityRay R c (1 - ballShare R c na nb r) (entering R c na nb r) n).energy = r.energy := by
  obtain ⟨_, _, _, _, _, e6⟩ := hf.entering hR ha hb
  have hex : ∀ k, (exitRay R c na nb (entering R c na nb r) k).energy =
      r.energy * (1 - ballShare R c na nb r) * ballShare R c na nb r ^ k * (1 - ballShare R c na nb r) := by
    intro k
    show (entering R c na nb r).energy * _ ^ k * (1 - _) = _
    rw [e6]; rfl
  have hcav : ∀ k, (cavityRay R c (1 - ballShare R c na nb r) (entering R c na nb r) k).energy =
      r.energy * (1 - ballShare R c na nb r) * ballShare R c na nb r ^ k := by
    intro k
    cases k with
    | zero => simp [cavityRay, entering]
    | succ k =>
      show r.energy * (1 - ballShare R c na nb r) * (1 - (1 - ballShare R c na nb r)) ^ (k + 1) = _
      rw [sub_sub_cancel]
  have hth : (thrownOff R c na nb r).energy = r.energy * ballShare R c na nb r := rfl
  rw [hcav, hth]
  generalize ballShare R c na nb r = s at *
  induction n with
  | zero => simp; ring
  | succ n ih =>
    rw [List.range_succ, List.map_append, List.sum_append]
    simp only [List.map_cons, List.map_nil, List.sum_cons, List.sum_nil, hex]
    have hp : s ^ (n + 1) = s ^ n * s := pow_succ s n
    simp only [hex] at ih
    rw [hp]
    linear_combination ih

theorem bent_turn (c : V3 ℝ) (r : Ray ℝ E) (θ φ : ℝ) :
    Real.cos φ • bent c r θ + Real.sin φ • bent c r (θ + Real.pi / 2) = bent c r (θ + φ) := by
  unfold bent
  rw [Real.cos_add_pi_div_two, Real.sin_add_pi_div_two, Real.cos_add, Real.sin_add]
  apply V3.ext <;> simp only [V3.add_x, V3.add_y, V3.add_z, V3.smul_x, V3.smul_y, V3.smul_z] <;> ring

theorem one_smul_eq (v : V3 ℝ) : (1 : ℝ) • v = v := by apply V3.ext <;> simp

theorem eq_zero_of_dot {v : V3 ℝ} (h : V3.dot v v = 0) : v = 0 := by
  unfold V3.dot at h
  have h1 := mul_self_nonneg v.x
  have h2 := mul_self_nonneg v.y
  have h3 := mul_self_nonneg v.z
  apply V3.ext
  · exact mul_self_eq_zero.1 (by linarith)
  · exact mul_self_eq_zero.1 (by linarith)
  · exact mul_self_eq_zero.1 (by linarith)

theorem miss_along (hu : r.dir.IsUnit) :
    missDistance c r • towardsCentre c r = V3.dot (r.vertex - c) r.dir • r.dir - (r.vertex - c) := by
  have hu' : V3.dot r.dir r.dir = 1 := hu
  unfold towardsCentre
  by_cases h : missDistance c r = 0
  · have h2 : missSq c r = 0 := by
      rw [← missDistance_sq, h]; norm_num
    rw [h]
    have h4 := (missSq_eq (c := c) hu)
    set u := V3.dot (r.vertex - c) r.dir • r.dir - (r.vertex - c) with hud
    have h5 : V3.dot u u = 0 := by
      have : V3.dot u u = V3.dot (r.vertex - c) (r.vertex - c) - 2 * V3.dot (r.vertex - c) r.dir ^ 2 +
          V3.dot (r.vertex - c) r.dir ^ 2 * V3.dot r.dir r.dir := by
        rw [hud]
        generalize hz : V3.dot (r.vertex - c) r.dir = z
        have : V3.dot (z • r.dir - (r.vertex - c)) (z • r.dir - (r.vertex - c)) =
            V3.dot (r.vertex - c) (r.vertex - c) - 2 * z * V3.dot (r.vertex - c) r.dir + z ^ 2 * V3.dot r.dir r.dir := by
          unfold V3.dot; simp only [V3.sub_x, V3.sub_y, V3.sub_z, V3.smul_x, V3.smul_y, V3.smul_z]; ring
        rw [this, hz]; ring
      rw [this, hu']
      rw [h2] at h4
      unfold V3.dist2 at h4
      linarith
    have h6 : u = 0 := eq_zero_of_dot h5
    rw [h6]
    apply V3.ext <;> simp
  · apply V3.ext <;> simp only [V3.smul_x, V3.smul_y, V3.smul_z] <;> field_simp

/-- Seen along the moment, it turns directions by a right angle. -/
theorem moment_bent (hu : r.dir.IsUnit) (θ : ℝ) : V3.cross (moment c r) (bent c r θ) = missDistance c r • bent c r (θ + Real.pi / 2) := by
  have hu' : V3.dot r.dir r.dir = 1 := hu
  have hm := miss_along (c := c) hu
  have hm2 : missDistance c r ^ 2 = missSq c r := missDistance_sq
  have h1 : V3.cross (moment c r) r.dir = missDistance c r • towardsCentre c r := by
    rw [hm]
    have : V3.cross (moment c r) r.dir = V3.dot (r.vertex - c) r.dir • r.dir - V3.dot r.dir r.dir • (r.vertex - c) := by
      unfold moment V3.cross V3.dot
      apply V3.ext <;> simp only [V3.sub_x, V3.sub_y, V3.sub_z, V3.smul_x, V3.smul_y, V3.smul_z] <;> ring
    rw [this, hu', one_smul_eq]
  have h2 : V3.cross (moment c r) (towardsCentre c r) = -(missDistance c r • r.dir) := by
    have e1 : V3.cross (moment c r) (V3.dot (r.vertex - c) r.dir • r.dir - (r.vertex - c)) = -(missSq c r • r.dir) := by
      have h4 := missSq_eq (c := c) hu
      unfold V3.dist2 at h4
      rw [h4]
      have : V3.cross (moment c r) (V3.dot (r.vertex - c) r.dir • r.dir - (r.vertex - c)) =
          V3.dot (r.vertex - c) r.dir • (V3.dot (r.vertex - c) r.dir • r.dir - V3.dot r.dir r.dir • (r.vertex - c)) -
          (V3.dot (r.vertex - c) (r.vertex - c) • r.dir - V3.dot (r.vertex - c) r.dir • (r.vertex - c)) := by
        generalize hz : V3.dot (r.vertex - c) r.dir = z
        unfold moment V3.cross
        unfold V3.dot at hz ⊢
        rw [← hz]
        apply V3.ext <;> simp only [V3.sub_x, V3.sub_y, V3.sub_z, V3.smul_x, V3.smul_y, V3.smul_z] <;> ring
      rw [this, hu']
      apply V3.ext <;> simp only [V3.sub_x, V3.sub_y, V3.sub_z, V3.neg_x, V3.neg_y, V3.neg_z, V3.smul_x, V3.smul_y, V3.smul_z] <;> ring
    unfold towardsCentre
    have e2 : ∀ (L v : V3 ℝ) (s : ℝ), V3.cross L (s • v) = s • V3.cross L v := by
      intro L v s
      unfold V3.cross
      apply V3.ext <;> simp only [V3.smul_x, V3.smul_y, V3.smul_z] <;> ring
    rw [e2, e1, ← hm2]
    by_cases h : missDistance c r = 0
    · rw [h]; apply V3.ext <;> simp
    · apply V3.ext <;> simp only [V3.neg_x, V3.neg_y, V3.neg_z, V3.smul_x, V3.smul_y, V3.smul_z] <;> field_simp
  have h3 : V3.cross (moment c r) (bent c r θ) =
      Real.cos θ • V3.cross (moment c r) r.dir + Real.sin θ • V3.cross (moment c r) (towardsCentre c r) := by
    unfold bent V3.cross
    apply V3.ext <;> simp only [V3.add_x, V3.add_y, V3.add_z, V3.smul_x, V3.smul_y, V3.smul_z] <;> ring
  rw [h3, h1, h2]
  unfold bent
  rw [Real.cos_add_pi_div_two, Real.sin_add_pi_div_two]
  apply V3.ext <;> simp only [V3.add_x, V3.add_y, V3.add_z, V3.neg_x, V3.neg_y, V3.neg_z, V3.smul_x, V3.smul_y, V3.smul_z] <;> ring

theorem withMoment_bent (hu : r.dir.IsUnit) (s κ t θ : ℝ) :
    withMoment R (t • bent c r θ) (s • moment c r) κ =
      (t / R ^ 2) • ((s * missDistance c r) • bent c r (θ + Real.pi / 2) + κ • bent c r θ) := by
  unfold withMoment
  have : V3.cross (s • moment c r) (t • bent c r θ) = (s * t) • V3.cross (moment c r) (bent c r θ) := by
    unfold V3.cross
    apply V3.ext <;> simp only [V3.smul_x, V3.smul_y, V3.smul_z] <;> ring
  rw [this, moment_bent hu]
  apply V3.ext <;> simp only [V3.add_x, V3.add_y, V3.add_z, V3.smul_x, V3.smul_y, V3.smul_z] <;> ring

theorem missDistance_facts (c : V3 ℝ) (r : Ray ℝ E) : missDistance c r ^ 2 = missSq c r ∧ 0 ≤ missDistance c r :=
  ⟨missDistance_sq, Real.sqrt_nonneg _⟩

/-- The angles at the surface: Snell's law, and the two half chords. -/
theorem FallsOn.angles (hf : FallsOn R c na nb r) (hR : 0 < R) (ha : 0 < na) (hb : 0 < nb) :
    R * Real.sin (angleIn R c r) = missDistance c r ∧ R * Real.cos (angleIn R c r) = halfChord R c r ∧
    R * Real.sin (angleBent R c na nb r) = na / nb * missDistance c r ∧ R * Real.cos (angleBent R c na nb r) = bentHalf R c na nb r := by
  obtain ⟨m2, m0⟩ := missDistance_facts c r
  have hh := hf.half.1
  have hsq := bentHalf_sq hb (hf.bends hb)
  have key : ∀ x y : ℝ, 0 ≤ x → 0 ≤ y → y ^ 2 = R ^ 2 - x ^ 2 → R * Real.sin (Real.arcsin (x / R)) = x ∧ R * Real.cos (Real.arcsin (x / R)) = y := by
    intro x y hx hy hxy
    have hle : x ≤ R := by nlinarith [sq_nonneg y]
    have h1 : x / R ≤ 1 := (div_le_one hR).2 hle
    have h0 : 0 ≤ x / R := div_nonneg hx hR.le
    refine ⟨?_, ?_⟩
    · rw [Real.sin_arcsin (by linarith) h1]; field_simp
    · rw [Real.cos_arcsin]
      have : 1 - (x / R) ^ 2 = (y / R) ^ 2 := by rw [div_pow, div_pow, hxy]; field_simp
      rw [this, Real.sqrt_sq (div_nonneg hy hR.le)]
      field_simp
  obtain ⟨k1, k2⟩ := key _ _ m0 hf.half.2.le (by rw [hh, m2])
  obtain ⟨k3, k4⟩ := key (na / nb * missDistance c r) (bentHalf R c na nb r) (by positivity) (Real.sqrt_nonneg _) (by rw [hsq, mul_pow, m2])
  exact ⟨k1, k2, k3, k4⟩

/-- C92: Snell's law at the surface of the ball. -/
theorem C92_snell (hf : FallsOn R c na nb r) (hR : 0 < R) (ha : 0 < na) (hb : 0 < nb) :
    na * Real.sin (angleIn R c r) = nb * Real.sin (angleBent R c na nb r) := by
  obtain ⟨h1, _, h3, _⟩ := hf.angles hR ha hb
  have : R * (na * Real.sin (angleIn R c r)) = R * (nb * Real.sin (angleBent R c na nb r)) := by
    have e1 : R * (na * Real.sin (angleIn R c r)) = na * (R * Real.sin (angleIn R c r)) := by ring
    have e2 : R * (nb * Real.sin (angleBent R c na nb r)) = nb * (R * Real.sin (angleBent R c na nb r)) := by ring
    rw [e1, e2, h1, h3]; field_simp
  exact mul_left_cancel₀ hR.ne' this

theorem ball_turned (hf : FallsOn R c na nb r) (hR : 0 < R) (ha : 0 < na) (hb : 0 < nb) :
    r.at (wayIn R c r) - c = (-R) • bent c r (angleIn R c r) ∧
    (entering R c na nb r).dir = bent c r (angleIn R c r - angleBent R c na nb r) ∧
    ∀ k, bouncePoint R c (entering R c na nb r) k =
      R • bent c r (angleIn R c r - 2 * angleBent R c na nb r + k * (Real.pi - 2 * angleBent R c na nb r)) := by
  obtain ⟨a1, a2, a3, a4⟩ := hf.angles hR ha hb
  obtain ⟨e1, e2, e3, e4, e5, e6⟩ := hf.entering hR ha hb
  have hu := hf.unit
  have hQ : r.at (wayIn R c r) - c = (-R) • bent c r (angleIn R c r) := by
    have e : (-R) • bent c r (angleIn R c r) =
        -((R * Real.cos (angleIn R c r)) • r.dir + (R * Real.sin (angleIn R c r)) • towardsCentre c r) := by
      unfold bent
      apply V3.ext <;> simp only [V3.add_x, V3.add_y, V3.add_z, V3.neg_x, V3.neg_y, V3.neg_z, V3.smul_x, V3.smul_y, V3.smul_z] <;> ring
    rw [e, a1, a2, miss_along hu]
    unfold Ray.at wayIn
    apply V3.ext <;> simp only [V3.add_x, V3.add_y, V3.add_z, V3.sub_x, V3.sub_y, V3.sub_z, V3.neg_x, V3.neg_y, V3.neg_z, V3.smul_x, V3.smul_y, V3.smul_z] <;> ring
  set α := angleIn R c r
  set β := angleBent R c na nb r
  have hd : (entering R c na nb r).dir = bent c r (α - β) := by
    show withMoment R (r.at (wayIn R c r) - c) ((na / nb) • moment c r) (-bentHalf R c na nb r) = _
    rw [hQ, withMoment_bent hu, ← a3, ← a4, sub_eq_add_neg α β, ← bent_turn c r α (-β), Real.cos_neg, Real.sin_neg]
    apply V3.ext <;> simp only [V3.add_x, V3.add_y, V3.add_z, V3.smul_x, V3.smul_y, V3.smul_z] <;> field_simp <;> ring
  have hw : wallPoint R c (entering R c na nb r) = R • bent c r (α - 2 * β) := by
    have hway : wayToWall R c (entering R c na nb r) = 2 * (R * Real.cos β) := by
      unfold wayToWall
      rw [e3, a4]
      have hperp : V3.dot ((na / nb) • moment c r) (r.at (wayIn R c r) - c) = 0 := by rw [← moment_at c r (wayIn R c r)]; exact moment_perp _
      have := (withMoment_facts hR hf.place.1 hperp (-bentHalf R c na nb r)).1
      show _ - V3.dot (r.at (wayIn R c r) - c) (withMoment R _ _ _) = _
      rw [this]; ring
    unfold wallPoint
    rw [hway]
    have : (entering R c na nb r).at (2 * (R * Real.cos β)) - c = (r.at (wayIn R c r) - c) + (2 * (R * Real.cos β)) • (entering R c na nb r).dir := by
      unfold Ray.at
      show r.vertex + wayIn R c r • r.dir + _ - c = _
      apply V3.ext <;> simp only [V3.add_x, V3.add_y, V3.add_z, V3.sub_x, V3.sub_y, V3.sub_z] <;> ring
    rw [this, hQ, hd]
    have t1 : α = (α - β) + β := by ring
    have t2 : α - 2 * β = (α - β) + -β := by ring
    rw [t2, ← bent_turn c r (α - β) (-β), Real.cos_neg, Real.sin_neg]
    have t3 : bent c r α = Real.cos β • bent c r (α - β) + Real.sin β • bent c r (α - β + Real.pi / 2) := by
      rw [bent_turn, sub_add_cancel]
    rw [t3]
    apply V3.ext <;> simp only [V3.add_x, V3.add_y, V3.add_z, V3.smul_x, V3.smul_y, V3.smul_z] <;> ring
  have hs : sideways R c (entering R c na nb r) = R • bent c r (α - 2 * β + Real.pi / 2) := by
    have hm : missDistance c (entering R c na nb r) = R * Real.sin β := by
      rw [a3]
      unfold missDistance
      have : missSq c (entering R c na nb r) = (na / nb) ^ 2 * missSq c r := by
        show V3.dot (moment c _) (moment c _) = _
        rw [e2, moment_smul_sq]; rfl
      rw [this, Real.sqrt_mul (sq_nonneg _), Real.sqrt_sq (by positivity)]
    unfold sideways
    rw [hm, e3, ← a4, hw, hd]
    have t1 : bent c r (α - β) = Real.cos β • bent c r (α - 2 * β) + Real.sin β • bent c r (α - 2 * β + Real.pi / 2) := by
      rw [bent_turn]; congr 1; ring
    rw [t1]
    by_cases h0 : Real.sin β = 0
    · -- through the centre
      have hm0 : missDistance c r = 0 := by
        rw [h0, mul_zero] at a3
        have : na / nb ≠ 0 := by positivity
        rcases mul_eq_zero.1 a3.symm with h | h
        · exact absurd h this
        · exact h
      have ht : towardsCentre c r = 0 := by
        unfold towardsCentre
        rw [hm0]
        apply V3.ext <;> simp
      have hα : α = 0 := by
        show Real.arcsin (missDistance c r / R) = 0
        rw [hm0, zero_div, Real.arcsin_zero]
      have hβ : β = 0 := by
        show Real.arcsin (na / nb * missDistance c r / R) = 0
        rw [hm0, mul_zero, zero_div, Real.arcsin_zero]
      rw [h0, hα, hβ]
      unfold bent
      rw [ht]
      apply V3.ext <;> simp
    · apply V3.ext <;> simp only [V3.add_x, V3.add_y, V3.add_z, V3.sub_x, V3.sub_y, V3.sub_z, V3.smul_x, V3.smul_y, V3.smul_z] <;> field_simp <;> ring
  refine ⟨hQ, hd, fun k => ?_⟩
  have hch : chordAngle R c (entering R c na nb r) = Real.pi - 2 * β := by
    unfold chordAngle
    rw [e3, ← a4, mul_div_cancel_left₀ _ hR.ne']
    have hβ1 : 0 ≤ β := Real.arcsin_nonneg.2 (by have := (missDistance_facts c r).2; positivity)
    have hβ2 : β ≤ Real.pi / 2 := Real.arcsin_le_pi_div_two _
    rw [← Real.sin_pi_div_two_sub, Real.arcsin_sin (by linarith) (by linarith [Real.pi_pos])]
    ring
  unfold bouncePoint
  rw [hch, hw, hs, ← bent_turn c r (α - 2 * β) (k * (Real.pi - 2 * β))]
  apply V3.ext <;> simp only [V3.add_x, V3.add_y, V3.add_z, V3.smul_x, V3.smul_y, V3.smul_z] <;> ring

/-- C92: by how much the light is turned aside.  What enters is turned towards the centre by the difference of the two angles at the surface; what
gets out after `k` reflections by twice that and, for each reflection, what is left of two right angles after twice the angle inside; what is thrown off
by what is left of two right angles after twice the angle outside, the other way. -/
theorem C92_deviation (hf : FallsOn R c na nb r) (hR : 0 < R) (ha : 0 < na) (hb : 0 < nb) (k : Nat) :
    (entering R c na nb r).dir = bent c r (angleIn R c r - angleBent R c na nb r) ∧
    (exitRay R c na nb (entering R c na nb r) k).dir =
      bent c r (2 * (angleIn R c r - angleBent R c na nb r) + k * (Real.pi - 2 * angleBent R c na nb r)) ∧
    (thrownOff R c na nb r).dir = bent c r (-(Real.pi - 2 * angleIn R c r)) := by
  obtain ⟨a1, a2, a3, a4⟩ := hf.angles hR ha hb
  obtain ⟨e1, e2, e3, e4, e5, e6⟩ := hf.entering hR ha hb
  obtain ⟨hQ, hd, hB⟩ := ball_turned hf hR ha hb
  refine ⟨hd, ?_, ?_⟩
  · show withMoment R (bouncePoint R c (entering R c na nb r) k) ((nb / na) • moment c (entering R c na nb r)) (bentHalf R c nb na (entering R c na nb r)) = _
    rw [e2, e4, hB k]
    have : (nb / na) • (na / nb) • moment c r = (1 : ℝ) • moment c r := by
      apply V3.ext <;> simp only [V3.smul_x, V3.smul_y, V3.smul_z] <;> field_simp
    rw [this, withMoment_bent hf.unit, ← a1, ← a2]
    rw [show 2 * (angleIn R c r - angleBent R c na nb r) + k * (Real.pi - 2 * angleBent R c na nb r) =
      (angleIn R c r - 2 * angleBent R c na nb r + k * (Real.pi - 2 * angleBent R c na nb r)) + angleIn R c r by ring,
      ← bent_turn c r (angleIn R c r - 2 * angleBent R c na nb r + k * (Real.pi - 2 * angleBent R c na nb r)) (angleIn R c r)]
    apply V3.ext <;> simp only [V3.add_x, V3.add_y, V3.add_z, V3.smul_x, V3.smul_y, V3.smul_z] <;> field_simp <;> ring
  · show withMoment R (r.at (wayIn R c r) - c) (moment c r) (halfChord R c r) = _
    rw [hQ, ← one_smul_eq (moment c r), withMoment_bent hf.unit, ← a1, ← a2]
    have t : bent c r (-(Real.pi - 2 * angleIn R c r)) = (-1 : ℝ) • bent c r (angleIn R c r + angleIn R c r) := by
      unfold bent
      rw [show -(Real.pi - 2 * angleIn R c r) = (angleIn R c r + angleIn R c r) - Real.pi by ring, Real.cos_sub_pi, Real.sin_sub_pi]
      apply V3.ext <;> simp only [V3.add_x, V3.add_y, V3.add_z, V3.smul_x, V3.smul_y, V3.smul_z] <;> ring
    rw [t, ← bent_turn c r (angleIn R c r) (angleIn R c r)]
    apply V3.ext <;> simp only [V3.add_x, V3.add_y, V3.add_z, V3.smul_x, V3.smul_y, V3.smul_z] <;> field_simp <;> ring

end

section
variable {R : ℝ} {g : Geometry ℝ E} {frame : Tf ℝ} {n1 n2 na nb : ℝ}

theorem kept_inside (c : V3 ℝ) (minE : ℝ) (k : Nat) (s : Ray ℝ E → ℝ) :
    kept minE (fun r k => cavityRay R c (1 - s r) r k) k = fun r => stillTraced (1 - s r) minE k r := by
  funext r; rfl

theorem kept_outside (c : V3 ℝ) (minE : ℝ) (k : Nat) :
    kept minE (ballOrbit R c na nb) (k + 1) = (tracedInBall R c na nb minE k : Ray ℝ E → Bool) := by
  funext r
  unfold kept tracedInBall
  congr 1
  funext j
  have : (ballOrbit R c na nb r (j + 1)).energy = r.energy * (1 - ballShare R c na nb r) * ballShare R c na nb r ^ j := by
    cases j with
    | zero => simp [ballOrbit, cavityRay, entering]
    | succ j =>
      show r.energy * (1 - ballShare R c na nb r) * (1 - (1 - ballShare R c na nb r)) ^ (j + 1) = _
      rw [sub_sub_cancel]
  rw [this]

/-- C92: a ball of glass on which light falls from outside is traced without an exception, whichever way round the two indices are given.  First there are the
parts thrown off and entering; then, each time, what goes on inside and what gets out, as long as what is inside is above the threshold.  What has been thrown
off or has got out never meets the ball again. -/
theorem C92_drop (hg : sphereGM R = .ok g) (hf : frame.Rigid) (h1 : 0 < n1) (h2 : 0 < n2) (hne : n1 ≠ n2)
    (hab : na = n1 ∧ nb = n2 ∨ na = n2 ∧ nb = n1) (w : σ) {b : Bundle ℝ E} (hin : ∀ r ∈ b, FallsOn R frame.loc na nb r) (reps : Nat) (minE : ℝ) :
    ∃ res, rayTracer [⟨[mkSurf g (refractiveHomogenous n1 n2) frame], Obj.defaultOwn, Obj.defaultNext 1⟩] w b reps minE true = .ok res ∧
      (0 < reps → (((res.tree[1]?).getD []).map Ray.strip).Perm
        (b.flatMap fun r => [(thrownOff R frame.loc na nb r).strip, (entering R frame.loc na nb r).strip])) ∧
      ∀ k, k + 1 < reps → (((res.tree[k + 2]?).getD []).map Ray.strip).Perm
        ((b.filter (tracedInBall R frame.loc na nb minE k)).flatMap fun r =>
          [(cavityRay R frame.loc (1 - ballShare R frame.loc na nb r) (entering R frame.loc na nb r) (k + 1)).strip,
           (exitRay R frame.loc na nb (entering R frame.loc na nb r) k).strip]) := by
  have hleg : ∀ r ∈ b, LegalRay n1 n2 r := by
    intro r hr
    refine ⟨(hin r hr).unit, ?_⟩
    rw [(hin r hr).medium]
    rcases hab with ⟨h, _⟩ | ⟨h, _⟩
    · exact Or.inl (by rw [h])
    · exact Or.inr (by rw [h])
  obtain ⟨res, hres⟩ := lone_refracting (.sphere R g hg) h1 h2 hne hf w hleg reps minE
  have ho := outside_fans hg hf h1 h2 hne hab w hin
  have key : ∀ k < reps, (((res.tree[k + 1]?).getD []).map Ray.strip).Perm
      ((b.filter (kept minE (ballOrbit R frame.loc na nb) k)).flatMap fun r => (ballFan R frame.loc na nb r k).map Ray.strip) := by
    intro k hk
    have := C84_specular (lone_plain _) (lone_specular (.sphere R g hg)) hres (k := k + 1) hk
    refine this.trans (List.Perm.of_eq ?_)
    rw [fan_generation ho k, List.map_flatMap]
    refine List.flatMap_congr fun r _ => ?_
    rw [List.map_map]; rfl
  refine ⟨res, hres, fun h => ?_, fun k hk => ?_⟩
  · refine (key 0 h).trans (List.Perm.of_eq ?_)
    have : b.filter (kept minE (ballOrbit R frame.loc na nb) 0) = b := by
      rw [List.filter_eq_self]; intro r _; simp [kept]
    rw [this]; rfl
  · refine (key (k + 1) hk).trans (List.Perm.of_eq ?_)
    rw [kept_outside]; rfl

open Classical in
/-- C92: a source inside the ball.  At less than the critical angle a part of the light gets out each time; beyond it nothing ever does. -/
theorem C92_inside (hg : sphereGM R = .ok g) (hf : frame.Rigid) (h1 : 0 < n1) (h2 : 0 < n2) (hne : n1 ≠ n2)
    (hab : na = n1 ∧ nb = n2 ∨ na = n2 ∧ nb = n1) (w : σ) {b : Bundle ℝ E}
    (hin : ∀ r ∈ b, InCavity (1 / 10 ^ 6) R frame.loc r ∧ r.ref = some nb) (reps : Nat) (minE : ℝ) :
    ∃ res, rayTracer [⟨[mkSurf g (refractiveHomogenous n1 n2) frame], Obj.defaultOwn, Obj.defaultNext 1⟩] w b reps minE true = .ok res ∧
      ∀ k < reps, (((res.tree[k + 1]?).getD []).map Ray.strip).Perm
        ((b.filter fun r => stillTraced (1 - ballShare R frame.loc nb na r) minE k r).flatMap fun r =>
          (cavityRay R frame.loc (1 - ballShare R frame.loc nb na r) r (k + 1)).strip ::
            (if Bends R frame.loc nb na r then [(exitRay R frame.loc na nb r k).strip] else [])) := by
  have hleg : ∀ r ∈ b, LegalRay n1 n2 r := by
    intro r hr
    refine ⟨(hin r hr).1.unit, ?_⟩
    rw [(hin r hr).2]
    rcases hab with ⟨_, h⟩ | ⟨_, h⟩
    · exact Or.inr (by rw [h])
    · exact Or.inl (by rw [h])
  obtain ⟨res, hres⟩ := lone_refracting (.sphere R g hg) h1 h2 hne hf w hleg reps minE
  have ho := inside_fans hg hf h1 h2 hne hab w hin
  refine ⟨res, hres, fun k hk => ?_⟩
  have := C84_specular (lone_plain _) (lone_specular (.sphere R g hg)) hres (k := k + 1) hk
  refine this.trans (List.Perm.of_eq ?_)
  rw [fan_generation ho k, List.map_flatMap, kept_inside]
  refine List.flatMap_congr fun r _ => ?_
  rw [List.map_map, List.map_cons]
  split <;> rfl

/-- C92: light beyond the critical angle stays in the ball with all its energy, for however many reflections. -/
theorem C92_trapped (hg : sphereGM R = .ok g) (hf : frame.Rigid) (h1 : 0 < n1) (h2 : 0 < n2) (hne : n1 ≠ n2)
    (hab : na = n1 ∧ nb = n2 ∨ na = n2 ∧ nb = n1) (w : σ) {b : Bundle ℝ E}
    (hin : ∀ r ∈ b, InCavity (1 / 10 ^ 6) R frame.loc r ∧ r.ref = some nb) (hT : ∀ r ∈ b, nb ^ 2 * missSq frame.loc r > na ^ 2 * R ^ 2)
    (reps : Nat) {minE : ℝ} (hE : ∀ r ∈ b, minE < r.energy) :
    ∃ res, rayTracer [⟨[mkSurf g (refractiveHomogenous n1 n2) frame], Obj.defaultOwn, Obj.defaultNext 1⟩] w b reps minE true = .ok res ∧
      ∀ k < reps, (((res.tree[k + 1]?).getD []).map Ray.strip).Perm (b.map fun r => (cavityRay R frame.loc 0 r (k + 1)).strip) ∧
        totalEnergy ((res.tree[k + 1]?).getD []) = totalEnergy b := by
  classical
  obtain ⟨res, hres, h⟩ := C92_inside hg hf h1 h2 hne hab w hin reps minE
  have hnb : ∀ r ∈ b, ¬ Bends R frame.loc nb na r := fun r hr hb => absurd hb (not_le.2 (hT r hr))
  have hs : ∀ r ∈ b, ballShare R frame.loc nb na r = 1 := fun r hr => by
    unfold ballShare; rw [if_neg (hnb r hr)]
  refine ⟨res, hres, fun k hk => ?_⟩
  have hperm : (((res.tree[k + 1]?).getD []).map Ray.strip).Perm (b.map fun r => (cavityRay R frame.loc 0 r (k + 1)).strip) := by
    refine (h k hk).trans (List.Perm.of_eq ?_)
    have hfil : (b.filter fun r => stillTraced (1 - ballShare R frame.loc nb na r) minE k r) = b := by
      refine List.filter_eq_self.2 fun r hr => ?_
      rw [hs r hr, sub_self]
      unfold stillTraced
      rw [List.all_eq_true]
      intro j _
      simpa using hE r hr
    rw [hfil]
    have : (b.flatMap fun r => (cavityRay R frame.loc (1 - ballShare R frame.loc nb na r) r (k + 1)).strip ::
        (if Bends R frame.loc nb na r then [(exitRay R frame.loc na nb r k).strip] else [])) =
        b.flatMap fun r => [(cavityRay R frame.loc 0 r (k + 1)).strip] := by
      refine List.flatMap_congr fun r hr => ?_
      rw [hs r hr, sub_self, if_neg (hnb r hr)]
    rw [this, List.map_eq_flatMap]
  refine ⟨hperm, ?_⟩
  have hen : ∀ l : Bundle ℝ E, totalEnergy l = ((l.map Ray.strip).map fun x => x.energy).sum := by
    intro l; unfold totalEnergy; rw [List.map_map]; rfl
  rw [hen, (hperm.map _).sum_eq, List.map_map]
  unfold totalEnergy
  congr 1
  refine List.map_congr_left fun r _ => ?_
  show r.energy * (1 - 0) ^ (k + 1) = r.energy
  simp

end

/-- Light for a ball of glass of index 3/2, at three fifths of its radius from the centre. -/
noncomputable def Examples.dropRay : Ray ℝ Unit := ⟨⟨-2, 3 / 5, 0⟩, ⟨1, 0, 0⟩, 1, 0, some 1, ()⟩

theorem Examples.dropRay_miss : missSq 0 Examples.dropRay = (3 / 5) ^ 2 := by
  simp only [missSq, V3.cross, V3.dot, V3.sub_x, V3.sub_y, V3.sub_z, V3.zero_x, V3.zero_y, V3.zero_z, Examples.dropRay]; norm_num

theorem Examples.dropRay_half : halfChord 1 0 Examples.dropRay = 4 / 5 := by
  unfold halfChord
  rw [Examples.dropRay_miss, show (1 : ℝ) ^ 2 - (3 / 5) ^ 2 = (4 / 5) ^ 2 by norm_num, Real.sqrt_sq (by norm_num)]

theorem Examples.dropRay_way : wayIn 1 0 Examples.dropRay = 6 / 5 := by
  unfold wayIn
  rw [Examples.dropRay_half]
  simp only [V3.dot, V3.sub_x, V3.sub_y, V3.sub_z, V3.zero_x, V3.zero_y, V3.zero_z, Examples.dropRay]; norm_num

theorem Examples.dropRay_falls : FallsOn 1 0 1 (3 / 2) Examples.dropRay := by
  have hbent : (1 : ℝ) / 10 ≤ bentHalf 1 0 1 (3 / 2) Examples.dropRay := by
    unfold bentHalf
    rw [Examples.dropRay_miss]
    exact Real.le_sqrt_of_sq_le (by norm_num)
  refine ⟨?_, rfl, ?_, ?_, ?_⟩
  · simp only [V3.IsUnit, V3.dot, Examples.dropRay]; norm_num
  · rw [Examples.dropRay_miss]; norm_num
  · rw [Examples.dropRay_way]; norm_num
  · norm_num; linarith

/-- The conditions can be met: part of that light is thrown off with the direction (-7/25, 24/25, 0). -/
example : missDistance 0 Examples.dropRay = 3 / 5 ∧ (thrownOff 1 0 1 (3 / 2) Examples.dropRay).dir = ⟨-7 / 25, 24 / 25, 0⟩ ∧
    ∀ w : Unit, ∃ (g : Geometry ℝ Unit) (res : TraceResult Unit ℝ Unit), sphereGM 1 = .ok g ∧
      rayTracer [⟨[mkSurf g (refractiveHomogenous 1 (3 / 2)) 1], Obj.defaultOwn, Obj.defaultNext 1⟩] w [Examples.dropRay] 7 (1 / 100) true = .ok res ∧
      (((res.tree[1]?).getD []).map Ray.strip).Perm
        [(thrownOff 1 0 1 (3 / 2) Examples.dropRay).strip, (entering 1 0 1 (3 / 2) Examples.dropRay).strip] := by
  refine ⟨?_, ?_, ?_⟩
  · unfold missDistance; rw [Examples.dropRay_miss, Real.sqrt_sq (by norm_num)]
  · unfold thrownOff
    simp only [Examples.dropRay_way, Examples.dropRay_half]
    unfold withMoment moment Ray.at V3.cross
    apply V3.ext <;>
      simp only [V3.add_x, V3.add_y, V3.add_z, V3.sub_x, V3.sub_y, V3.sub_z, V3.smul_x, V3.smul_y, V3.smul_z, V3.zero_x, V3.zero_y, V3.zero_z,
        Examples.dropRay] <;> norm_num
  · intro w
    obtain ⟨g, hg⟩ := (C34_constructor (E := Unit) 1).1 one_pos
    obtain ⟨res, e1, e2, _⟩ := C92_drop (frame := 1) (n1 := 1) (n2 := 3 / 2) (na := 1) (nb := 3 / 2) hg Tf.Rigid.one one_pos (by norm_num) (by norm_num)
      (Or.inl ⟨rfl, rfl⟩) w (b := [Examples.dropRay]) (fun q hq => by rw [List.mem_singleton] at hq; subst hq; exact Examples.dropRay_falls) 7 (1 / 100)
    exact ⟨g, res, hg, e1, e2 (by norm_num)⟩

/-- The same light: the moment about the centre times the index is kept, it is not trapped, no energy is lost, the law of Snell gives its angles,
and the ray that leaves after `k` reflections has been turned as said. -/
example (k : Nat) :
    (3 / 2 : ℝ) • moment 0 (cavityRay 1 0 (1 - ballShare 1 0 1 (3 / 2) Examples.dropRay) (entering 1 0 1 (3 / 2) Examples.dropRay) k) =
      (1 : ℝ) • moment 0 Examples.dropRay ∧
    Bends 1 0 (3 / 2) 1 (entering 1 0 1 (3 / 2) Examples.dropRay) ∧
    (thrownOff 1 0 1 (3 / 2) Examples.dropRay).energy +
      ((List.range k).map fun k => (exitRay 1 0 1 (3 / 2) (entering 1 0 1 (3 / 2) Examples.dropRay) k).energy).sum +
      (cavityRay 1 0 (1 - ballShare 1 0 1 (3 / 2) Examples.dropRay) (entering 1 0 1 (3 / 2) Examples.dropRay) k).energy = 1 ∧
    1 * Real.sin (angleIn 1 0 Examples.dropRay) = 3 / 2 * Real.sin (angleBent 1 0 1 (3 / 2) Examples.dropRay) ∧
    (exitRay 1 0 1 (3 / 2) (entering 1 0 1 (3 / 2) Examples.dropRay) k).dir = bent 0 Examples.dropRay
      (2 * (angleIn 1 0 Examples.dropRay - angleBent 1 0 1 (3 / 2) Examples.dropRay) +
        k * (Real.pi - 2 * angleBent 1 0 1 (3 / 2) Examples.dropRay)) :=
  ⟨(C92_moment one_pos one_pos (by norm_num) Examples.dropRay_falls k).2.2.1,
    C92_not_trapped one_pos one_pos (by norm_num) Examples.dropRay_falls,
    C92_energy one_pos one_pos (by norm_num) Examples.dropRay_falls k,
    C92_snell Examples.dropRay_falls one_pos one_pos (by norm_num),
    (C92_deviation Examples.dropRay_falls one_pos one_pos (by norm_num) k).2.1⟩

/-- Light that is trapped in such a ball. -/
noncomputable def Examples.trappedRay : Ray ℝ Unit := ⟨⟨9 / 10, 0, 0⟩, ⟨0, 1, 0⟩, 1, 0, some (3 / 2), ()⟩

theorem Examples.trappedRay_miss : missSq 0 Examples.trappedRay = 81 / 100 := by
  simp only [missSq, V3.cross, V3.dot, V3.sub_x, V3.sub_y, V3.sub_z, V3.zero_x, V3.zero_y, V3.zero_z, Examples.trappedRay]; norm_num

theorem Examples.trappedRay_in : InCavity (1 / 10 ^ 6) 1 0 Examples.trappedRay := by
  refine ⟨?_, ?_, ?_, by norm_num⟩
  · simp only [V3.IsUnit, V3.dot, Examples.trappedRay]; norm_num
  · simp only [V3.dist2, V3.dot, V3.sub_x, V3.sub_y, V3.sub_z, V3.zero_x, V3.zero_y, V3.zero_z, Examples.trappedRay]; norm_num
  · unfold wayToWall halfChord
    rw [Examples.trappedRay_miss]
    have : (1 : ℝ) / 10 ≤ √(1 ^ 2 - 81 / 100) := Real.le_sqrt_of_sq_le (by norm_num)
    simp only [V3.dot, V3.sub_x, V3.sub_y, V3.sub_z, V3.zero_x, V3.zero_y, V3.zero_z, Examples.trappedRay]
    norm_num at this ⊢
    linarith

/-- No energy leaves, however many iterations. -/
example (reps : Nat) : ∃ (g : Geometry ℝ Unit) (res : TraceResult Unit ℝ Unit), sphereGM 1 = .ok g ∧
    rayTracer [⟨[mkSurf g (refractiveHomogenous 1 (3 / 2)) 1], Obj.defaultOwn, Obj.defaultNext 1⟩] () [Examples.trappedRay] reps (1 / 100) true = .ok res ∧
    ∀ k < reps, totalEnergy ((res.tree[k + 1]?).getD []) = totalEnergy [Examples.trappedRay] := by
  obtain ⟨g, hg⟩ := (C34_constructor (E := Unit) 1).1 one_pos
  obtain ⟨res, e1, e2⟩ := C92_trapped (frame := 1) (n1 := 1) (n2 := 3 / 2) (na := 1) (nb := 3 / 2) hg Tf.Rigid.one one_pos (by norm_num) (by norm_num)
    (Or.inl ⟨rfl, rfl⟩) () (b := [Examples.trappedRay])
    (fun q hq => by rw [List.mem_singleton] at hq; subst hq; exact ⟨Examples.trappedRay_in, rfl⟩)
    (fun q hq => by
      rw [List.mem_singleton] at hq
      subst hq
      show _ ^ 2 * missSq 0 Examples.trappedRay > _
      rw [Examples.trappedRay_miss]
      norm_num) reps (minE := 1 / 100)
    (fun q hq => by rw [List.mem_singleton] at hq; subst hq; show (1 / 100 : ℝ) < 1; norm_num)
  exact ⟨g, res, hg, e1, fun k hk => (e2 k hk).2⟩

open Classical in
/-- Light from the middle of the radius of the same ball, which leaves it in parts. -/
example : ∃ (g : Geometry ℝ Unit) (res : TraceResult Unit ℝ Unit), sphereGM 1 = .ok g ∧
    rayTracer [⟨[mkSurf g (refractiveHomogenous 1 (3 / 2)) 1], Obj.defaultOwn, Obj.defaultNext 1⟩] ()
      [{ Examples.triangleRay with ref := some (3 / 2) }] 7 (1 / 100) true = .ok res ∧
    Bends 1 0 (3 / 2) 1 { Examples.triangleRay with ref := some (3 / 2) } ∧
    (((res.tree[1]?).getD []).map Ray.strip).Perm
      [(cavityRay 1 0 (1 - ballShare 1 0 (3 / 2) 1 { Examples.triangleRay with ref := some (3 / 2) }) { Examples.triangleRay with ref := some (3 / 2) } 1).strip,
       (exitRay 1 0 1 (3 / 2) { Examples.triangleRay with ref := some (3 / 2) } 0).strip] := by
  obtain ⟨g, hg⟩ := (C34_constructor (E := Unit) 1).1 one_pos
  obtain ⟨res, e1, e2⟩ := C92_inside (frame := 1) (n1 := 1) (n2 := 3 / 2) (na := 1) (nb := 3 / 2) hg Tf.Rigid.one one_pos (by norm_num) (by norm_num)
    (Or.inl ⟨rfl, rfl⟩) () (b := [{ Examples.triangleRay with ref := some (3 / 2) }])
    (fun q hq => by
      rw [List.mem_singleton] at hq
      subst hq
      obtain ⟨h1, h2, h3, h4⟩ := Examples.triangleRay_in
      exact ⟨⟨h1, h2, h3, h4⟩, rfl⟩) 7 (1 / 100)
  have hb : Bends 1 0 (3 / 2) 1 { Examples.triangleRay with ref := some (3 / 2) } := by
    unfold Bends
    simp only [missSq, V3.cross, V3.dot, V3.sub_x, V3.sub_y, V3.sub_z, V3.zero_x, V3.zero_y, V3.zero_z, Examples.triangleRay]
    norm_num
  refine ⟨g, res, hg, e1, hb, ?_⟩
  have h := e2 0 (by norm_num)
  have hf : ∀ q : Ray ℝ Unit, stillTraced (1 - ballShare 1 (Tf.loc (1 : Tf ℝ)) (3 / 2) 1 q) (1 / 100) 0 q = true := fun q => rfl
  rw [List.filter_eq_self.2 (fun q _ => hf q), List.flatMap_cons, List.flatMap_nil, List.append_nil] at h
  have e : (if Bends 1 (Tf.loc (1 : Tf ℝ)) (3 / 2) 1 { Examples.triangleRay with ref := some (3 / 2) } then
      [(exitRay 1 (Tf.loc (1 : Tf ℝ)) 1 (3 / 2) { Examples.triangleRay with ref := some (3 / 2) } 0).strip] else []) =
      [(exitRay 1 (Tf.loc (1 : Tf ℝ)) 1 (3 / 2) { Examples.triangleRay with ref := some (3 / 2) } 0).strip] := if_pos hb
  rw [e] at h
  exact h

end Tracer
