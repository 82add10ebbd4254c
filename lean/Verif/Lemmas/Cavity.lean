import Verif.Lemmas.OneSurface

/-! Chords of a sphere, and the surface of a hollow sphere as the engine sees it. -/

namespace Tracer

open Real

variable {E σ : Type _}

section
variable {δ R : ℝ} {c : V3 ℝ} {r : Ray ℝ E}

theorem missSq_eq (hu : r.dir.IsUnit) : missSq c r = V3.dist2 r.vertex c - V3.dot (r.vertex - c) r.dir ^ 2 := by
  have h : V3.dot r.dir r.dir = 1 := hu
  have e : missSq c r = V3.dist2 r.vertex c * V3.dot r.dir r.dir - V3.dot (r.vertex - c) r.dir ^ 2 := by
    unfold missSq V3.dist2 V3.dot V3.cross; ring
  rw [e, h, mul_one]

theorem missSq_nonneg : 0 ≤ missSq c r := by
  unfold missSq V3.dot
  nlinarith [sq_nonneg (V3.cross (r.vertex - c) r.dir).x, sq_nonneg (V3.cross (r.vertex - c) r.dir).y,
    sq_nonneg (V3.cross (r.vertex - c) r.dir).z]

theorem missDistance_sq : missDistance c r ^ 2 = missSq c r := Real.sq_sqrt missSq_nonneg

/-- The facts about the first chord. -/
structure Chord (R s h : ℝ) (q u d : V3 ℝ) : Prop where
  spos : 0 < s
  hnn : 0 ≤ h
  sum : s ^ 2 + h ^ 2 = R ^ 2
  unit : V3.dot d d = 1
  len : V3.dot q q = R ^ 2
  along : V3.dot q d = s
  hu : h • u = R ^ 2 • d - s • q
  perp : V3.dot q u = 0
  ulen : h ≠ 0 → V3.dot u u = R ^ 2

theorem InCavity.sq_le (hin : InCavity δ R c r) : missSq c r ≤ R ^ 2 := by
  rw [missSq_eq hin.unit]
  nlinarith [hin.inside, sq_nonneg (V3.dot (r.vertex - c) r.dir)]

theorem halfChord_sq (hin : InCavity δ R c r) : halfChord R c r ^ 2 = R ^ 2 - missSq c r :=
  Real.sq_sqrt (by linarith [hin.sq_le])

theorem InCavity.abs_le (hin : InCavity δ R c r) : |V3.dot (r.vertex - c) r.dir| ≤ halfChord R c r := by
  apply Real.abs_le_sqrt
  rw [missSq_eq hin.unit]
  linarith [hin.inside]

theorem InCavity.half_far (hin : InCavity δ R c r) : δ < 2 * halfChord R c r := by
  have h1 := hin.far
  unfold wayToWall at h1
  have := (_root_.abs_le.1 hin.abs_le).1
  linarith

theorem vec_zero {v : V3 ℝ} (h : V3.dot v v = 0) : v = 0 := by
  unfold V3.dot at h
  apply V3.ext
  · show v.x = 0; nlinarith [sq_nonneg v.x, sq_nonneg v.y, sq_nonneg v.z]
  · show v.y = 0; nlinarith [sq_nonneg v.x, sq_nonneg v.y, sq_nonneg v.z]
  · show v.z = 0; nlinarith [sq_nonneg v.x, sq_nonneg v.y, sq_nonneg v.z]

theorem InCavity.chord (hin : InCavity δ R c r) :
    Chord R (halfChord R c r) (missDistance c r) (wallPoint R c r) (sideways R c r) r.dir := by
  have hs2 := halfChord_sq hin
  have hh2 : missDistance c r ^ 2 = missSq c r := missDistance_sq
  have hm := missSq_eq (c := c) hin.unit
  have hunit : V3.dot r.dir r.dir = 1 := hin.unit
  have hspos : 0 < halfChord R c r := by linarith [hin.half_far, hin.nonneg]
  have hlen : V3.dot (wallPoint R c r) (wallPoint R c r) = R ^ 2 := by
    have e : V3.dot (wallPoint R c r) (wallPoint R c r) = V3.dist2 r.vertex c + 2 * wayToWall R c r * V3.dot (r.vertex - c) r.dir +
        wayToWall R c r ^ 2 * V3.dot r.dir r.dir := by
      unfold wallPoint Ray.at V3.dist2 V3.dot
      simp only [V3.sub_x, V3.sub_y, V3.sub_z, V3.add_x, V3.add_y, V3.add_z, V3.smul_x, V3.smul_y, V3.smul_z]
      ring
    rw [e, hunit]
    unfold wayToWall
    linear_combination hs2 - hm
  have halong : V3.dot (wallPoint R c r) r.dir = halfChord R c r := by
    have e : V3.dot (wallPoint R c r) r.dir = V3.dot (r.vertex - c) r.dir + wayToWall R c r * V3.dot r.dir r.dir := by
      unfold wallPoint Ray.at V3.dot
      simp only [V3.sub_x, V3.sub_y, V3.sub_z, V3.add_x, V3.add_y, V3.add_z, V3.smul_x, V3.smul_y, V3.smul_z]
      ring
    rw [e, hunit]
    unfold wayToWall
    ring
  have hsum : halfChord R c r ^ 2 + missDistance c r ^ 2 = R ^ 2 := by rw [hs2, hh2]; ring
  have hside : sideways R c r = (1 / missDistance c r) • (R ^ 2 • r.dir - halfChord R c r • wallPoint R c r) := rfl
  have hnn : 0 ≤ missDistance c r := Real.sqrt_nonneg _
  generalize sideways R c r = u at *
  generalize wallPoint R c r = q at *
  generalize halfChord R c r = s at *
  generalize missDistance c r = h at *
  generalize r.dir = d at *
  have hvv : V3.dot (R ^ 2 • d - s • q) (R ^ 2 • d - s • q) = R ^ 2 * h ^ 2 := by
    have e : V3.dot (R ^ 2 • d - s • q) (R ^ 2 • d - s • q) = R ^ 4 * V3.dot d d - 2 * R ^ 2 * s * V3.dot q d + s ^ 2 * V3.dot q q := by
      unfold V3.dot
      simp only [V3.sub_x, V3.sub_y, V3.sub_z, V3.smul_x, V3.smul_y, V3.smul_z]
      ring
    rw [e, hunit, halong, hlen]
    linear_combination (-R ^ 2) * hsum
  refine ⟨hspos, hnn, hsum, hunit, hlen, halong, ?_, ?_, ?_⟩
  · rw [hside]
    by_cases h0 : h = 0
    · have := vec_zero (by rw [hvv, h0]; ring : V3.dot (R ^ 2 • d - s • q) (R ^ 2 • d - s • q) = 0)
      rw [this, h0]
      apply V3.ext <;> simp
    · apply V3.ext <;> simp only [V3.smul_x, V3.smul_y, V3.smul_z] <;> field_simp
  · have e : V3.dot q u = 1 / h * (R ^ 2 * V3.dot q d - s * V3.dot q q) := by
      rw [hside]; unfold V3.dot
      simp only [V3.sub_x, V3.sub_y, V3.sub_z, V3.smul_x, V3.smul_y, V3.smul_z]
      ring
    rw [e, halong, hlen]; ring
  · intro h0
    have e : V3.dot u u = (1 / h) ^ 2 * V3.dot (R ^ 2 • d - s • q) (R ^ 2 • d - s • q) := by
      rw [hside]; unfold V3.dot
      simp only [V3.sub_x, V3.sub_y, V3.sub_z, V3.smul_x, V3.smul_y, V3.smul_z]
      ring
    rw [e, hvv]
    field_simp

/-- The ray is on the sphere at the two ends of its chord. -/
theorem InCavity.on_wall (hin : InCavity δ R c r) (t : ℝ) :
    V3.dist2 (r.vertex + t • r.dir) c = R ^ 2 ↔ (t - wayToWall R c r) * (t + halfChord R c r + V3.dot (r.vertex - c) r.dir) = 0 := by
  have hunit : V3.dot r.dir r.dir = 1 := hin.unit
  have hs2 := halfChord_sq hin
  have hm := missSq_eq (c := c) hin.unit
  have hway : wayToWall R c r = halfChord R c r - V3.dot (r.vertex - c) r.dir := rfl
  have hdist : V3.dist2 (r.vertex + t • r.dir) c = V3.dist2 r.vertex c + 2 * t * V3.dot (r.vertex - c) r.dir + t ^ 2 := by
    have e : V3.dist2 (r.vertex + t • r.dir) c = V3.dist2 r.vertex c + 2 * t * V3.dot (r.vertex - c) r.dir +
        t ^ 2 * V3.dot r.dir r.dir := by
      unfold V3.dist2 V3.dot
      simp only [V3.sub_x, V3.sub_y, V3.sub_z, V3.add_x, V3.add_y, V3.add_z, V3.smul_x, V3.smul_y, V3.smul_z]
      ring
    rw [e, hunit, mul_one]
  rw [hdist, hway]
  constructor
  · intro h; linear_combination h - hs2 + hm
  · intro h; linear_combination h + hs2 - hm

/-- A point of the ray on the sphere, ahead of it, is the far end of the chord. -/
theorem InCavity.ahead (hin : InCavity δ R c r) {t : ℝ} (ht : 0 < t) (h : V3.dist2 (r.vertex + t • r.dir) c = R ^ 2) :
    t = wayToWall R c r := by
  rcases mul_eq_zero.1 ((hin.on_wall t).1 h) with h | h
  · exact sub_eq_zero.1 h
  · have := (_root_.abs_le.1 hin.abs_le).1
    linarith

/-- The angle over a chord. -/
theorem Chord.angle {s h : ℝ} {q u d : V3 ℝ} (hc : Chord R s h q u d) (hR : 0 < R) :
    cos (2 * arcsin (s / R)) = 1 - 2 * s ^ 2 / R ^ 2 ∧ sin (2 * arcsin (s / R)) = 2 * s * h / R ^ 2 ∧
      (h = 0 → ∀ k : ℕ, sin (k * (2 * arcsin (s / R))) = 0) := by
  have hs := hc.spos
  have hle : s ≤ R := by
    have := hc.sum
    nlinarith [sq_nonneg h]
  have h1 : -1 ≤ s / R := by have : 0 ≤ s / R := by positivity
                             linarith
  have h2 : s / R ≤ 1 := (div_le_one hR).2 hle
  have hsin := sin_arcsin h1 h2
  have hcos : cos (arcsin (s / R)) = h / R := by
    rw [cos_arcsin]
    have : 1 - (s / R) ^ 2 = (h / R) ^ 2 := by
      have := hc.sum
      field_simp
      linarith
    rw [this, Real.sqrt_sq (div_nonneg hc.hnn hR.le)]
  refine ⟨?_, ?_, ?_⟩
  · rw [cos_two_mul, hcos]
    have := hc.sum
    field_simp
    linarith
  · rw [sin_two_mul, hsin, hcos]
    field_simp
  · intro h0 k
    have : s = R := by
      have := hc.sum
      rw [h0] at this
      nlinarith
    rw [this, div_self hR.ne', arcsin_one, show 2 * (π / 2) = π by ring]
    exact sin_nat_mul_pi k

/-- All the places of reflection are on the sphere, and the chords between them are equally long. -/
theorem Chord.points {s h : ℝ} {q u d : V3 ℝ} (hc : Chord R s h q u d) (hR : 0 < R) (P : Nat → V3 ℝ)
    (hP : ∀ k : Nat, P k = cos (k * (2 * arcsin (s / R))) • q + sin (k * (2 * arcsin (s / R))) • u) (k : Nat) :
    P 0 = q ∧ V3.dot (P k) (P k) = R ^ 2 ∧ V3.dot (P k) (P (k + 1)) = R ^ 2 - 2 * s ^ 2 ∧
      P (k + 2) = (2 - 4 * s ^ 2 / R ^ 2) • P (k + 1) - P k ∧ (1 / (2 * s)) • (P 1 - P 0) = d - (2 * s / R ^ 2) • q := by
  obtain ⟨h1, h2, h3⟩ := hc.angle hR
  have hs := hc.spos
  generalize 2 * arcsin (s / R) = φ at *
  have hS : ∀ k : Nat, sin (k * φ) * V3.dot u u = sin (k * φ) * R ^ 2 := by
    intro k
    by_cases h0 : h = 0
    · rw [h3 h0 k]; ring
    · rw [hc.ulen h0]
  have hdot : ∀ j k : Nat, V3.dot (P j) (P k) = R ^ 2 * (cos (j * φ) * cos (k * φ) + sin (j * φ) * sin (k * φ)) := by
    intro j k
    have e : V3.dot (P j) (P k) = cos (j * φ) * cos (k * φ) * V3.dot q q + (cos (j * φ) * sin (k * φ) + sin (j * φ) * cos (k * φ)) * V3.dot q u +
        sin (j * φ) * (sin (k * φ) * V3.dot u u) := by
      rw [hP, hP]
      unfold V3.dot
      simp only [V3.add_x, V3.add_y, V3.add_z, V3.smul_x, V3.smul_y, V3.smul_z]
      ring
    rw [e, hc.len, hc.perp, hS k]
    ring
  have hR2 : R ^ 2 ≠ 0 := by positivity
  refine ⟨?_, ?_, ?_, ?_, ?_⟩
  · rw [hP]
    apply V3.ext <;> simp
  · rw [hdot]
    have := sin_sq_add_cos_sq (k * φ)
    linear_combination R ^ 2 * this
  · rw [hdot]
    have : cos (((k + 1 : ℕ) : ℝ) * φ - k * φ) = cos φ := by congr 1; push_cast; ring
    rw [cos_sub] at this
    have e : cos (k * φ) * cos (((k + 1 : ℕ) : ℝ) * φ) + sin (k * φ) * sin (((k + 1 : ℕ) : ℝ) * φ) = cos φ := by rw [← this]; ring
    rw [e, h1]
    field_simp
  · have ec : cos (((k + 2 : ℕ) : ℝ) * φ) = (2 - 4 * s ^ 2 / R ^ 2) * cos (((k + 1 : ℕ) : ℝ) * φ) - cos (k * φ) := by
      have e1 : ((k + 2 : ℕ) : ℝ) * φ = ((k + 1 : ℕ) : ℝ) * φ + φ := by push_cast; ring
      have e2 : (k : ℝ) * φ = ((k + 1 : ℕ) : ℝ) * φ - φ := by push_cast; ring
      rw [e1, e2, cos_add, cos_sub]
      linear_combination (2 * cos (((k + 1 : ℕ) : ℝ) * φ)) * h1
    have es : sin (((k + 2 : ℕ) : ℝ) * φ) = (2 - 4 * s ^ 2 / R ^ 2) * sin (((k + 1 : ℕ) : ℝ) * φ) - sin (k * φ) := by
      have e1 : ((k + 2 : ℕ) : ℝ) * φ = ((k + 1 : ℕ) : ℝ) * φ + φ := by push_cast; ring
      have e2 : (k : ℝ) * φ = ((k + 1 : ℕ) : ℝ) * φ - φ := by push_cast; ring
      rw [e1, e2, sin_add, sin_sub]
      linear_combination (2 * sin (((k + 1 : ℕ) : ℝ) * φ)) * h1
    rw [hP (k + 2), hP (k + 1), hP k, ec, es]
    apply V3.ext <;> simp only [V3.add_x, V3.add_y, V3.add_z, V3.sub_x, V3.sub_y, V3.sub_z, V3.smul_x, V3.smul_y, V3.smul_z] <;> ring
  · have hu := hc.hu
    have key : ∀ x y z : ℝ, h * y = R ^ 2 * z - s * x →
        1 / (2 * s) * (cos φ * x + sin φ * y - x) = z - 2 * s / R ^ 2 * x := by
      intro x y z e
      rw [h1, h2]
      have : 2 * s * h / R ^ 2 * y = 2 * s / R ^ 2 * (R ^ 2 * z - s * x) := by rw [← e]; ring
      rw [this]
      field_simp
      ring
    have hx : h * u.x = R ^ 2 * d.x - s * q.x := congrArg V3.x hu
    have hy : h * u.y = R ^ 2 * d.y - s * q.y := congrArg V3.y hu
    have hz : h * u.z = R ^ 2 * d.z - s * q.z := congrArg V3.z hu
    rw [hP 1, hP 0]
    apply V3.ext
    all_goals
      simp only [V3.add_x, V3.add_y, V3.add_z, V3.sub_x, V3.sub_y, V3.sub_z, V3.smul_x, V3.smul_y, V3.smul_z, Nat.cast_one, one_mul,
        Nat.cast_zero, zero_mul, cos_zero, sin_zero, add_zero]
    · exact key _ _ _ hx
    · exact key _ _ _ hy
    · exact key _ _ _ hz

/-- The rays of the cavity stay in it. -/
theorem cavityRay_inside (hin : InCavity δ R c r) (hR : 0 < R) (a : ℝ) (k : Nat) :
    InCavity δ R c (cavityRay R c a r k) ∧ c + wallPoint R c (cavityRay R c a r k) = c + bouncePoint R c r k ∧
      halfChord R c (cavityRay R c a r k) = halfChord R c r ∧
      wayToWall R c (cavityRay R c a r k) = if k = 0 then wayToWall R c r else 2 * halfChord R c r := by
  have hc := hin.chord
  have hfar := hin.half_far
  cases k with
  | zero =>
    refine ⟨hin, ?_, rfl, by simp [cavityRay]⟩
    rw [(hc.points hR (bouncePoint R c r) (fun _ => rfl) 0).1]
    rfl
  | succ k =>
    obtain ⟨p0, p1, p2, _, _⟩ := hc.points hR (bouncePoint R c r) (fun _ => rfl) k
    obtain ⟨_, q1, _, _, _⟩ := hc.points hR (bouncePoint R c r) (fun _ => rfl) (k + 1)
    have hs := hc.spos
    have hu : V3.dot (cavityRay R c a r (k + 1)).dir (cavityRay R c a r (k + 1)).dir = 1 := by
      show V3.dot ((1 / (2 * halfChord R c r)) • (bouncePoint R c r (k + 1) - bouncePoint R c r k))
        ((1 / (2 * halfChord R c r)) • (bouncePoint R c r (k + 1) - bouncePoint R c r k)) = 1
      generalize bouncePoint R c r (k + 1) = B at *
      generalize bouncePoint R c r k = A at *
      generalize halfChord R c r = s at *
      have e : V3.dot ((1 / (2 * s)) • (B - A)) ((1 / (2 * s)) • (B - A)) = (1 / (2 * s)) ^ 2 * (V3.dot B B - 2 * V3.dot A B + V3.dot A A) := by
        unfold V3.dot
        simp only [V3.sub_x, V3.sub_y, V3.sub_z, V3.smul_x, V3.smul_y, V3.smul_z]
        ring
      rw [e, p1, p2, q1]
      field_simp
      ring
    have hv : (cavityRay R c a r (k + 1)).vertex - c = bouncePoint R c r k := by
      show c + bouncePoint R c r k - c = _
      apply V3.ext <;> simp
    have hd2 : V3.dist2 (cavityRay R c a r (k + 1)).vertex c = R ^ 2 := by
      unfold V3.dist2
      rw [hv, p1]
    have hdot : V3.dot ((cavityRay R c a r (k + 1)).vertex - c) (cavityRay R c a r (k + 1)).dir = -halfChord R c r := by
      rw [hv]
      show V3.dot (bouncePoint R c r k) ((1 / (2 * halfChord R c r)) • (bouncePoint R c r (k + 1) - bouncePoint R c r k)) = _
      generalize bouncePoint R c r (k + 1) = B at *
      generalize bouncePoint R c r k = A at *
      generalize halfChord R c r = s at *
      have e : V3.dot A ((1 / (2 * s)) • (B - A)) = (1 / (2 * s)) * (V3.dot A B - V3.dot A A) := by
        unfold V3.dot
        simp only [V3.sub_x, V3.sub_y, V3.sub_z, V3.smul_x, V3.smul_y, V3.smul_z]
        ring
      rw [e, p1, p2]
      field_simp
      ring
    have hhalf : halfChord R c (cavityRay R c a r (k + 1)) = halfChord R c r := by
      have : R ^ 2 - missSq c (cavityRay R c a r (k + 1)) = halfChord R c r ^ 2 := by
        rw [missSq_eq hu, hd2, hdot]; ring
      conv_lhs => unfold halfChord
      rw [this, Real.sqrt_sq hs.le]
    have hway : wayToWall R c (cavityRay R c a r (k + 1)) = 2 * halfChord R c r := by
      unfold wayToWall
      rw [hhalf, hdot]; ring
    refine ⟨⟨hu, hd2.le, by rw [hway]; exact hfar, hin.nonneg⟩, ?_, hhalf, by rw [hway, if_neg (Nat.succ_ne_zero k)]⟩
    unfold wallPoint Ray.at
    rw [hway]
    show c + (c + bouncePoint R c r k + (2 * halfChord R c r) • ((1 / (2 * halfChord R c r)) • (bouncePoint R c r (k + 1) - bouncePoint R c r k)) - c) = _
    apply V3.ext <;> simp only [V3.add_x, V3.add_y, V3.add_z, V3.sub_x, V3.sub_y, V3.sub_z, V3.smul_x, V3.smul_y, V3.smul_z] <;> field_simp <;> ring

/-- How one chord follows from the other. -/
theorem cavityRay_turn (hin : InCavity δ R c r) (hR : 0 < R) (a : ℝ) (k : Nat) :
    wallPoint R c (cavityRay R c a r k) = bouncePoint R c r k ∧
    (cavityRay R c a r k).dir - (2 * halfChord R c r / R ^ 2) • bouncePoint R c r k = (cavityRay R c a r (k + 1)).dir := by
  obtain ⟨hk, hwall, hhalf, _⟩ := cavityRay_inside hin hR a k
  have hc := hin.chord
  have hs := hc.spos
  obtain ⟨p0, _, _, _, p4⟩ := hc.points hR (bouncePoint R c r) (fun _ => rfl) k
  constructor
  · have hx := congrArg V3.x hwall
    have hy := congrArg V3.y hwall
    have hz := congrArg V3.z hwall
    simp only [V3.add_x, V3.add_y, V3.add_z] at hx hy hz
    apply V3.ext <;> linarith
  · cases k with
    | zero =>
      unfold cavityRay
      simp only [zero_add]
      rw [p4, p0]
    | succ k =>
      obtain ⟨_, _, _, p3, _⟩ := hc.points hR (bouncePoint R c r) (fun _ => rfl) k
      show (1 / (2 * halfChord R c r)) • (bouncePoint R c r (k + 1) - bouncePoint R c r k) -
        (2 * halfChord R c r / R ^ 2) • bouncePoint R c r (k + 1) =
        (1 / (2 * halfChord R c r)) • (bouncePoint R c r (k + 1 + 1) - bouncePoint R c r (k + 1))
      rw [p3]
      apply V3.ext <;> simp only [V3.sub_x, V3.sub_y, V3.sub_z, V3.smul_x, V3.smul_y, V3.smul_z] <;> field_simp <;> ring

end

section
variable {δ R : ℝ} {g : Geometry ℝ E} {frame : Tf ℝ} {opt : Optics σ ℝ E} {r : Ray ℝ E}

theorem sphere_normal (hg : sphereGM R = .ok g) : g.normal = sphereNormal ∧ 0 < R := by
  unfold sphereGM setRadius at hg
  split at hg
  · simp at hg
  · rename_i R' hR'
    split at hR'
    · simp at hR'
    · rename_i h
      cases hR'
      cases hg
      exact ⟨rfl, not_le.1 h⟩

/-- A ray inside the sphere meets it after the way to the wall. -/
theorem sphere_single (hg : sphereGM R = .ok g) (hf : frame.Rigid) (hin : InCavity δ R frame.loc r) :
    (mkSurf g opt frame : Surf σ ℝ E).single r = ((wayToWall R frame.loc r : ℝ) : WithTop ℝ) := by
  obtain ⟨p, hp, hfirst⟩ := C34_sphere hf hg [r] 0 r rfl hin.unit
  rw [single_of_find hp]
  have hpos : 0 < wayToWall R frame.loc r := lt_of_le_of_lt hin.nonneg hin.far
  cases p with
  | top => exact absurd ((sphere_placed hf R _).2 ((hin.on_wall _).2 (by ring))) (hfirst _ hpos)
  | coe t =>
    obtain ⟨h1, h2, _⟩ := hfirst
    rw [hin.ahead h1 ((sphere_placed hf R _).1 h2)]

/-- How it is reflected there. -/
theorem sphere_reflect (hg : sphereGM R = .ok g) (hin : InCavity δ R frame.loc r) (a : ℝ) :
    reflectOne a ⟨0, r, r.at (wayToWall R frame.loc r), g.normal frame (r.at (wayToWall R frame.loc r)) r.dir⟩ =
      { r with
        vertex := frame.loc + wallPoint R frame.loc r
        dir := r.dir - (2 * halfChord R frame.loc r / R ^ 2) • wallPoint R frame.loc r
        energy := r.energy * (1 - a)
        parent := 0 } := by
  obtain ⟨hn, hR⟩ := sphere_normal hg
  have hc := hin.chord
  have hv : frame.loc + wallPoint R frame.loc r = r.at (wayToWall R frame.loc r) := by
    unfold wallPoint; apply V3.ext <;> simp
  unfold reflectOne
  simp only [hv, hn]
  congr 1
  have hq : r.at (wayToWall R frame.loc r) - frame.loc = wallPoint R frame.loc r := rfl
  have hlen := hc.len
  have halong := hc.along
  generalize r.at (wayToWall R frame.loc r) = p at *
  rw [← hq] at hlen halong ⊢
  generalize halfChord R frame.loc r = s at *
  have key : ∀ n : V3 ℝ, n = p - frame.loc ∨ n = -(p - frame.loc) →
      reflection r.dir ((1 / √(n.x ^ 2 + n.y ^ 2 + n.z ^ 2)) • n) = r.dir - (2 * s / R ^ 2) • (p - frame.loc) := by
    intro n hn
    have hnn : √(n.x ^ 2 + n.y ^ 2 + n.z ^ 2) = R := by
      have : n.x ^ 2 + n.y ^ 2 + n.z ^ 2 = R ^ 2 := by
        rw [← hlen]
        rcases hn with rfl | rfl <;> unfold V3.dot <;> simp only [V3.neg_x, V3.neg_y, V3.neg_z, V3.sub_x, V3.sub_y, V3.sub_z] <;> ring
      rw [this, Real.sqrt_sq hR.le]
    rw [hnn, ← halong]
    unfold reflection
    rcases hn with rfl | rfl <;> unfold V3.dot <;> apply V3.ext <;>
      simp only [V3.neg_x, V3.neg_y, V3.neg_z, V3.sub_x, V3.sub_y, V3.sub_z, V3.smul_x, V3.smul_y, V3.smul_z] <;> field_simp <;> ring
  unfold sphereNormal
  simp only [neg_one_smul]
  split
  · exact key _ (Or.inr rfl)
  · exact key _ (Or.inl rfl)

/-- A ray of the cavity becomes the next. -/
theorem cavityRay_next (hg : sphereGM R = .ok g) (hin : InCavity δ R frame.loc r) (a : ℝ) (k : Nat) :
    reflectOne a ⟨0, cavityRay R frame.loc a r k, (cavityRay R frame.loc a r k).at (wayToWall R frame.loc (cavityRay R frame.loc a r k)),
      g.normal frame ((cavityRay R frame.loc a r k).at (wayToWall R frame.loc (cavityRay R frame.loc a r k))) (cavityRay R frame.loc a r k).dir⟩ =
      cavityRay R frame.loc a r (k + 1) := by
  obtain ⟨_, hR⟩ := sphere_normal hg
  obtain ⟨hk, hwall, hhalf, _⟩ := cavityRay_inside hin hR a k
  obtain ⟨h1, h2⟩ := cavityRay_turn hin hR a k
  rw [sphere_reflect hg hk, hhalf, h1, h2]
  cases k with
  | zero =>
    unfold cavityRay
    simp only [zero_add, pow_one]
  | succ k =>
    have e : (cavityRay R frame.loc a r (k + 1)).energy * (1 - a) = (cavityRay R frame.loc a r (k + 1 + 1)).energy := by
      show r.energy * (1 - a) ^ (k + 1) * (1 - a) = r.energy * (1 - a) ^ (k + 1 + 1)
      ring
    rw [e]
    rfl

end

end Tracer
