import Verif.Lemmas.Cavity
import Verif.Lemmas.Fans
import Verif.Spec.Drop

/-! A ball of glass as the engine sees it. -/

namespace Tracer

open Real

variable {E σ : Type _}

section
variable {R : ℝ} {q L d : V3 ℝ} {κ h : ℝ}

theorem cross_dot_self (a b : V3 ℝ) : V3.dot (V3.cross a b) a = 0 ∧ V3.dot (V3.cross a b) b = 0 := by
  unfold V3.dot V3.cross; constructor <;> ring

theorem cross_lagrange (q d : V3 ℝ) : V3.dot (V3.cross q d) (V3.cross q d) = V3.dot q q * V3.dot d d - V3.dot q d ^ 2 := by
  unfold V3.dot V3.cross; ring

/-- What `withMoment` says of itself. -/
theorem withMoment_facts (hR : 0 < R) (hq : V3.dot q q = R ^ 2) (hL : V3.dot L q = 0) (h : ℝ) :
    V3.dot q (withMoment R q L h) = h ∧ V3.cross q (withMoment R q L h) = L ∧
      V3.dot (withMoment R q L h) (withMoment R q L h) = (V3.dot L L + h ^ 2) / R ^ 2 := by
  have hR2 : R ^ 2 ≠ 0 := by positivity
  refine ⟨?_, ?_, ?_⟩
  · have : V3.dot q (withMoment R q L h) = 1 / R ^ 2 * (h * V3.dot q q) := by
      unfold withMoment V3.dot V3.cross
      simp only [V3.add_x, V3.add_y, V3.add_z, V3.smul_x, V3.smul_y, V3.smul_z]
      ring
    rw [this, hq]; field_simp
  · have : V3.cross q (withMoment R q L h) = (1 / R ^ 2) • (V3.dot q q • L - V3.dot L q • q) := by
      unfold withMoment V3.dot V3.cross
      apply V3.ext <;> simp only [V3.add_x, V3.add_y, V3.add_z, V3.sub_x, V3.sub_y, V3.sub_z, V3.smul_x, V3.smul_y, V3.smul_z] <;> ring
    rw [this, hq, hL]
    apply V3.ext <;> simp only [V3.sub_x, V3.sub_y, V3.sub_z, V3.smul_x, V3.smul_y, V3.smul_z] <;> field_simp <;> ring
  · have : V3.dot (withMoment R q L h) (withMoment R q L h) = (1 / R ^ 2) ^ 2 * (V3.dot L L * V3.dot q q - V3.dot L q ^ 2 + h ^ 2 * V3.dot q q) := by
      unfold withMoment V3.dot V3.cross
      simp only [V3.add_x, V3.add_y, V3.add_z, V3.smul_x, V3.smul_y, V3.smul_z]
      ring
    rw [this, hq, hL]; field_simp; ring

/-- A direction is given by its moment and its part along the radius. -/
theorem withMoment_of (hR : 0 < R) (hq : V3.dot q q = R ^ 2) (d : V3 ℝ) : withMoment R q (V3.cross q d) (V3.dot q d) = d := by
  have hR2 : R ^ 2 ≠ 0 := by positivity
  have : withMoment R q (V3.cross q d) (V3.dot q d) = (1 / R ^ 2 * V3.dot q q) • d := by
    unfold withMoment V3.dot V3.cross
    apply V3.ext <;> simp only [V3.add_x, V3.add_y, V3.add_z, V3.smul_x, V3.smul_y, V3.smul_z] <;> ring
  rw [this, hq]
  apply V3.ext <;> simp only [V3.smul_x, V3.smul_y, V3.smul_z] <;> field_simp

/-- The moment is the same everywhere on the line. -/
theorem moment_at (c : V3 ℝ) (r : Ray ℝ E) (t : ℝ) : V3.cross (r.at t - c) r.dir = moment c r := by
  unfold moment Ray.at V3.cross
  apply V3.ext <;> simp only [V3.add_x, V3.add_y, V3.add_z, V3.sub_x, V3.sub_y, V3.sub_z, V3.smul_x, V3.smul_y, V3.smul_z] <;> ring

variable {m : V3 ℝ}

theorem radial_unit (hR : 0 < R) (hq : V3.dot q q = R ^ 2) (hm : m = (1 / R) • q ∨ m = -((1 / R) • q)) : m.IsUnit := by
  refine normal_unit (m := (1 / R) • q) ?_ hm
  have : V3.dot ((1 / R) • q) ((1 / R) • q) = (1 / R) ^ 2 * V3.dot q q := by
    unfold V3.dot; simp only [V3.smul_x, V3.smul_y, V3.smul_z]; ring
  show V3.dot _ _ = 1
  rw [this, hq]; field_simp

theorem radial_dot (d : V3 ℝ) : V3.dot ((1 / R) • q) d = V3.dot q d / R := by
  unfold V3.dot; simp only [V3.smul_x, V3.smul_y, V3.smul_z]; ring

/-- Reflection at the sphere. -/
theorem radial_reflection (hR : 0 < R) (hq : V3.dot q q = R ^ 2) (hm : m = (1 / R) • q ∨ m = -((1 / R) • q)) :
    reflection d m = withMoment R q (V3.cross q d) (-V3.dot q d) := by
  have hR2 : R ^ 2 ≠ 0 := by positivity
  have h1 : reflection d m = d - (2 * V3.dot q d / R ^ 2) • q := by
    unfold reflection
    rcases hm with rfl | rfl <;> unfold V3.dot <;> apply V3.ext <;>
      simp only [V3.neg_x, V3.neg_y, V3.neg_z, V3.sub_x, V3.sub_y, V3.sub_z, V3.smul_x, V3.smul_y, V3.smul_z] <;> field_simp <;> ring
  have h2 := withMoment_of hR hq d
  have h3 : withMoment R q (V3.cross q d) (-V3.dot q d) = withMoment R q (V3.cross q d) (V3.dot q d) - (2 * V3.dot q d / R ^ 2) • q := by
    unfold withMoment
    apply V3.ext <;> simp only [V3.add_x, V3.add_y, V3.add_z, V3.sub_x, V3.sub_y, V3.sub_z, V3.smul_x, V3.smul_y, V3.smul_z] <;> ring
  rw [h1, h3, h2]

theorem radial_refracted {na nb : ℝ} (ha : 0 < na) (hR : 0 < R) (hq : V3.dot q q = R ^ 2) (hd : d.IsUnit)
    (hm : m = (1 / R) • q ∨ m = -((1 / R) • q)) :
    refractedOne na nb d m = true ↔ na ^ 2 * V3.dot (V3.cross q d) (V3.cross q d) ≤ nb ^ 2 * R ^ 2 := by
  have hd' : V3.dot d d = 1 := hd
  rw [cross_lagrange, hq, hd']
  unfold refractedOne
  simp only [decide_eq_true_eq]
  have h1 : V3.dot m d ^ 2 = (V3.dot q d / R) ^ 2 := by
    rcases hm with rfl | rfl
    · rw [radial_dot]
    · rw [dot_neg_left, radial_dot]; ring
  rw [h1, ge_iff_le, div_pow, div_pow, sub_le_iff_le_add, ← sub_le_iff_le_add']
  have h2 : 1 - V3.dot q d ^ 2 / R ^ 2 = (R ^ 2 - V3.dot q d ^ 2) / R ^ 2 := by field_simp
  rw [h2, div_le_div_iff₀ (by positivity) (by positivity)]
  constructor <;> intro h <;> linarith

/-- Refraction at the sphere. -/
theorem radial_refraction {na nb : ℝ} (ha : 0 < na) (hb : 0 < nb) (hR : 0 < R) (hq : V3.dot q q = R ^ 2) (hd : d.IsUnit)
    (hm : m = (1 / R) • q ∨ m = -((1 / R) • q)) (hκ : V3.dot q d ≠ 0) :
    refractOne na nb d m = withMoment R q ((na / nb) • V3.cross q d)
      ((if V3.dot q d < 0 then -1 else 1) * √(R ^ 2 - (na / nb) ^ 2 * V3.dot (V3.cross q d) (V3.cross q d))) := by
  have hd' : V3.dot d d = 1 := hd
  have hR2 : R ^ 2 ≠ 0 := by positivity
  rw [cross_lagrange, hq, hd', mul_one]
  have hs : √(1 - 1 / (nb / na) ^ 2 * (1 - V3.dot m d ^ 2)) = √(R ^ 2 - (na / nb) ^ 2 * (R ^ 2 - V3.dot q d ^ 2)) / R := by
    have h1 : V3.dot m d ^ 2 = (V3.dot q d / R) ^ 2 := by
      rcases hm with rfl | rfl
      · rw [radial_dot]
      · rw [dot_neg_left, radial_dot]; ring
    have h2 : 1 - 1 / (nb / na) ^ 2 * (1 - V3.dot m d ^ 2) = (R ^ 2 - (na / nb) ^ 2 * (R ^ 2 - V3.dot q d ^ 2)) / R ^ 2 := by
      rw [h1]; field_simp
    rw [h2, Real.sqrt_div' _ (by positivity), Real.sqrt_sq hR.le]
  unfold refractOne
  simp only [hs]
  generalize √(R ^ 2 - (na / nb) ^ 2 * (R ^ 2 - V3.dot q d ^ 2)) = S
  have key : ∀ (x y : ℝ), 0 < R → R ^ 2 * x = R ^ 2 * y → x = y := fun x y _ h => mul_left_cancel₀ hR2 h
  have hw : (na / nb) • V3.cross q d = (na / nb) • V3.cross q d := rfl
  have hcr : V3.cross ((na / nb) • V3.cross q d) q = (na / nb) • (R ^ 2 • d - V3.dot q d • q) := by
    rw [← hq]
    unfold V3.cross V3.dot
    apply V3.ext <;> simp only [V3.sub_x, V3.sub_y, V3.sub_z, V3.smul_x, V3.smul_y, V3.smul_z] <;> ring
  unfold withMoment
  rw [hcr]
  have hlt : 1 / R * V3.dot q d < 0 ↔ V3.dot q d < 0 := by
    constructor
    · intro h; by_contra h'; exact absurd h (not_lt.2 (mul_nonneg (by positivity) (not_lt.1 h')))
    · intro h; exact mul_neg_of_pos_of_neg (by positivity) h
  rcases hm with rfl | rfl
  · have hc : V3.dot ((1 / R) • q) d = 1 / R * V3.dot q d := by rw [radial_dot]; ring
    rw [hc]
    simp only [hlt]
    generalize V3.dot q d = κ at *
    by_cases h : κ < 0
    · simp only [h, if_true]
      apply V3.ext <;> simp only [V3.add_x, V3.add_y, V3.add_z, V3.sub_x, V3.sub_y, V3.sub_z, V3.smul_x, V3.smul_y, V3.smul_z] <;> field_simp <;> ring
    · simp only [h, if_false]
      apply V3.ext <;> simp only [V3.add_x, V3.add_y, V3.add_z, V3.sub_x, V3.sub_y, V3.sub_z, V3.smul_x, V3.smul_y, V3.smul_z] <;> field_simp
  · have hc : V3.dot (-((1 / R) • q)) d = -(1 / R * V3.dot q d) := by rw [dot_neg_left, radial_dot]; ring
    rw [hc]
    have hlt' : -(1 / R * V3.dot q d) < 0 ↔ ¬ V3.dot q d < 0 := by
      rw [neg_lt_zero, not_lt]
      constructor
      · intro h; by_contra h'; exact absurd h (not_lt.2 (mul_nonpos_of_nonneg_of_nonpos (by positivity) (not_le.1 h').le))
      · intro h; exact mul_pos (by positivity) (lt_of_le_of_ne h hκ.symm)
    simp only [hlt']
    generalize V3.dot q d = κ at *
    by_cases h : κ < 0
    · simp only [h, if_true, not_true, if_false]
      apply V3.ext <;> simp only [V3.neg_x, V3.neg_y, V3.neg_z, V3.add_x, V3.add_y, V3.add_z, V3.sub_x, V3.sub_y, V3.sub_z, V3.smul_x, V3.smul_y, V3.smul_z] <;> field_simp <;> ring
    · simp only [h, if_true, not_false_iff, if_false]
      apply V3.ext <;> simp only [V3.neg_x, V3.neg_y, V3.neg_z, V3.add_x, V3.add_y, V3.add_z, V3.sub_x, V3.sub_y, V3.sub_z, V3.smul_x, V3.smul_y, V3.smul_z] <;> field_simp <;> ring

theorem reflectance_scale {na nb ha hb s : ℝ} (hs : s ≠ 0) : reflectance na nb (ha / s) (hb / s) = reflectance na nb ha hb := by
  unfold reflectance
  have e : ∀ x y u v : ℝ, (x * (u / s) - y * (v / s)) / (x * (u / s) + y * (v / s)) = (x * u - y * v) / (x * u + y * v) := by
    intro x y u v
    rw [show x * (u / s) - y * (v / s) = (x * u - y * v) / s by ring, show x * (u / s) + y * (v / s) = (x * u + y * v) / s by ring,
      div_div_div_cancel_right₀ hs]
  rw [e, e]

theorem radial_fresnel {na nb : ℝ} (hR : 0 < R) (hq : V3.dot q q = R ^ 2) (hd : d.IsUnit) (hm : m = (1 / R) • q ∨ m = -((1 / R) • q)) :
    fresnelOne d m na nb = reflectance na nb |V3.dot q d| (√(R ^ 2 - (na / nb) ^ 2 * V3.dot (V3.cross q d) (V3.cross q d))) := by
  have hd' : V3.dot d d = 1 := hd
  have hmu := radial_unit hR hq hm
  have h1 : |V3.dot d m| = |V3.dot q d| / R := by
    have : |V3.dot d m| = |V3.dot q d / R| := by
      rw [V3.dot_comm' d m]
      rcases hm with rfl | rfl
      · rw [radial_dot]
      · rw [dot_neg_left, radial_dot, abs_neg]
    rw [this, abs_div, abs_of_pos hR]
  have h2 : cosBehind na nb d m = √(R ^ 2 - (na / nb) ^ 2 * V3.dot (V3.cross q d) (V3.cross q d)) / R := by
    unfold cosBehind
    have : 1 - (na / nb * sin (incidence d m)) ^ 2 = (R ^ 2 - (na / nb) ^ 2 * V3.dot (V3.cross q d) (V3.cross q d)) / R ^ 2 := by
      have hs := sin_incidence hd hmu
      have hsq : V3.dot d m ^ 2 = (V3.dot q d / R) ^ 2 := by rw [← sq_abs, h1, div_pow, div_pow, sq_abs]
      rw [hsq] at hs
      rw [mul_pow, hs, cross_lagrange, hq, hd']
      field_simp
    rw [this, Real.sqrt_div' _ (by positivity), Real.sqrt_sq hR.le]
  rw [fresnelOne_eq hd hmu, h1, h2]
  exact reflectance_scale hR.ne'

end

section
variable {R : ℝ} {g : Geometry ℝ E} {frame : Tf ℝ} {opt : Optics σ ℝ E} {r : Ray ℝ E}

/-- The reported normal is along the radius. -/
theorem sphere_radial (hg : sphereGM R = .ok g) {p : V3 ℝ} (hp : V3.dot (p - frame.loc) (p - frame.loc) = R ^ 2) (d : V3 ℝ) :
    g.normal frame p d = (1 / R) • (p - frame.loc) ∨ g.normal frame p d = -((1 / R) • (p - frame.loc)) := by
  obtain ⟨hn, hR⟩ := sphere_normal hg
  rw [hn]
  have hnn : ∀ n : V3 ℝ, V3.dot n n = R ^ 2 → √(n.x ^ 2 + n.y ^ 2 + n.z ^ 2) = R := by
    intro n h
    have : n.x ^ 2 + n.y ^ 2 + n.z ^ 2 = R ^ 2 := by rw [← h]; unfold V3.dot; ring
    rw [this, Real.sqrt_sq hR.le]
  unfold sphereNormal
  simp only [neg_one_smul]
  split
  · right
    rw [hnn _ (by rw [dot_neg_left, dot_neg_right, neg_neg]; exact hp)]
    apply V3.ext <;> simp only [V3.neg_x, V3.neg_y, V3.neg_z, V3.smul_x, V3.smul_y, V3.smul_z] <;> ring
  · left
    rw [hnn _ hp]

/-- Points of a line on the sphere. -/
theorem line_on_sphere (hu : r.dir.IsUnit) (c : V3 ℝ) (t : ℝ) :
    V3.dist2 (r.vertex + t • r.dir) c = R ^ 2 ↔ (t + V3.dot (r.vertex - c) r.dir) ^ 2 = R ^ 2 - missSq c r := by
  have hu' : V3.dot r.dir r.dir = 1 := hu
  have e : V3.dist2 (r.vertex + t • r.dir) c = V3.dist2 r.vertex c + 2 * t * V3.dot (r.vertex - c) r.dir + t ^ 2 * V3.dot r.dir r.dir := by
    unfold V3.dist2 V3.dot
    simp only [V3.sub_x, V3.sub_y, V3.sub_z, V3.add_x, V3.add_y, V3.add_z, V3.smul_x, V3.smul_y, V3.smul_z]
    ring
  rw [e, hu', missSq_eq hu]
  constructor <;> intro h <;> linarith

/-- A ray that begins on the sphere and goes away from it does not meet it again. -/
theorem sphere_leaves (hg : sphereGM R = .ok g) (hf : frame.Rigid) (hu : r.dir.IsUnit) (hon : V3.dist2 r.vertex frame.loc = R ^ 2)
    (hout : 0 ≤ V3.dot (r.vertex - frame.loc) r.dir) : (mkSurf g opt frame : Surf σ ℝ E).single r = ⊤ := by
  obtain ⟨p, hp, hfirst⟩ := C34_sphere hf hg [r] 0 r rfl hu
  rw [single_of_find hp]
  cases p with
  | top => rfl
  | coe t =>
    obtain ⟨h1, h2, _⟩ := hfirst
    have h3 := (line_on_sphere hu frame.loc t).1 ((sphere_placed hf R _).1 h2)
    have h4 := missSq_eq (c := frame.loc) hu
    have h1 : (0 : ℝ) < t := h1
    nlinarith

/-- A ray that comes from outside meets the sphere at the near end of the chord. -/
theorem sphere_from_outside (hg : sphereGM R = .ok g) (hf : frame.Rigid) (hu : r.dir.IsUnit) (hm : missSq frame.loc r < R ^ 2)
    (hway : 0 < wayIn R frame.loc r) : (mkSurf g opt frame : Surf σ ℝ E).single r = ((wayIn R frame.loc r : ℝ) : WithTop ℝ) := by
  obtain ⟨p, hp, hfirst⟩ := C34_sphere hf hg [r] 0 r rfl hu
  rw [single_of_find hp]
  have hs : halfChord R frame.loc r ^ 2 = R ^ 2 - missSq frame.loc r := Real.sq_sqrt (by linarith)
  have hs0 : 0 ≤ halfChord R frame.loc r := Real.sqrt_nonneg _
  have hon : Placed frame (sphereSet R) (r.vertex + wayIn R frame.loc r • r.dir) := by
    refine (sphere_placed hf R _).2 ((line_on_sphere hu frame.loc _).2 ?_)
    rw [← hs]; unfold wayIn; ring
  cases p with
  | top => exact absurd hon (hfirst _ hway)
  | coe t =>
    obtain ⟨h1, h2, h3⟩ := hfirst
    have h1 : (0 : ℝ) < t := h1
    have h4 := (line_on_sphere hu frame.loc t).1 ((sphere_placed hf R _).1 h2)
    rw [← hs, sq_eq_sq_iff_eq_or_eq_neg] at h4
    have h5 : t ≤ wayIn R frame.loc r := h3 _ hway hon
    congr 1
    unfold wayIn at *
    rcases h4 with h4 | h4 <;> linarith

/-- What becomes of a ray at a refracting surface. -/
theorem alone_refractive {f} (hg : g.PerRay f) {n1 n2 t : ℝ} (w : σ)
    (h : (mkSurf g (refractiveHomogenous n1 n2) frame : Surf σ ℝ E).single r = (t : WithTop ℝ)) {l : Bundle ℝ E}
    (hc : refractiveHomogenous n1 n2 w frame.rot.c3 [⟨0, r, r.at t, g.normal frame (r.at t) r.dir⟩] = .ok (l, w)) :
    (mkSurf g (refractiveHomogenous n1 n2) frame).alone w r = l := by
  have : (mkSurf g (refractiveHomogenous n1 n2) frame).outgoing w [r] [0] = .ok (l, w) := by
    unfold mkSurf
    simp only [hitRecs_single hg h]
    exact hc
  unfold Surf.alone
  rw [this]

open Classical in
/-- What a ball makes of a ray that meets it. -/
theorem ball_alone (hg : sphereGM R = .ok g) {n1 n2 na nb t : ℝ} (h1 : 0 < n1) (h2 : 0 < n2) (hne : n1 ≠ n2)
    (hab : na = n1 ∧ nb = n2 ∨ na = n2 ∧ nb = n1) (w : σ) (hu : r.dir.IsUnit) (hr : r.ref = some na)
    (h : (mkSurf g (refractiveHomogenous n1 n2) frame : Surf σ ℝ E).single r = (t : WithTop ℝ))
    (hp : V3.dot (r.at t - frame.loc) (r.at t - frame.loc) = R ^ 2)
    (hκ : |V3.dot (r.at t - frame.loc) r.dir| = halfChord R frame.loc r) (hpos : 0 < halfChord R frame.loc r) :
    (mkSurf g (refractiveHomogenous n1 n2) frame).alone w r =
      ({ r with
          vertex := r.at t
          dir := withMoment R (r.at t - frame.loc) (moment frame.loc r) (-V3.dot (r.at t - frame.loc) r.dir)
          energy := r.energy * ballShare R frame.loc na nb r
          parent := 0 } : Ray ℝ E) ::
      (if Bends R frame.loc na nb r then
        [{ r with
            vertex := r.at t
            dir := withMoment R (r.at t - frame.loc) ((na / nb) • moment frame.loc r)
              ((if V3.dot (r.at t - frame.loc) r.dir < 0 then -1 else 1) * bentHalf R frame.loc na nb r)
            energy := r.energy * (1 - ballShare R frame.loc na nb r)
            parent := 0
            ref := some nb }] else []) := by
  obtain ⟨_, hR⟩ := sphere_normal hg
  obtain ⟨f, hper⟩ := (PlainGeometry.sphere R g hg).perRay
  refine alone_refractive hper w h ?_
  have hN := sphere_radial hg hp r.dir
  generalize hnm : g.normal frame (r.at t) r.dir = m at *
  have hmu := radial_unit hR hp hN
  have hna : 0 < na := by rcases hab with ⟨rfl, _⟩ | ⟨rfl, _⟩ <;> assumption
  have hnb : 0 < nb := by rcases hab with ⟨_, rfl⟩ | ⟨_, rfl⟩ <;> assumption
  have hin : idxIn (⟨0, r, r.at t, m⟩ : HitRec ℝ E) = na := by unfold idxIn; simp [hr]
  have hout : idxOut n1 n2 (⟨0, r, r.at t, m⟩ : HitRec ℝ E) = nb := by
    unfold idxOut; rw [hin]; unfold toggleRefIdx
    rcases hab with ⟨rfl, rfl⟩ | ⟨rfl, rfl⟩
    · simp
    · simp [hne.symm]
  have hmom := moment_at frame.loc r t
  have hms : V3.dot (moment frame.loc r) (moment frame.loc r) = missSq frame.loc r := rfl
  have hκ0 : V3.dot (r.at t - frame.loc) r.dir ≠ 0 := by
    intro h0; rw [h0, abs_zero] at hκ; exact hpos.ne hκ
  have hrefr : hitRefr n1 n2 (⟨0, r, r.at t, m⟩ : HitRec ℝ E) = true ↔ Bends R frame.loc na nb r := by
    unfold hitRefr; rw [hin, hout]
    refine (radial_refracted hna hR hp hu hN).trans ?_
    rw [hmom, hms]; rfl
  have hshare : hitR n1 n2 (⟨0, r, r.at t, m⟩ : HitRec ℝ E) = ballShare R frame.loc na nb r := by
    unfold hitR ballShare
    by_cases hb : Bends R frame.loc na nb r
    · rw [if_pos (hrefr.2 hb), if_pos hb, hin, hout]
      show fresnelOne r.dir m na nb = _
      rw [radial_fresnel hR hp hu hN, hκ, hmom, hms]
      rfl
    · rw [if_neg (fun h => hb (hrefr.1 h)), if_neg hb]
  have hleg : r.ref = some n1 ∨ r.ref = some n2 := by
    rcases hab with ⟨rfl, _⟩ | ⟨rfl, _⟩
    · exact Or.inl hr
    · exact Or.inr hr
  rw [refractive_call h1 h2 hne w _ (h := ⟨0, r, r.at t, m⟩) hmu hu hleg]
  congr 2
  congr 1
  · unfold hitReflected reflectedRay
    rw [hshare]
    simp only
    rw [radial_reflection hR hp hN, hmom]
  · by_cases hb : Bends R frame.loc na nb r
    · rw [if_pos (hrefr.2 hb), if_pos hb]
      unfold hitRefracted refractedRay
      rw [hshare, hin, hout]
      simp only
      rw [radial_refraction hna hnb hR hp hu hN hκ0, hmom, hms]
      rfl
    · rw [if_neg (fun h => hb (hrefr.1 h)), if_neg hb]

end

section
variable {R : ℝ} {c : V3 ℝ} {r : Ray ℝ E} {na nb : ℝ}

/-- All chords have the same moment. -/
theorem cavity_moment {δ : ℝ} (hin : InCavity δ R c r) (hR : 0 < R) (a : ℝ) (k : Nat) :
    moment c (cavityRay R c a r k) = moment c r ∧ V3.cross (bouncePoint R c r k) (cavityRay R c a r k).dir = moment c r := by
  have step : ∀ k, V3.cross (bouncePoint R c r k) (cavityRay R c a r k).dir = moment c (cavityRay R c a r k) := by
    intro k
    rw [← (cavityRay_turn hin hR a k).1]
    exact moment_at c _ _
  induction k with
  | zero => exact ⟨rfl, step 0⟩
  | succ k ih =>
    have h : moment c (cavityRay R c a r (k + 1)) = moment c r := by
      have e : (cavityRay R c a r (k + 1)).vertex - c = bouncePoint R c r k := by
        show c + bouncePoint R c r k - c = _
        apply V3.ext <;> simp
      rw [← ih.2]
      unfold moment
      rw [e, ← (cavityRay_turn hin hR a k).2]
      unfold V3.cross
      apply V3.ext <;> simp only [V3.sub_x, V3.sub_y, V3.sub_z, V3.smul_x, V3.smul_y, V3.smul_z] <;> ring
    exact ⟨h, (step (k + 1)).trans h⟩

theorem missSq_of_moment {r r' : Ray ℝ E} (h : moment c r = moment c r') : missSq c r = missSq c r' := by
  show V3.dot (moment c r) (moment c r) = V3.dot (moment c r') (moment c r')
  rw [h]

theorem ballShare_congr {r r' : Ray ℝ E} (h : missSq c r = missSq c r') :
    ballShare R c na nb r = ballShare R c na nb r' ∧ bentHalf R c na nb r = bentHalf R c na nb r' ∧ (Bends R c na nb r ↔ Bends R c na nb r') ∧
      halfChord R c r = halfChord R c r' := by
  have h1 : bentHalf R c na nb r = bentHalf R c na nb r' := by unfold bentHalf; rw [h]
  have h2 : Bends R c na nb r ↔ Bends R c na nb r' := by unfold Bends; rw [h]
  have h3 : halfChord R c r = halfChord R c r' := by unfold halfChord; rw [h]
  refine ⟨?_, h1, h2, h3⟩
  unfold ballShare
  rw [h1, h3]
  by_cases hb : Bends R c na nb r
  · rw [if_pos hb, if_pos (h2.1 hb)]
  · rw [if_neg hb, if_neg (fun h => hb (h2.2 h))]

theorem bentHalf_sq (hb : 0 < nb) (h : Bends R c na nb r) : bentHalf R c na nb r ^ 2 = R ^ 2 - (na / nb) ^ 2 * missSq c r := by
  unfold Bends at h
  refine Real.sq_sqrt ?_
  rw [div_pow, div_mul_eq_mul_div, sub_nonneg, div_le_iff₀ (by positivity)]
  linarith

theorem moment_perp {q d : V3 ℝ} (s : ℝ) : V3.dot (s • V3.cross q d) q = 0 := by
  unfold V3.dot V3.cross; simp only [V3.smul_x, V3.smul_y, V3.smul_z]; ring

theorem moment_smul_sq (s : ℝ) (L : V3 ℝ) : V3.dot (s • L) (s • L) = s ^ 2 * V3.dot L L := by
  unfold V3.dot; simp only [V3.smul_x, V3.smul_y, V3.smul_z]; ring

/-- The rays that get out go away from the ball. -/
theorem exitRay_facts {δ : ℝ} (hin : InCavity δ R c r) (hR : 0 < R) (ha : 0 < na) (hbe : Bends R c nb na r) (k : Nat) :
    (exitRay R c na nb r k).dir.IsUnit ∧ V3.dist2 (exitRay R c na nb r k).vertex c = R ^ 2 ∧
      0 ≤ V3.dot ((exitRay R c na nb r k).vertex - c) (exitRay R c na nb r k).dir ∧ moment c (exitRay R c na nb r k) = (nb / na) • moment c r := by
  have hq := (hin.chord.points hR (bouncePoint R c r) (fun _ => rfl) k).2.1
  have hv : (exitRay R c na nb r k).vertex - c = bouncePoint R c r k := by
    show c + bouncePoint R c r k - c = _
    apply V3.ext <;> simp
  have hm := (cavity_moment hin hR 0 k).2
  have hperp : V3.dot ((nb / na) • moment c r) (bouncePoint R c r k) = 0 := by rw [← hm]; exact moment_perp _
  obtain ⟨f1, f2, f3⟩ := withMoment_facts hR hq hperp (bentHalf R c nb na r)
  refine ⟨?_, ?_, ?_, ?_⟩
  · show V3.dot (withMoment R _ _ _) (withMoment R _ _ _) = 1
    rw [f3, moment_smul_sq, show V3.dot (moment c r) (moment c r) = missSq c r from rfl, bentHalf_sq ha hbe]
    field_simp
    ring
  · unfold V3.dist2; rw [hv, hq]
  · rw [hv]
    show 0 ≤ V3.dot _ (withMoment R _ _ _)
    rw [f1]; exact Real.sqrt_nonneg _
  · unfold moment
    rw [hv]
    exact f2

theorem FallsOn.bends (hf : FallsOn R c na nb r) (hb : 0 < nb) : Bends R c na nb r := by
  have h : 0 < bentHalf R c na nb r := by
    have := hf.chord; norm_num at this; linarith
  unfold bentHalf at h
  have := Real.sqrt_pos.1 h
  unfold Bends
  rw [div_pow, div_mul_eq_mul_div, sub_pos, div_lt_iff₀ (by positivity)] at this
  linarith

theorem FallsOn.half (hf : FallsOn R c na nb r) : halfChord R c r ^ 2 = R ^ 2 - missSq c r ∧ 0 < halfChord R c r :=
  ⟨Real.sq_sqrt (by linarith [hf.meets]), Real.sqrt_pos.2 (by linarith [hf.meets])⟩

/-- Where the ray falls on the ball. -/
theorem FallsOn.place (hf : FallsOn R c na nb r) :
    V3.dot (r.at (wayIn R c r) - c) (r.at (wayIn R c r) - c) = R ^ 2 ∧ V3.dot (r.at (wayIn R c r) - c) r.dir = -halfChord R c r := by
  have hu : V3.dot r.dir r.dir = 1 := hf.unit
  constructor
  · refine (line_on_sphere (R := R) hf.unit c (wayIn R c r)).2 ?_
    rw [← hf.half.1]; unfold wayIn; ring
  · have : V3.dot (r.at (wayIn R c r) - c) r.dir = V3.dot (r.vertex - c) r.dir + wayIn R c r * V3.dot r.dir r.dir := by
      unfold Ray.at V3.dot
      simp only [V3.sub_x, V3.sub_y, V3.sub_z, V3.add_x, V3.add_y, V3.add_z, V3.smul_x, V3.smul_y, V3.smul_z]
      ring
    rw [this, hu]; unfold wayIn; ring

theorem reflectance_symm (na nb ha hb : ℝ) : reflectance nb na hb ha = reflectance na nb ha hb := by
  unfold reflectance
  have e : ∀ x y : ℝ, ((x - y) / (x + y)) ^ 2 = ((y - x) / (y + x)) ^ 2 := by
    intro x y; rw [← neg_sub y x, add_comm x y, neg_div, neg_sq]
  rw [e (nb * hb), e (nb * ha)]

/-- The light that has entered. -/
theorem FallsOn.entering (hf : FallsOn R c na nb r) (hR : 0 < R) (ha : 0 < na) (hb : 0 < nb) :
    InCavity (1 / 10 ^ 6) R c (entering R c na nb r) ∧ moment c (entering R c na nb r) = (na / nb) • moment c r ∧
      halfChord R c (entering R c na nb r) = bentHalf R c na nb r ∧ bentHalf R c nb na (entering R c na nb r) = halfChord R c r ∧
      Bends R c nb na (entering R c na nb r) ∧ ballShare R c nb na (entering R c na nb r) = ballShare R c na nb r := by
  obtain ⟨p1, p2⟩ := hf.place
  have hbe := hf.bends hb
  have hms : V3.dot (moment c r) (moment c r) = missSq c r := rfl
  have hperp : V3.dot ((na / nb) • moment c r) (r.at (wayIn R c r) - c) = 0 := by rw [← moment_at c r (wayIn R c r)]; exact moment_perp _
  obtain ⟨f1, f2, f3⟩ := withMoment_facts hR p1 hperp (-bentHalf R c na nb r)
  have hsq := bentHalf_sq hb hbe
  have hmom : moment c (Tracer.entering R c na nb r) = (na / nb) • moment c r := f2
  have hmiss : missSq c (Tracer.entering R c na nb r) = (na / nb) ^ 2 * missSq c r := by
    show V3.dot (moment c _) (moment c _) = _
    rw [hmom, moment_smul_sq, hms]
  have hhalf : halfChord R c (Tracer.entering R c na nb r) = bentHalf R c na nb r := by
    unfold halfChord bentHalf; rw [hmiss]
  have hbent : bentHalf R c nb na (Tracer.entering R c na nb r) = halfChord R c r := by
    unfold halfChord bentHalf; rw [hmiss]
    congr 1
    field_simp
  have hbends : Bends R c nb na (Tracer.entering R c na nb r) := by
    unfold Bends
    rw [hmiss]
    have : nb ^ 2 * ((na / nb) ^ 2 * missSq c r) = na ^ 2 * missSq c r := by field_simp
    rw [this]
    have := hf.meets
    have := sq_nonneg na
    nlinarith
  refine ⟨⟨?_, ?_, ?_, by norm_num⟩, hmom, hhalf, hbent, hbends, ?_⟩
  · show V3.dot (withMoment R _ _ _) (withMoment R _ _ _) = 1
    rw [f3, moment_smul_sq, hms, neg_sq, hsq]
    field_simp
    ring
  · exact p1.le
  · unfold wayToWall
    rw [hhalf]
    show _ < bentHalf R c na nb r - V3.dot (r.at (wayIn R c r) - c) (withMoment R _ _ _)
    rw [f1]
    have := hf.chord
    linarith
  · unfold ballShare
    rw [if_pos hbe, if_pos hbends, hhalf, hbent, reflectance_symm]

/-- The light that is thrown off goes away from the ball. -/
theorem FallsOn.thrown (hf : FallsOn R c na nb r) (hR : 0 < R) :
    (thrownOff R c na nb r).dir.IsUnit ∧ V3.dist2 (thrownOff R c na nb r).vertex c = R ^ 2 ∧
      0 ≤ V3.dot ((thrownOff R c na nb r).vertex - c) (thrownOff R c na nb r).dir ∧ moment c (thrownOff R c na nb r) = moment c r := by
  obtain ⟨p1, p2⟩ := hf.place
  have hms : V3.dot (moment c r) (moment c r) = missSq c r := rfl
  have hperp : V3.dot (moment c r) (r.at (wayIn R c r) - c) = 0 := by
    rw [← moment_at c r (wayIn R c r)]; exact (cross_dot_self _ _).1
  obtain ⟨f1, f2, f3⟩ := withMoment_facts hR p1 hperp (halfChord R c r)
  refine ⟨?_, p1, ?_, f2⟩
  · show V3.dot (withMoment R _ _ _) (withMoment R _ _ _) = 1
    rw [f3, hms, hf.half.1]
    field_simp
    ring
  · show 0 ≤ V3.dot (r.at (wayIn R c r) - c) (withMoment R (r.at (wayIn R c r) - c) (moment c r) (halfChord R c r))
    rw [f1]; exact hf.half.2.le

end

section
variable {R : ℝ} {g : Geometry ℝ E} {frame : Tf ℝ} {r : Ray ℝ E} {n1 n2 na nb : ℝ}

open Classical in
/-- What a ray inside becomes, time after time. -/
theorem ball_inside (hg : sphereGM R = .ok g) (hf : frame.Rigid) (h1 : 0 < n1) (h2 : 0 < n2) (hne : n1 ≠ n2)
    (hab : na = n1 ∧ nb = n2 ∨ na = n2 ∧ nb = n1) (w : σ) {δ : ℝ} (hin : InCavity δ R frame.loc r) (hr : r.ref = some nb) (k : Nat) :
    (mkSurf g (refractiveHomogenous n1 n2) frame).alone w (cavityRay R frame.loc (1 - ballShare R frame.loc nb na r) r k) =
      cavityRay R frame.loc (1 - ballShare R frame.loc nb na r) r (k + 1) ::
        (if Bends R frame.loc nb na r then [exitRay R frame.loc na nb r k] else []) := by
  obtain ⟨_, hR⟩ := sphere_normal hg
  have hna : 0 < na := by rcases hab with ⟨rfl, _⟩ | ⟨rfl, _⟩ <;> assumption
  have hab' : nb = n1 ∧ na = n2 ∨ nb = n2 ∧ na = n1 := by tauto
  generalize hs : ballShare R frame.loc nb na r = s
  obtain ⟨hk, hwall, hhalf, _⟩ := cavityRay_inside hin hR (1 - s) k
  obtain ⟨t1, t2⟩ := cavityRay_turn hin hR (1 - s) k
  obtain ⟨m1, m2⟩ := cavity_moment hin hR (1 - s) k
  obtain ⟨c1, c2, c3, c4⟩ := ballShare_congr (R := R) (na := nb) (nb := na) (missSq_of_moment m1)
  have hchord := hk.chord
  have hlen := hchord.len
  have halong := hchord.along
  have hpos := hchord.spos
  have hq : (cavityRay R frame.loc (1 - s) r k).at (wayToWall R frame.loc (cavityRay R frame.loc (1 - s) r k)) - frame.loc =
      bouncePoint R frame.loc r k := t1
  have hv : (cavityRay R frame.loc (1 - s) r k).at (wayToWall R frame.loc (cavityRay R frame.loc (1 - s) r k)) =
      frame.loc + bouncePoint R frame.loc r k := by
    rw [← hq]; apply V3.ext <;> simp
  rw [t1] at hlen halong
  have hρ : (cavityRay R frame.loc (1 - s) r k).ref = some nb := by cases k <;> exact hr
  rw [ball_alone hg h1 h2 hne hab' w hk.unit hρ (sphere_single hg hf hk) (by rw [hq]; exact hlen)
    (by rw [hq, halong, abs_of_pos hpos]) hpos]
  rw [hq, hv, halong, hhalf, m1, c1, c2, hs, if_neg (not_lt.2 (by rw [← hhalf]; exact hpos.le)), one_mul]
  simp only [c3]
  have hdir : withMoment R (bouncePoint R frame.loc r k) (moment frame.loc r) (-halfChord R frame.loc r) =
      (cavityRay R frame.loc (1 - s) r (k + 1)).dir := by
    rw [← t2]
    have e := withMoment_of hR hlen (cavityRay R frame.loc (1 - s) r k).dir
    rw [m2, halong, hhalf] at e
    have e3 : ∀ (q L : V3 ℝ) (h : ℝ), withMoment R q L (-h) = withMoment R q L h - (2 * h / R ^ 2) • q := by
      intro q L h
      unfold withMoment
      apply V3.ext <;> simp only [V3.add_x, V3.add_y, V3.add_z, V3.sub_x, V3.sub_y, V3.sub_z, V3.smul_x, V3.smul_y, V3.smul_z] <;> ring
    rw [e3, e]
  have hen : (cavityRay R frame.loc (1 - s) r k).energy = r.energy * s ^ k := by
    cases k with
    | zero => simp [cavityRay]
    | succ k =>
      show r.energy * (1 - (1 - s)) ^ (k + 1) = _
      rw [sub_sub_cancel]
  rw [hdir, hen]
  congr 1
  · have e : (cavityRay R frame.loc (1 - s) r (k + 1)).energy = r.energy * s ^ k * s := by
      show r.energy * (1 - (1 - s)) ^ (k + 1) = _
      rw [sub_sub_cancel]; ring
    rw [← e]
    cases k <;> rfl
  · split
    · unfold exitRay
      rw [hs]
      cases k <;> rfl
    · rfl

/-- What a ray from outside becomes. -/
theorem ball_outside (hg : sphereGM R = .ok g) (hf : frame.Rigid) (h1 : 0 < n1) (h2 : 0 < n2) (hne : n1 ≠ n2)
    (hab : na = n1 ∧ nb = n2 ∨ na = n2 ∧ nb = n1) (w : σ) (hin : FallsOn R frame.loc na nb r) :
    (mkSurf g (refractiveHomogenous n1 n2) frame).alone w r = [thrownOff R frame.loc na nb r, entering R frame.loc na nb r] := by
  have hnb : 0 < nb := by rcases hab with ⟨_, rfl⟩ | ⟨_, rfl⟩ <;> assumption
  obtain ⟨p1, p2⟩ := hin.place
  have hway : 0 < wayIn R frame.loc r := by have := hin.far; norm_num at this; linarith
  have hpos := hin.half.2
  rw [ball_alone hg h1 h2 hne hab w hin.unit hin.medium (sphere_from_outside hg hf hin.unit hin.meets hway) p1
    (by rw [p2, abs_neg, abs_of_pos hpos]) hpos, if_pos (hin.bends hnb), p2, if_pos (by linarith), neg_neg, neg_one_mul]
  rfl

open Classical in
/-- Rays inside a ball. -/
theorem inside_fans (hg : sphereGM R = .ok g) (hf : frame.Rigid) (h1 : 0 < n1) (h2 : 0 < n2) (hne : n1 ≠ n2)
    (hab : na = n1 ∧ nb = n2 ∨ na = n2 ∧ nb = n1) (w : σ) {b : Bundle ℝ E} (hin : ∀ r ∈ b, InCavity (1 / 10 ^ 6) R frame.loc r ∧ r.ref = some nb) :
    Fans (mkSurf g (refractiveHomogenous n1 n2) frame) w b (fun r k => cavityRay R frame.loc (1 - ballShare R frame.loc nb na r) r k)
      (fun r k => cavityRay R frame.loc (1 - ballShare R frame.loc nb na r) r (k + 1) ::
        (if Bends R frame.loc nb na r then [exitRay R frame.loc na nb r k] else []))
      (fun r k => wayToWall R frame.loc (cavityRay R frame.loc (1 - ballShare R frame.loc nb na r) r k)) := by
  obtain ⟨_, hR⟩ := sphere_normal hg
  have hna : 0 < na := by rcases hab with ⟨rfl, _⟩ | ⟨rfl, _⟩ <;> assumption
  refine ⟨fun _ _ => rfl, fun r hr k => ?_, fun r hr k => ⟨[], _, rfl, ?_⟩⟩
  · have hk := (cavityRay_inside (hin r hr).1 hR (1 - ballShare R frame.loc nb na r) k).1
    exact ⟨sphere_single hg hf hk, hk.far, ball_inside hg hf h1 h2 hne hab w (hin r hr).1 (hin r hr).2 k⟩
  · intro x hx
    rw [List.nil_append] at hx
    split at hx
    · rename_i hb
      rw [List.mem_singleton] at hx
      subst hx
      obtain ⟨e1, e2, e3, _⟩ := exitRay_facts (hin r hr).1 hR hna hb k
      exact sphere_leaves hg hf e1 e2 e3
    · simp at hx

/-- The orbit of a ray that falls on a ball. -/
noncomputable def ballOrbit (R : ℝ) (c : V3 ℝ) (na nb : ℝ) (r : Ray ℝ E) : Nat → Ray ℝ E
  | 0 => r
  | k + 1 => cavityRay R c (1 - ballShare R c na nb r) (entering R c na nb r) k

/-- ... and what it is divided into. -/
noncomputable def ballFan (R : ℝ) (c : V3 ℝ) (na nb : ℝ) (r : Ray ℝ E) : Nat → List (Ray ℝ E)
  | 0 => [thrownOff R c na nb r, entering R c na nb r]
  | k + 1 => [cavityRay R c (1 - ballShare R c na nb r) (entering R c na nb r) (k + 1), exitRay R c na nb (entering R c na nb r) k]

theorem outside_fans (hg : sphereGM R = .ok g) (hf : frame.Rigid) (h1 : 0 < n1) (h2 : 0 < n2) (hne : n1 ≠ n2)
    (hab : na = n1 ∧ nb = n2 ∨ na = n2 ∧ nb = n1) (w : σ) {b : Bundle ℝ E} (hin : ∀ r ∈ b, FallsOn R frame.loc na nb r) :
    Fans (mkSurf g (refractiveHomogenous n1 n2) frame) w b (ballOrbit R frame.loc na nb) (ballFan R frame.loc na nb)
      (fun r k => match k with
        | 0 => wayIn R frame.loc r
        | k + 1 => wayToWall R frame.loc (cavityRay R frame.loc (1 - ballShare R frame.loc na nb r) (entering R frame.loc na nb r) k)) := by
  obtain ⟨_, hR⟩ := sphere_normal hg
  have hna : 0 < na := by rcases hab with ⟨rfl, _⟩ | ⟨rfl, _⟩ <;> assumption
  have hnb : 0 < nb := by rcases hab with ⟨_, rfl⟩ | ⟨_, rfl⟩ <;> assumption
  refine ⟨fun _ _ => rfl, fun r hr k => ?_, fun r hr k => ?_⟩
  · obtain ⟨e1, _, _, _, e5, e6⟩ := (hin r hr).entering hR hna hnb
    cases k with
    | zero =>
      have hway : 0 < wayIn R frame.loc r := by have := (hin r hr).far; norm_num at this; linarith
      exact ⟨sphere_from_outside hg hf (hin r hr).unit (hin r hr).meets hway, (hin r hr).far, ball_outside hg hf h1 h2 hne hab w (hin r hr)⟩
    | succ k =>
      have hk := (cavityRay_inside e1 hR (1 - ballShare R frame.loc na nb r) k).1
      refine ⟨sphere_single hg hf hk, hk.far, ?_⟩
      have := ball_inside hg hf h1 h2 hne hab w e1 rfl k
      rw [e6, if_pos e5] at this
      exact this
  · obtain ⟨e1, _, _, _, e5, e6⟩ := (hin r hr).entering hR hna hnb
    cases k with
    | zero =>
      refine ⟨[thrownOff R frame.loc na nb r], [], rfl, fun x hx => ?_⟩
      simp only [List.append_nil, List.mem_singleton] at hx
      subst hx
      obtain ⟨f1, f2, f3, _⟩ := (hin r hr).thrown hR
      exact sphere_leaves hg hf f1 f2 f3
    | succ k =>
      refine ⟨[], [exitRay R frame.loc na nb (entering R frame.loc na nb r) k], rfl, fun x hx => ?_⟩
      simp only [List.nil_append, List.mem_singleton] at hx
      subst hx
      obtain ⟨f1, f2, f3, _⟩ := exitRay_facts e1 hR hna e5 k
      exact sphere_leaves hg hf f1 f2 f3

end

end Tracer
