import Verif.Spec.Symmetry
import Verif.Props.Media

/-! Lemmas for `Props/Symmetry.lean`. -/

set_option linter.unusedSectionVars false

namespace Tracer

variable {E σ : Type _} {M : ℝ → Prop}

/-! ### Vectors -/

theorem V3.dot_self_nonneg (v : V3 ℝ) : 0 ≤ V3.dot v v := by
  unfold V3.dot
  nlinarith [mul_self_nonneg v.x, mul_self_nonneg v.y, mul_self_nonneg v.z]

/-- A vector parallel to a unit vector. -/
theorem parallel_unit {p m : V3 ℝ} (hm : m.IsUnit) (h : V3.cross p m = 0) : p = V3.dot p m • m := by
  have hx := congrArg V3.x h
  have hy := congrArg V3.y h
  have hz := congrArg V3.z h
  unfold V3.IsUnit V3.dot at hm
  simp only [V3.cross, V3.zero_x, V3.zero_y, V3.zero_z] at hx hy hz
  unfold V3.dot
  apply V3.ext <;> simp only [V3.smul_x, V3.smul_y, V3.smul_z]
  · linear_combination m.y * hz - m.z * hy - p.x * hm
  · linear_combination m.z * hx - m.x * hz - p.y * hm
  · linear_combination m.x * hy - m.y * hx - p.z * hm

theorem parallel_unit' {m u : V3 ℝ} (hm : m.IsUnit) (h : V3.cross m u = 0) : u = V3.dot u m • m := by
  refine parallel_unit hm ?_
  have hx := congrArg V3.x h
  have hy := congrArg V3.y h
  have hz := congrArg V3.z h
  simp only [V3.cross, V3.zero_x, V3.zero_y, V3.zero_z] at hx hy hz
  apply V3.ext <;> simp only [V3.cross, V3.zero_x, V3.zero_y, V3.zero_z] <;> linarith

/-- Two momenta with the same part along the surface. -/
theorem bend_diff {m d e : V3 ℝ} {n n' : ℝ} (hm : m.IsUnit) (h : n' • V3.cross e m = n • V3.cross d m) :
    ∃ l : ℝ, n' • e = n • d + l • m := by
  have h0 : V3.cross (n' • e - n • d) m = 0 := by
    have hx := congrArg V3.x h
    have hy := congrArg V3.y h
    have hz := congrArg V3.z h
    simp only [V3.cross, V3.smul_x, V3.smul_y, V3.smul_z] at hx hy hz
    apply V3.ext <;> simp only [V3.cross, V3.sub_x, V3.sub_y, V3.sub_z, V3.smul_x, V3.smul_y, V3.smul_z, V3.zero_x, V3.zero_y, V3.zero_z] <;>
      linarith
  have := parallel_unit hm h0
  refine ⟨V3.dot (n' • e - n • d) m, ?_⟩
  rw [← this]
  apply V3.ext <;> simp

theorem bend_dot {m d e u : V3 ℝ} {n n' : ℝ} (hm : m.IsUnit) (h : n' • V3.cross e m = n • V3.cross d m) (hu : V3.dot m u = 0) :
    n' * V3.dot e u = n * V3.dot d u := by
  obtain ⟨l, hl⟩ := bend_diff hm h
  have hx := congrArg V3.x hl
  have hy := congrArg V3.y hl
  have hz := congrArg V3.z hl
  simp only [V3.add_x, V3.add_y, V3.add_z, V3.smul_x, V3.smul_y, V3.smul_z] at hx hy hz
  unfold V3.dot at *
  linear_combination u.x * hx + u.y * hy + u.z * hz + l * hu

theorem bend_moment {m d e x u : V3 ℝ} {n n' : ℝ} (hm : m.IsUnit) (h : n' • V3.cross e m = n • V3.cross d m)
    (hu : V3.dot (V3.cross x m) u = 0) : n' * V3.dot (V3.cross x e) u = n * V3.dot (V3.cross x d) u := by
  obtain ⟨l, hl⟩ := bend_diff hm h
  have hx := congrArg V3.x hl
  have hy := congrArg V3.y hl
  have hz := congrArg V3.z hl
  simp only [V3.add_x, V3.add_y, V3.add_z, V3.smul_x, V3.smul_y, V3.smul_z] at hx hy hz
  simp only [V3.dot, V3.cross] at hu ⊢
  linear_combination (x.z * u.y - x.y * u.z) * hx + (x.x * u.z - x.z * u.x) * hy + (x.y * u.x - x.x * u.y) * hz + l * hu

theorem moment_along (v d c u : V3 ℝ) (t : ℝ) :
    V3.dot (V3.cross (v + t • d - c) d) u = V3.dot (V3.cross (v - c) d) u := by
  simp only [V3.dot, V3.cross, V3.add_x, V3.add_y, V3.add_z, V3.sub_x, V3.sub_y, V3.sub_z, V3.smul_x, V3.smul_y, V3.smul_z]
  ring

/-! ### The law of bending -/

/-- Along the surface, refractive index times direction goes on unchanged. -/
def BendLaw (Q : Ray ℝ E → Prop) (_up : V3 ℝ) (h : HitRec ℝ E) (r : Ray ℝ E) : Prop :=
  h.normal.IsUnit → Q h.ray → Q r ∧ r.index • V3.cross r.dir h.normal = h.ray.index • V3.cross h.ray.dir h.normal

theorem bendLaw_numberFree (Q : Ray ℝ E → Prop) (hQ : ∀ r i, Q r → Q { r with parent := i }) : NumberFree (BendLaw Q) := by
  intro up h r i j hl hn hq
  exact ⟨hQ _ _ (hl hn hq).1, (hl hn hq).2⟩

theorem mediaRay_parent (r : Ray ℝ E) (i : Nat) (h : MediaRay M r) : MediaRay M { r with parent := i } := h

theorem clear_bends (hM : ∀ n, M n → 0 < n) {opt : Optics σ ℝ E} (h : ClearOptics M opt) : Optics.Obeys opt (BendLaw (MediaRay M)) := by
  induction h with
  | mirror c =>
    intro w up hits out w' ho r hr
    obtain ⟨q, hq, e1, e2, e3⟩ := C74_reflective c w up hits out w' ho r hr
    exact ⟨q, hq, e1, e2, fun hn hQ => ⟨⟨mirrored_unit hn hQ.1 (e3.dir hn), by rw [e3.ref]; exact hQ.2⟩, by
      unfold Ray.index; rw [e3.ref, (e3.dir hn).tangent]⟩⟩
  | oneSided c =>
    intro w up hits out w' ho r hr
    obtain ⟨q, hq, e1, e2, e3⟩ := C74_one_sided c w up hits out w' ho r hr
    exact ⟨q, hq, e1, e2, fun hn hQ => ⟨⟨mirrored_unit hn hQ.1 (e3.dir hn), by rw [e3.ref]; exact hQ.2⟩, by
      unfold Ray.index; rw [e3.ref, (e3.dir hn).tangent]⟩⟩
  | refractive a b ha hb =>
    intro w up hits out w' ho r hr
    obtain ⟨q, hq, e1, e2, e3⟩ := C74_border (hM a ha) (hM b hb) w up hits out w' ho r hr
    refine ⟨q, hq, e1, e2, fun hn hQ => ?_⟩
    obtain ⟨hd, n, hn', hr'⟩ := hQ
    unfold Ray.index
    rw [hr']
    rcases e3.dir hn hd n hr' (hM n hn') with ⟨c1, c2⟩ | ⟨rfl, c2, c3⟩ | ⟨_, c2, c3⟩
    · exact ⟨⟨mirrored_unit hn hd c1, n, hn', c2⟩, by rw [c2, c1.tangent]⟩
    · exact ⟨⟨c3.unit, b, hb, c2⟩, by rw [c2]; exact c3.law.symm⟩
    · exact ⟨⟨c3.unit, a, ha, c2⟩, by rw [c2]; exact c3.law.symm⟩
  | receiver c get set opt _ ih => exact C74_receiver ih c get set

theorem mirror_bends {opt : Optics σ ℝ E} (h : MirrorOptics opt) : Optics.Obeys opt (BendLaw fun r => r.dir.IsUnit) := by
  induction h with
  | mirror c =>
    intro w up hits out w' ho r hr
    obtain ⟨q, hq, e1, e2, e3⟩ := C74_reflective c w up hits out w' ho r hr
    exact ⟨q, hq, e1, e2, fun hn hQ => ⟨mirrored_unit hn hQ (e3.dir hn), by
      unfold Ray.index; rw [e3.ref, (e3.dir hn).tangent]⟩⟩
  | oneSided c =>
    intro w up hits out w' ho r hr
    obtain ⟨q, hq, e1, e2, e3⟩ := C74_one_sided c w up hits out w' ho r hr
    exact ⟨q, hq, e1, e2, fun hn hQ => ⟨mirrored_unit hn hQ (e3.dir hn), by
      unfold Ray.index; rw [e3.ref, (e3.dir hn).tangent]⟩⟩
  | receiver c get set opt _ ih => exact C74_receiver ih c get set

/-! ### Normals -/

theorem flatGeometry_normal {g : Geometry ℝ E} (h : FlatGeometry g) (frame : Tf ℝ) (p d : V3 ℝ) :
    ∃ c : ℝ, g.normal frame p d = c • frame.rot.c3 := by
  have key : ∃ c : ℝ, flatNormal frame p d = c • frame.rot.c3 := by
    unfold flatNormal
    split
    · exact ⟨-1, by apply V3.ext <;> simp⟩
    · exact ⟨1, by apply V3.ext <;> simp⟩
  cases h with
  | flat => exact key
  | rect w h g hg => rw [rect_eq hg]; exact key
  | round R g hg => rw [round_eq hg]; exact key
  | triangle a b => exact key

theorem cylinderNormal_form (frame : Tf ℝ) (p d : V3 ℝ) :
    ∃ c : ℝ, cylinderNormal frame p d = frame.rot.mulVec ⟨c * (frame.inv.point p).x, c * (frame.inv.point p).y, 0⟩ := by
  unfold cylinderNormal
  simp only
  split
  · exact ⟨-1 / √((frame.inv.point p).x ^ 2 + (frame.inv.point p).y ^ 2), by
      congr 1; apply V3.ext <;> simp <;> ring⟩
  · exact ⟨1 / √((frame.inv.point p).x ^ 2 + (frame.inv.point p).y ^ 2), by
      congr 1; apply V3.ext <;> simp <;> ring⟩

theorem paraboloidNormal_form (a : ℝ) (frame : Tf ℝ) (p d : V3 ℝ) :
    ∃ c k : ℝ, paraboloidNormal a a frame p d = frame.rot.mulVec ⟨c * (frame.inv.point p).x, c * (frame.inv.point p).y, k⟩ := by
  unfold paraboloidNormal
  simp only
  generalize 1 / √((-(2 * (frame.inv.point p).x * a)) ^ 2 + (-(2 * (frame.inv.point p).y * a)) ^ 2 + 1 ^ 2) = s
  split
  · exact ⟨2 * a * s, -s, by congr 1; apply V3.ext <;> simp <;> ring⟩
  · exact ⟨-(2 * a * s), s, by congr 1; apply V3.ext <;> simp <;> ring⟩

theorem sphereNormal_form (frame : Tf ℝ) (p d : V3 ℝ) : ∃ c : ℝ, sphereNormal frame p d = c • (p - frame.loc) := by
  unfold sphereNormal
  simp only
  split
  · exact ⟨_, by
      rw [show ∀ (a : ℝ) (v : V3 ℝ), a • ((-1 : ℝ) • v) = (-a) • v from fun a v => by apply V3.ext <;> simp]⟩
  · exact ⟨_, rfl⟩

theorem mulVec_c3 {m : M3 ℝ} (h : m.IsRotation) (v : V3 ℝ) : V3.dot (m.mulVec v) m.c3 = v.z := by
  have e : m.mulVec (⟨0, 0, 1⟩ : V3 ℝ) = m.c3 := by apply V3.ext <;> simp [M3.mulVec_x, M3.mulVec_y, M3.mulVec_z]
  rw [← e, M3.IsRotation.dot h]
  simp [V3.dot]

/-- Surfaces drawn along `u` have normals perpendicular to `u`. -/
theorem Extruded.normal {u : V3 ℝ} {g : Geometry ℝ E} {frame : Tf ℝ} (hf : frame.Rigid) (h : Extruded u g frame) (p d : V3 ℝ) :
    V3.dot (g.normal frame p d) u = 0 := by
  have hc3 := rigid_c3 hf
  have hcyl : V3.cross frame.rot.c3 u = 0 → V3.dot (cylinderNormal frame p d) u = 0 := by
    intro h0
    obtain ⟨c, hc⟩ := cylinderNormal_form frame p d
    have h1 := mulVec_c3 hf ⟨c * (frame.inv.point p).x, c * (frame.inv.point p).y, 0⟩
    rw [← hc] at h1
    rw [parallel_unit' hc3 h0]
    have : ∀ (a b : V3 ℝ) (k : ℝ), V3.dot a (k • b) = k * V3.dot a b := by intro a b k; unfold V3.dot; simp; ring
    rw [this, h1]
    exact mul_zero _
  cases h with
  | flat g frame hg h0 =>
    obtain ⟨c, hc⟩ := flatGeometry_normal hg frame p d
    rw [hc]
    unfold V3.dot at *
    simp only [V3.smul_x, V3.smul_y, V3.smul_z]
    linear_combination c * h0
  | cylinder D frame h0 => exact hcyl h0
  | finiteCylinder D H frame h0 => exact hcyl h0

/-- Surfaces with an axis have normals that meet it (or are parallel to it). -/
theorem Coaxial.normal {c u : V3 ℝ} {g : Geometry ℝ E} {frame : Tf ℝ} (hf : frame.Rigid) (h : Coaxial c u g frame) (p d : V3 ℝ) :
    V3.dot (V3.cross (p - c) (g.normal frame p d)) u = 0 := by
  have hc3 := rigid_c3 hf
  have hsph : V3.cross (frame.loc - c) u = 0 → V3.dot (V3.cross (p - c) (sphereNormal frame p d)) u = 0 := by
    intro h0
    obtain ⟨k, hk⟩ := sphereNormal_form frame p d
    have hx := congrArg V3.x h0
    have hy := congrArg V3.y h0
    have hz := congrArg V3.z h0
    simp only [V3.cross, V3.sub_x, V3.sub_y, V3.sub_z, V3.zero_x, V3.zero_y, V3.zero_z] at hx hy hz
    rw [hk]
    simp only [V3.dot, V3.cross, V3.sub_x, V3.sub_y, V3.sub_z, V3.smul_x, V3.smul_y, V3.smul_z]
    linear_combination (-k * (p.x - frame.loc.x)) * hx + (-k * (p.y - frame.loc.y)) * hy + (-k * (p.z - frame.loc.z)) * hz
  have hrev : V3.cross (frame.loc - c) u = 0 → V3.cross frame.rot.c3 u = 0 → ∀ w : V3 ℝ,
      (∃ k l : ℝ, w = frame.rot.mulVec ⟨k * (frame.inv.point p).x, k * (frame.inv.point p).y, l⟩) →
      V3.dot (V3.cross (p - c) w) u = 0 := by
    rintro h0 h1 w ⟨k, l, hw⟩
    have hloc : p - frame.loc = frame.rot.mulVec (frame.inv.point p) := by
      have := Tf.point_inv_point (M3.IsRotation.det_ne hf) p
      have e : frame.point (frame.inv.point p) = frame.rot.mulVec (frame.inv.point p) + frame.loc := rfl
      rw [e] at this
      have hx := congrArg V3.x this
      have hy := congrArg V3.y this
      have hz := congrArg V3.z this
      simp only [V3.add_x, V3.add_y, V3.add_z] at hx hy hz
      apply V3.ext <;> simp only [V3.sub_x, V3.sub_y, V3.sub_z] <;> linarith
    have hu := parallel_unit' hc3 h1
    have h2 : V3.dot (V3.cross (p - frame.loc) w) frame.rot.c3 = 0 := by
      rw [hloc, hw, ← M3.IsRotation.cross hf, mulVec_c3 hf]
      simp only [V3.cross]
      ring
    have h3 : V3.dot (V3.cross (p - frame.loc) w) u = 0 := by
      rw [hu]
      have : ∀ (a b : V3 ℝ) (k : ℝ), V3.dot a (k • b) = k * V3.dot a b := by intro a b k; unfold V3.dot; simp; ring
      rw [this, h2, mul_zero]
    have hx := congrArg V3.x h0
    have hy := congrArg V3.y h0
    have hz := congrArg V3.z h0
    simp only [V3.cross, V3.sub_x, V3.sub_y, V3.sub_z, V3.zero_x, V3.zero_y, V3.zero_z] at hx hy hz
    simp only [V3.dot, V3.cross, V3.sub_x, V3.sub_y, V3.sub_z] at h3 ⊢
    linear_combination h3 - w.x * hx - w.y * hy - w.z * hz
  have hpar : ∀ a, V3.cross (frame.loc - c) u = 0 → V3.cross frame.rot.c3 u = 0 →
      V3.dot (V3.cross (p - c) (paraboloidNormal a a frame p d)) u = 0 := fun a h0 h1 =>
    hrev h0 h1 _ (paraboloidNormal_form a frame p d)
  have hcyl : V3.cross (frame.loc - c) u = 0 → V3.cross frame.rot.c3 u = 0 →
      V3.dot (V3.cross (p - c) (cylinderNormal frame p d)) u = 0 := fun h0 h1 => by
    obtain ⟨k, hk⟩ := cylinderNormal_form frame p d
    exact hrev h0 h1 _ ⟨k, 0, hk⟩
  cases h with
  | flat g frame hg h0 =>
    obtain ⟨k, hk⟩ := flatGeometry_normal hg frame p d
    rw [hk]
    have hx := congrArg V3.x h0
    have hy := congrArg V3.y h0
    have hz := congrArg V3.z h0
    simp only [V3.cross, V3.zero_x, V3.zero_y, V3.zero_z] at hx hy hz
    simp only [V3.dot, V3.cross, V3.sub_x, V3.sub_y, V3.sub_z, V3.smul_x, V3.smul_y, V3.smul_z]
    linear_combination k * ((p.x - c.x) * hx + (p.y - c.y) * hy + (p.z - c.z) * hz)
  | sphere R g frame hg h0 =>
    unfold sphereGM at hg
    split at hg
    · cases hg
    · cases hg; exact hsph h0
  | hemisphere R g frame hg h0 =>
    unfold hemisphereGM at hg
    split at hg
    · cases hg
    · cases hg; exact hsph h0
  | cutSphere R bound g frame hg h0 =>
    unfold cutSphereGM at hg
    split at hg
    · cases hg
    · cases hg; exact hsph h0
  | paraboloid a frame h0 h1 => exact hpar _ h0 h1
  | dish D f frame h0 h1 => exact hpar _ h0 h1
  | hexagonal D f frame h0 h1 => exact hpar _ h0 h1
  | cylinder D frame h0 h1 => exact hcyl h0 h1
  | finiteCylinder D H frame h0 h1 => exact hcyl h0 h1

end Tracer
