import Verif.Model.Lens
import Verif.Spec.Lens
import Verif.Props.CutSphere
import Verif.Props.Spatial
import Mathlib.Topology.Order.IntermediateValue
import Mathlib.Topology.Algebra.Order.Field

/-! # Spherical lenses: shape (C61) -/

set_option linter.unusedSectionVars false

namespace Tracer

open Real

variable {E σ : Type _}

/-! ## Lemmas -/

theorem cut_single {frame : Tf ℝ} (h : frame.Rigid) {R : ℝ} {b : Tf ℝ → V3 ℝ → Bool} {g : Geometry ℝ E}
    (hg : cutSphereGM R (some b) = .ok g) {r : Ray ℝ E} (hu : r.dir.IsUnit) :
    ∃ p, g.find frame [r] = [p] ∧
      FirstAmong (0 < ·) (fun p => Placed frame (sphereSet R) p ∧ b frame p = true) r.vertex r.dir p := by
  obtain ⟨p, hp, hf⟩ := C39_cut_sphere_partial h hg (rays := [r]) (by simpa using hu)
    (fun i j a b hij _ hb => by
      have : j < [r].length := (List.getElem?_eq_some_iff.1 hb).1
      simp at this
      omega) 0 r rfl
  refine ⟨p, ?_, hf⟩
  have hlen : (g.find frame [r]).length = 1 := by
    unfold cutSphereGM at hg
    split at hg
    · simp at hg
    · cases hg
      simp [quadricFind]
  obtain ⟨a, ha⟩ := List.length_eq_one_iff.1 hlen
  rw [ha] at hp ⊢
  simpa using hp

theorem flipSide_eq : flipSide = ⟨⟨1, 0, 0⟩, ⟨0, -1, 0⟩, ⟨0, 0, -1⟩⟩ := by
  unfold flipSide rotx
  simp

theorem flipSide_rotation : flipSide.IsRotation := by
  rw [flipSide_eq, M3.isRotation_iff]
  norm_num [V3.dot, M3.det, V3.cross]

theorem lensSection_rigid (diameter R : ℝ) : (lensSection diameter R).own.Rigid := by
  unfold lensSection
  simp only
  split
  · exact M3.IsRotation.one
  · exact flipSide_rotation

theorem lensBound_iff {frame : Tf ℝ} (h : frame.Rigid) (diameter R : ℝ) (q : V3 ℝ) :
    lensBound diameter R frame (frame.point q) = true ↔
      (0 < R → √(R ^ 2 - diameter ^ 2 / 4) ≤ q.z) ∧ (¬ 0 < R → q.z ≤ -√(R ^ 2 - diameter ^ 2 / 4)) := by
  unfold lensBound BoundaryFrame.planeInBounds
  have hr : ((lensSection diameter R).transformFrame frame).temp = frame * (lensSection diameter R).own := rfl
  rw [hr]
  have hrig := h.mul (lensSection_rigid diameter R)
  rw [if_neg (M3.IsRotation.det_ne hrig)]
  simp only [List.map_cons, List.map_nil, decide_eq_true_eq]
  have e : (frame * (lensSection diameter R).own).inv.point (frame.point q) = (lensSection diameter R).own.inv.point q := by
    have h2 := Tf.point_inv_point (M3.IsRotation.det_ne (lensSection_rigid diameter R)) q
    conv_lhs => rw [← h2, ← Tf.mul_point frame, Tf.inv_point_point (M3.IsRotation.det_ne hrig)]
  rw [e]
  generalize hs : √(R ^ 2 - diameter ^ 2 / 4) = s
  unfold lensSection
  simp only [hs]
  by_cases hR : 0 < R
  · rw [if_pos hR]
    have e2 : ((boundaryPlane ⟨0, 0, s⟩ 1 : BoundaryFrame ℝ).own.inv.point q) = q - ⟨0, 0, s⟩ := by
      have := Tf.inv_point_point (t := (boundaryPlane ⟨0, 0, s⟩ 1 : BoundaryFrame ℝ).own)
        (M3.IsRotation.det_ne M3.IsRotation.one) (q - ⟨0, 0, s⟩)
      rw [← this]
      congr 1
      unfold Tf.point boundaryPlane
      rw [M3.one_mulVec]
      apply V3.ext <;> simp
    rw [e2]
    simp [hR]
  · rw [if_neg hR]
    have e2 : ((boundaryPlane ⟨0, 0, -s⟩ flipSide : BoundaryFrame ℝ).own.inv.point q) = ⟨q.x, -q.y, -(q.z + s)⟩ := by
      have := Tf.inv_point_point (t := (boundaryPlane ⟨0, 0, -s⟩ flipSide : BoundaryFrame ℝ).own)
        (M3.IsRotation.det_ne flipSide_rotation) ⟨q.x, -q.y, -(q.z + s)⟩
      rw [← this]
      congr 1
      unfold Tf.point boundaryPlane
      rw [flipSide_eq]
      apply V3.ext <;> simp
    rw [e2]
    simp only [hR, false_implies, not_false_iff, true_implies, true_and]
    constructor <;> intro h <;> linarith

theorem face_shape {diameter R : ℝ} (hd : 0 ≤ diameter) (hR : R ≠ 0) (hdR : diameter ^ 2 / 4 ≤ R ^ 2) (loc : ℝ) (q : V3 ℝ) :
    (sphereSet |R| q ∧ (0 < R → √(R ^ 2 - diameter ^ 2 / 4) ≤ q.z) ∧ (¬ 0 < R → q.z ≤ -√(R ^ 2 - diameter ^ 2 / 4))) ↔
      lensFaceSet diameter (loc + R) R ⟨q.x, q.y, q.z + loc⟩ := by
  unfold sphereSet lensFaceSet faceHeight
  simp only
  rw [sq_abs]
  have hs := Real.sqrt_nonneg (R ^ 2 - diameter ^ 2 / 4)
  have hs2 := Real.sq_sqrt (show 0 ≤ R ^ 2 - diameter ^ 2 / 4 by linarith)
  by_cases h : 0 < R
  · simp only [h, true_implies, not_true_eq_false, false_implies, and_true, if_true]
    constructor
    · rintro ⟨h1, h2⟩
      have h3 : q.x ^ 2 + q.y ^ 2 ≤ (diameter / 2) ^ 2 := by nlinarith
      refine ⟨h3, ?_⟩
      have : R ^ 2 - (q.x ^ 2 + q.y ^ 2) = q.z ^ 2 := by linarith
      rw [this, Real.sqrt_sq (le_trans hs h2)]
      ring
    · rintro ⟨h1, h2⟩
      have hz : q.z = √(R ^ 2 - (q.x ^ 2 + q.y ^ 2)) := by linarith
      have h0 : 0 ≤ R ^ 2 - (q.x ^ 2 + q.y ^ 2) := by nlinarith
      have hz2 := Real.sq_sqrt h0
      rw [← hz] at hz2
      refine ⟨by linarith, ?_⟩
      rw [hz]
      apply Real.sqrt_le_sqrt
      nlinarith
  · simp only [h, true_implies, not_false_eq_true, false_implies, true_and, if_false]
    constructor
    · rintro ⟨h1, h2⟩
      have h3 : q.x ^ 2 + q.y ^ 2 ≤ (diameter / 2) ^ 2 := by nlinarith
      refine ⟨h3, ?_⟩
      have : R ^ 2 - (q.x ^ 2 + q.y ^ 2) = (-q.z) ^ 2 := by linarith
      rw [this, Real.sqrt_sq (by linarith)]
      ring
    · rintro ⟨h1, h2⟩
      have hz : -q.z = √(R ^ 2 - (q.x ^ 2 + q.y ^ 2)) := by linarith
      have h0 : 0 ≤ R ^ 2 - (q.x ^ 2 + q.y ^ 2) := by nlinarith
      have hz2 := Real.sq_sqrt h0
      rw [← hz] at hz2
      refine ⟨by linarith, ?_⟩
      have : √(R ^ 2 - diameter ^ 2 / 4) ≤ -q.z := by
        rw [hz]
        apply Real.sqrt_le_sqrt
        nlinarith
      linarith

theorem lift_point (T : Tf ℝ) (loc : ℝ) (q : V3 ℝ) :
    (T * (⟨1, ⟨0, 0, loc⟩⟩ : Tf ℝ)).point q = T.point ⟨q.x, q.y, q.z + loc⟩ := by
  rw [Tf.mul_point]
  congr 1
  unfold Tf.point
  rw [M3.one_mulVec]
  apply V3.ext <;> simp

theorem lift_rigid {T : Tf ℝ} (h : T.Rigid) (loc : ℝ) : (T * (⟨1, ⟨0, 0, loc⟩⟩ : Tf ℝ)).Rigid :=
  h.mul M3.IsRotation.one

/-- A located lens face lies where it should. -/
theorem face_find {T : Tf ℝ} (h : T.Rigid) {diameter R loc : ℝ} (hd : 0 ≤ diameter) (hR : R ≠ 0)
    (hdR : diameter ^ 2 / 4 ≤ R ^ 2) {g : Geometry ℝ E} (hg : cutSphereGM |R| (some (lensBound diameter R)) = .ok g)
    {r : Ray ℝ E} (hu : r.dir.IsUnit) :
    ∃ p, g.find (T * ⟨1, ⟨0, 0, loc⟩⟩) [r] = [p] ∧
      FirstAmong (0 < ·) (Placed T (lensFaceSet diameter (loc + R) R)) r.vertex r.dir p := by
  obtain ⟨p, hp, hf⟩ := cut_single (lift_rigid h loc) hg hu
  refine ⟨p, hp, ?_⟩
  have hS : (fun p => Placed (T * ⟨1, ⟨0, 0, loc⟩⟩) (sphereSet |R|) p ∧
      lensBound diameter R (T * ⟨1, ⟨0, 0, loc⟩⟩) p = true) = Placed T (lensFaceSet diameter (loc + R) R) := by
    funext p
    apply propext
    constructor
    · rintro ⟨⟨q, hq, rfl⟩, hb⟩
      rw [lensBound_iff (lift_rigid h loc)] at hb
      exact ⟨_, (face_shape hd hR hdR loc q).1 ⟨hq, hb⟩, lift_point T loc q⟩
    · rintro ⟨q, hq, rfl⟩
      have e : T.point q = (T * (⟨1, ⟨0, 0, loc⟩⟩ : Tf ℝ)).point ⟨q.x, q.y, q.z - loc⟩ := by
        rw [lift_point]; congr 1; apply V3.ext <;> simp
      have := (face_shape hd hR hdR loc ⟨q.x, q.y, q.z - loc⟩).2 (by simpa using hq)
      refine ⟨⟨_, this.1, e⟩, ?_⟩
      rw [e, lensBound_iff (lift_rigid h loc)]
      exact this.2
  rw [← hS]
  exact hf

theorem lensFace_ok {diameter R n : ℝ} (hR : R ≠ 0) (hdR : diameter ^ 2 / 4 ≤ R ^ 2) :
    ∃ g : Geometry ℝ E, cutSphereGM |R| (some (lensBound diameter R)) = .ok g ∧
      lensFace (σ := σ) diameter R n = .ok (Surface.new g (refractiveHomogenous 1 n) 1) := by
  have : ∃ g : Geometry ℝ E, cutSphereGM |R| (some (lensBound diameter R)) = .ok g := by
    unfold cutSphereGM setRadius
    rw [if_neg (not_le.2 (abs_pos.2 hR))]
    exact ⟨_, rfl⟩
  obtain ⟨g, hg⟩ := this
  refine ⟨g, hg, ?_⟩
  unfold lensFace
  rw [if_neg (not_lt.2 hdR), hg]

theorem section_z (diameter R : ℝ) : (lensSection diameter R).own.loc.z =
    if 0 < R then √(R ^ 2 - diameter ^ 2 / 4) else -√(R ^ 2 - diameter ^ 2 / 4) := by
  unfold lensSection
  simp only
  split <;> rfl

theorem section_height (diameter R apex : ℝ) :
    apex - R + (lensSection diameter R).own.loc.z = faceHeight apex R ((diameter / 2) ^ 2) := by
  rw [section_z]
  unfold faceHeight
  rw [show (diameter / 2) ^ 2 = diameter ^ 2 / 4 by ring]
  split <;> ring

theorem faceHeight_continuous (apex R : ℝ) : Continuous (faceHeight apex R) := by
  unfold faceHeight
  split
  · exact continuous_const.add (Real.continuous_sqrt.comp (continuous_const.sub continuous_id))
  · exact continuous_const.sub (Real.continuous_sqrt.comp (continuous_const.sub continuous_id))

theorem faceHeight_bound (apex R : ℝ) {rr : ℝ} (h : 0 ≤ rr) : |faceHeight apex R rr| ≤ |apex| + 2 * |R| := by
  have h1 : √(R ^ 2 - rr) ≤ |R| := by
    rw [← Real.sqrt_sq_eq_abs]
    exact Real.sqrt_le_sqrt (by linarith)
  have h0 := Real.sqrt_nonneg (R ^ 2 - rr)
  have ha := abs_le.1 (le_refl |apex|)
  have hR := abs_le.1 (le_refl |R|)
  unfold faceHeight
  rw [abs_le]
  split <;> constructor <;> linarith [ha.1, ha.2, hR.1, hR.2]

theorem faceHeight_zero (apex : ℝ) {R : ℝ} : faceHeight apex R 0 = apex := by
  unfold faceHeight
  rw [sub_zero, Real.sqrt_sq_eq_abs]
  split
  · rename_i h; rw [abs_of_pos h]; ring
  · rename_i h; rw [abs_of_nonpos (not_lt.1 h)]; ring

/-- A straight line that starts inside a lens leaves it, through a face or through the side. -/
theorem lens_exit {diameter M : ℝ} {lo hi : ℝ → ℝ} (hlo : Continuous lo) (hhi : Continuous hi)
    (blo : ∀ rr, 0 ≤ rr → |lo rr| ≤ M) (bhi : ∀ rr, 0 ≤ rr → |hi rr| ≤ M) {q e : V3 ℝ} (he : e.IsUnit)
    (hq : lensInside diameter lo hi q) :
    ∃ t : ℝ, 0 < t ∧ ∃ p : V3 ℝ, p = q + t • e ∧ p.x ^ 2 + p.y ^ 2 ≤ (diameter / 2) ^ 2 ∧
      lo (p.x ^ 2 + p.y ^ 2) ≤ p.z ∧ p.z ≤ hi (p.x ^ 2 + p.y ^ 2) ∧
      (p.x ^ 2 + p.y ^ 2 = (diameter / 2) ^ 2 ∨ p.z = lo (p.x ^ 2 + p.y ^ 2) ∨ p.z = hi (p.x ^ 2 + p.y ^ 2)) := by
  let X : ℝ → ℝ := fun t => q.x + t * e.x
  let Y : ℝ → ℝ := fun t => q.y + t * e.y
  let Z : ℝ → ℝ := fun t => q.z + t * e.z
  have cX : Continuous X := by fun_prop
  have cY : Continuous Y := by fun_prop
  have cZ : Continuous Z := by fun_prop
  let rr : ℝ → ℝ := fun t => X t ^ 2 + Y t ^ 2
  have crr : Continuous rr := by fun_prop
  let g : ℝ → ℝ := fun t => min ((diameter / 2) ^ 2 - rr t) (min (Z t - lo (rr t)) (hi (rr t) - Z t))
  have cg : Continuous g :=
    (continuous_const.sub crr).min ((cZ.sub (hlo.comp crr)).min ((hhi.comp crr).sub cZ))
  obtain ⟨h1, h2, h3⟩ := hq
  have g0 : 0 < g 0 := by
    have e1 : rr 0 = q.x ^ 2 + q.y ^ 2 := by simp [rr, X, Y]
    have e2 : Z 0 = q.z := by simp [Z]
    simp only [g, e1, e2]
    exact lt_min (by linarith) (lt_min (by linarith) (by linarith))
  have hM : 0 ≤ M := le_trans (abs_nonneg _) (blo 0 (le_refl _))
  have hunit : e.x ^ 2 + e.y ^ 2 + e.z ^ 2 = 1 := by
    have := he
    unfold V3.IsUnit V3.dot at this
    nlinarith
  let a := |q.x * e.x + q.y * e.y + q.z * e.z|
  let t1 := 2 * a + 1 + (M ^ 2 + (diameter / 2) ^ 2)
  have ha : 0 ≤ a := abs_nonneg _
  have hB : 0 ≤ M ^ 2 + (diameter / 2) ^ 2 := by positivity
  have ht1 : 1 ≤ t1 := by simp only [t1]; linarith
  have g1 : g t1 < 0 := by
    by_contra hneg
    rw [not_lt] at hneg
    have hA := le_min_iff.1 hneg
    have hBB := le_min_iff.1 hA.2
    have hrr : 0 ≤ rr t1 := by simp only [rr]; positivity
    have hz1 := abs_le.1 (blo _ hrr)
    have hz2 := abs_le.1 (bhi _ hrr)
    have hz : Z t1 ^ 2 ≤ M ^ 2 := by
      apply sq_le_sq'
      · linarith [hBB.1]
      · linarith [hBB.2]
    have hr : rr t1 ≤ (diameter / 2) ^ 2 := by linarith [hA.1]
    have hexp : rr t1 + Z t1 ^ 2 = (q.x ^ 2 + q.y ^ 2 + q.z ^ 2) + 2 * t1 * (q.x * e.x + q.y * e.y + q.z * e.z) + t1 ^ 2 := by
      simp only [rr, X, Y, Z]
      linear_combination t1 ^ 2 * hunit
    have hneg' : -a ≤ q.x * e.x + q.y * e.y + q.z * e.z := neg_abs_le _
    have : t1 * (t1 - 2 * a) ≤ rr t1 + Z t1 ^ 2 := by
      rw [hexp]
      have h7 := mul_le_mul_of_nonneg_left hneg' (show 0 ≤ 2 * t1 by linarith)
      have h8 : t1 * (t1 - 2 * a) = 2 * t1 * -a + t1 ^ 2 := by ring
      rw [h8]
      linarith [sq_nonneg q.x, sq_nonneg q.y, sq_nonneg q.z]
    have h5 : t1 - 2 * a = 1 + (M ^ 2 + (diameter / 2) ^ 2) := by simp only [t1]; ring
    rw [h5] at this
    have h6 := mul_le_mul_of_nonneg_right ht1 (show 0 ≤ 1 + (M ^ 2 + (diameter / 2) ^ 2) by linarith)
    linarith
  have hiv := intermediate_value_Icc' (f := g) (a := 0) (b := t1) (by linarith) cg.continuousOn
  obtain ⟨t, ht, hgt⟩ := hiv ⟨g1.le, g0.le⟩
  have htpos : 0 < t := by
    rcases ht.1.lt_or_eq with h | h
    · exact h
    · rw [← h] at hgt; linarith
  have hge : 0 ≤ g t := hgt.ge
  have hA := le_min_iff.1 hge
  have hBB := le_min_iff.1 hA.2
  refine ⟨t, htpos, ⟨X t, Y t, Z t⟩, by apply V3.ext <;> simp [X, Y, Z], ?_, ?_, ?_, ?_⟩
  · show rr t ≤ _
    linarith [hA.1]
  · show lo (rr t) ≤ Z t
    linarith [hBB.1]
  · show Z t ≤ hi (rr t)
    linarith [hBB.2]
  · show rr t = _ ∨ Z t = lo (rr t) ∨ Z t = hi (rr t)
    simp only [g] at hgt
    rcases min_choice ((diameter / 2) ^ 2 - rr t) (min (Z t - lo (rr t)) (hi (rr t) - Z t)) with h | h
    · rw [h] at hgt; left; linarith
    · rw [h] at hgt
      rcases min_choice (Z t - lo (rr t)) (hi (rr t) - Z t) with h' | h'
      · rw [h'] at hgt; right; left; linarith
      · rw [h'] at hgt; right; right; linarith

theorem stops_of_liesOn {s : SceneSurf σ ℝ E} {S : V3 ℝ → Prop} {r : Ray ℝ E} (h : s.LiesOn S r) {t : ℝ} (ht : 0 < t)
    (hS : S (r.vertex + t • r.dir)) : s.Stops r := by
  obtain ⟨p, hp, hf⟩ := h
  cases p with
  | top => exact absurd hS (hf t ht)
  | coe u => exact ⟨u, le_of_lt hf.1, hp⟩

theorem sq_of_abs {diameter R : ℝ} (hd : 0 < diameter) (h : diameter ≤ 2 * |R|) : diameter ^ 2 / 4 ≤ R ^ 2 := by
  have : diameter ^ 2 ≤ (2 * |R|) ^ 2 := pow_le_pow_left₀ hd.le h 2
  rw [mul_pow, sq_abs] at this
  linarith

theorem lens_surfs (surfs : List (SceneSurf σ ℝ E)) (T : Tf ℝ) (d : Policies ℝ E) :
    (ObjNode.new surfs T d).surfs = surfs.map fun s => ⟨s.own, T * s.own, s.data⟩ := by
  unfold ObjNode.new ObjNode.transformChildren SurfNode.transformFrame
  simp only [Tf.one_mul']

theorem face_normal {T : Tf ℝ} (h : T.Rigid) {diameter R loc : ℝ} (hd : 0 ≤ diameter) (hR : R ≠ 0)
    (hdR : diameter ^ 2 / 4 ≤ R ^ 2) {p d : V3 ℝ} (hp : Placed T (lensFaceSet diameter (loc + R) R) p) :
    ∃ c : ℝ, (c = 1 / R ∨ c = -(1 / R)) ∧
      sphereNormal (T * ⟨1, ⟨0, 0, loc⟩⟩) p d = c • (p - T.point ⟨0, 0, loc⟩) ∧
      V3.dot d (sphereNormal (T * ⟨1, ⟨0, 0, loc⟩⟩) p d) ≤ 0 := by
  obtain ⟨q, hq, rfl⟩ := hp
  have hs := ((face_shape hd hR hdR loc ⟨q.x, q.y, q.z - loc⟩).2 (by simpa using hq)).1
  unfold sphereSet at hs
  simp only [sq_abs] at hs
  have hloc : (T * (⟨1, ⟨0, 0, loc⟩⟩ : Tf ℝ)).loc = T.point ⟨0, 0, loc⟩ := rfl
  have hdist : V3.dist2 (T.point q) (T.point ⟨0, 0, loc⟩) = R ^ 2 := by
    rw [Tf.Rigid.dist h]
    unfold V3.dist2 V3.dot
    simp only [V3.sub_x, V3.sub_y, V3.sub_z, sub_zero]
    linarith
  unfold sphereNormal
  simp only [hloc]
  generalize T.point ⟨0, 0, loc⟩ = c at hdist
  generalize T.point q = u at hdist
  unfold V3.dist2 V3.dot at hdist
  simp only [V3.sub_x, V3.sub_y, V3.sub_z] at hdist
  have hsq : ∀ e : ℝ, e ^ 2 = 1 → √((e • (u - c)).x ^ 2 + (e • (u - c)).y ^ 2 + (e • (u - c)).z ^ 2) = |R| := by
    intro e he
    rw [← Real.sqrt_sq_eq_abs]
    congr 1
    simp only [V3.smul_x, V3.smul_y, V3.smul_z, V3.sub_x, V3.sub_y, V3.sub_z]
    linear_combination R ^ 2 * he + e ^ 2 * hdist
  have hsign : 1 / |R| = 1 / R ∨ 1 / |R| = -(1 / R) := by
    rcases abs_choice R with h | h
    · left; rw [h]
    · right; rw [h, one_div_neg_eq_neg_one_div]
  have hpos : 0 ≤ 1 / |R| := by positivity
  split
  · rename_i hside
    refine ⟨-(1 / |R|), ?_, ?_, ?_⟩
    · rcases hsign with h | h
      · right; rw [h]
      · left; rw [h]; ring
    · rw [hsq _ (by norm_num)]
      apply V3.ext <;> simp <;> ring
    · rw [hsq _ (by norm_num)]
      simp only [V3.dot, V3.smul_x, V3.smul_y, V3.smul_z, V3.sub_x, V3.sub_y, V3.sub_z] at hside ⊢
      nlinarith
  · rename_i hside
    refine ⟨1 / |R|, hsign, ?_, ?_⟩
    · have := hsq 1 (by norm_num)
      rw [show (1 : ℝ) • (u - c) = u - c by apply V3.ext <;> simp] at this
      rw [this]
    · have := hsq 1 (by norm_num)
      rw [show (1 : ℝ) • (u - c) = u - c by apply V3.ext <;> simp] at this
      rw [this]
      simp only [V3.dot, V3.smul_x, V3.smul_y, V3.smul_z, V3.sub_x, V3.sub_y, V3.sub_z] at hside ⊢
      nlinarith

theorem face_isLensFace {T : Tf ℝ} (h : T.Rigid) {diameter R n loc : ℝ} (hd : 0 < diameter) (hR : R ≠ 0)
    (hdR : diameter ^ 2 / 4 ≤ R ^ 2) {g : Geometry ℝ E} (hg : cutSphereGM |R| (some (lensBound diameter R)) = .ok g)
    (own : Tf ℝ) :
    SurfNode.IsLensFace (σ := σ) ⟨own, T * ⟨1, ⟨0, 0, loc⟩⟩, (g, refractiveHomogenous 1 n)⟩ T diameter n (loc + R) R :=
  ⟨fun _ hu => face_find h hd.le hR hdR hg hu, rfl, fun p d hp => by
    have hgn : g.normal = sphereNormal := by
      unfold cutSphereGM at hg
      split at hg
      · simp at hg
      · cases hg; rfl
    show ∃ c : ℝ, (c = 1 / R ∨ c = -(1 / R)) ∧ g.normal (T * ⟨1, ⟨0, 0, loc⟩⟩) p d = _ ∧ V3.dot d (g.normal (T * ⟨1, ⟨0, 0, loc⟩⟩) p d) ≤ 0
    rw [hgn, show loc + R - R = loc by ring]
    exact face_normal h hd.le hR hdR hp⟩

theorem wall_liesOn {T : Tf ℝ} (h : T.Rigid) {diameter n lo hi mid height : ℝ} (hm : mid = (lo + hi) / 2)
    (hh : height = hi - lo) (own : Tf ℝ) {r : Ray ℝ E} (hA : 1 / 10 ^ 10 < offAxis T r.dir) :
    SurfNode.LiesOn (σ := σ) ⟨own, T * ⟨1, ⟨0, 0, mid⟩⟩, (finiteCylinderGM diameter height, refractiveHomogenous n 1)⟩
      (Placed T (lensWallSet diameter lo hi)) r := by
  have hr := lift_rigid h mid
  have hrot : (T * (⟨1, ⟨0, 0, mid⟩⟩ : Tf ℝ)).rot = T.rot := M3.mul_one' _
  obtain ⟨p, hp, hf, _⟩ := C35_finite_cylinder hr diameter height [r] 0 r rfl
  have hoff : offAxis (T * (⟨1, ⟨0, 0, mid⟩⟩ : Tf ℝ)) r.dir = offAxis T r.dir := by unfold offAxis; rw [hrot]
  have hf := hf (by rw [hoff]; exact hA)
  have hS : Placed (T * ⟨1, ⟨0, 0, mid⟩⟩) (finiteCylinderSet (diameter / 2) height) = Placed T (lensWallSet diameter lo hi) := by
    funext p
    apply propext
    constructor
    · rintro ⟨q, ⟨h1, h2⟩, rfl⟩
      rw [abs_le] at h2
      exact ⟨⟨q.x, q.y, q.z + mid⟩, ⟨h1, by simp only; linarith, by simp only; linarith⟩, lift_point T mid q⟩
    · rintro ⟨q, ⟨h1, h2, h3⟩, rfl⟩
      refine ⟨⟨q.x, q.y, q.z - mid⟩, ⟨h1, abs_le.2 ⟨by simp only; linarith, by simp only; linarith⟩⟩, ?_⟩
      rw [lift_point]; congr 1; apply V3.ext <;> simp
  rw [hS] at hf
  refine ⟨p, ?_, hf⟩
  have hlen : ((finiteCylinderGM diameter height : Geometry ℝ E).find (T * ⟨1, ⟨0, 0, mid⟩⟩) [r]).length = 1 := by
    simp [finiteCylinderGM, quadricFind]
  obtain ⟨a, ha⟩ := List.length_eq_one_iff.1 hlen
  rw [ha] at hp
  show (finiteCylinderGM diameter height : Geometry ℝ E).find (T * ⟨1, ⟨0, 0, mid⟩⟩) [r] = [p]
  rw [ha]
  simpa using hp

theorem offAxis_zero {T : Tf ℝ} (h : T.Rigid) {d : V3 ℝ} (h0 : offAxis T d = 0) :
    (T.inv.dir d).x = 0 ∧ (T.inv.dir d).y = 0 := by
  have := local_sq h d
  rw [localDir_eq h, h0] at this
  constructor <;> nlinarith [sq_nonneg (T.inv.dir d).x, sq_nonneg (T.inv.dir d).y]

theorem lens_curved {T : Tf ℝ} (hT : T.Rigid) {diameter depth R1 R2 n : ℝ} (hd : 0 < diameter) (hR1 : R1 ≠ 0) (hR2 : R2 ≠ 0)
    (h1 : diameter ≤ 2 * |R1|) (h2 : diameter ≤ 2 * |R2|) (hn : n ≠ 0)
    (hpow : (n - 1) * (1 / R1 - 1 / R2 + (n - 1) * depth / (n * R1 * R2)) ≠ 0) :
    ∃ (o : SceneObj σ ℝ E) (f apex : ℝ) (front back : SceneSurf σ ℝ E) (wall : List (SceneSurf σ ℝ E)),
      sphericalLens diameter depth (some R1) (some R2) n T = .ok (o, f) ∧
      (f = 1 / ((n - 1) * (1 / R1 - 1 / R2 + (n - 1) * depth / (n * R1 * R2))) ∧ apex = f * depth * (n - 1) / (n * R1)) ∧
      o.surfs = front :: back :: wall ∧
      front.IsLensFace T diameter n (apex + depth) R1 ∧ back.IsLensFace T diameter n apex R2 ∧
      IsLensWall wall T diameter n (faceHeight apex R2 ((diameter / 2) ^ 2)) (faceHeight (apex + depth) R1 ((diameter / 2) ^ 2)) := by
  have h1' := sq_of_abs hd h1
  have h2' := sq_of_abs hd h2
  obtain ⟨g1, hg1, hf1⟩ := lensFace_ok (E := E) (σ := σ) (n := n) hR1 h1'
  obtain ⟨g2, hg2, hf2⟩ := lensFace_ok (E := E) (σ := σ) (n := n) hR2 h2'
  have hp : lensPower depth n R1 (some R2) = (n - 1) * (1 / R1 - 1 / R2 + (n - 1) * depth / (n * R1 * R2)) := by
    unfold lensPower; field_simp
  rw [← hp] at hpow
  have c1 : curvedRadius (some R1) = some R1 := if_neg hR1
  have c2 : curvedRadius (some R2) = some R2 := if_neg hR2
  have hz : ¬ (n = 0 ∨ lensPower depth n R1 (some R2) = 0) := by simp [hn, hpow]
  generalize hpd : 1 / lensPower depth n R1 (some R2) * depth * (n - 1) / n / R1 = pd
  have hs1 := section_height diameter R1 (pd + depth)
  have hs2 := section_height diameter R2 pd
  generalize hlo : faceHeight pd R2 ((diameter / 2) ^ 2) = lo at hs2
  generalize hhi : faceHeight (pd + depth) R1 ((diameter / 2) ^ 2) = hi at hs1
  have hok : sphericalLens (σ := σ) (E := E) diameter depth (some R1) (some R2) n T = .ok
      (let front : SceneSurf σ ℝ E := ⟨⟨1, ⟨0, 0, pd + depth - R1⟩⟩, ⟨1, ⟨0, 0, pd + depth - R1⟩⟩, (g1, refractiveHomogenous 1 n)⟩
       let back : SceneSurf σ ℝ E := ⟨⟨1, ⟨0, 0, pd - R2⟩⟩, ⟨1, ⟨0, 0, pd - R2⟩⟩, (g2, refractiveHomogenous 1 n)⟩
       let surfs := if 0 < 0 - lo + hi then
         [front, back, Surface.new (finiteCylinderGM diameter (0 - lo + hi)) (refractiveHomogenous n 1) ⟨1, ⟨0, 0, 0 + lo / 2 + hi / 2⟩⟩]
         else [front, back]
       (ObjNode.new surfs T (Obj.defaultOwn, Obj.defaultNext surfs.length), 1 / lensPower depth n R1 (some R2))) := by
    unfold sphericalLens lensFront lensBack
    simp only [c1, c2, hf1, hf2, Option.map_some, if_neg hz, hpd, hs1, hs2]
    rfl
  simp only at hok
  have ef : pd + depth - R1 + R1 = pd + depth := by ring
  have eb : pd - R2 + R2 = pd := by ring
  have F := face_isLensFace (σ := σ) hT (n := n) (loc := pd + depth - R1) hd hR1 h1' hg1 ⟨1, ⟨0, 0, pd + depth - R1⟩⟩
  have B := face_isLensFace (σ := σ) hT (n := n) (loc := pd - R2) hd hR2 h2' hg2 ⟨1, ⟨0, 0, pd - R2⟩⟩
  rw [ef] at F
  rw [eb] at B
  by_cases hgap : 0 < 0 - lo + hi
  · simp only [if_pos hgap] at hok
    refine ⟨_, _, pd, _, _, _, hok, ⟨by rw [hp], by rw [← hpd, div_div]⟩, lens_surfs _ _ _, F, B, ?_, ?_⟩
    · intro _
      refine ⟨_, rfl, rfl, fun r hr => ?_⟩
      rw [hlo, hhi]
      exact wall_liesOn hT (by ring) (by ring) _ hr
    · intro h
      rw [hlo, hhi] at h
      linarith
  · simp only [if_neg hgap] at hok
    refine ⟨_, _, pd, _, _, _, hok, ⟨by rw [hp], by rw [← hpd, div_div]⟩, lens_surfs _ _ _, F, B, ?_, ?_⟩
    · intro h
      rw [hlo, hhi] at h
      exact absurd (by linarith) hgap
    · intro _; rfl

/-! ## C61 -/

/-- C61, in part.  For two curved faces no smaller than the aperture: the apexes of the faces are `depth`
apart, the faces reach to the circles of the given diameter, and a cylinder closes the gap between these.
Missing: planar faces, for which the claim is false (`C61_planar_front`, `C61_planar_back`). -/
theorem C61_partial {T : Tf ℝ} (hT : T.Rigid) {diameter depth R1 R2 n : ℝ} (hd : 0 < diameter) (hR1 : R1 ≠ 0) (hR2 : R2 ≠ 0)
    (h1 : diameter ≤ 2 * |R1|) (h2 : diameter ≤ 2 * |R2|) (hn : n ≠ 0)
    (hpow : (n - 1) * (1 / R1 - 1 / R2 + (n - 1) * depth / (n * R1 * R2)) ≠ 0) :
    ∃ (o : SceneObj σ ℝ E) (f apex : ℝ) (front back : SceneSurf σ ℝ E) (wall : List (SceneSurf σ ℝ E)),
      sphericalLens diameter depth (some R1) (some R2) n T = .ok (o, f) ∧
      o.surfs = front :: back :: wall ∧
      front.IsLensFace T diameter n (apex + depth) R1 ∧ back.IsLensFace T diameter n apex R2 ∧
      IsLensWall wall T diameter n (faceHeight apex R2 ((diameter / 2) ^ 2)) (faceHeight (apex + depth) R1 ((diameter / 2) ^ 2)) := by
  obtain ⟨o, f, apex, front, back, wall, hok, _, hs, hf, hb, hw⟩ := lens_curved (σ := σ) (E := E) hT hd hR1 hR2 h1 h2 hn hpow
  exact ⟨o, f, apex, front, back, wall, hok, hs, hf, hb, hw⟩

/-- C61: such a lens is closed.  A ray that starts between its faces is stopped by one of its surfaces.
Rays nearly parallel to the axis are left out, because the cylinder misses them (C35). -/
theorem C61_closed {T : Tf ℝ} (hT : T.Rigid) {diameter n a1 a2 R1 R2 : ℝ} {o : SceneObj σ ℝ E}
    {front back : SceneSurf σ ℝ E} {wall : List (SceneSurf σ ℝ E)} (ho : o.surfs = front :: back :: wall)
    (hf : front.IsLensFace T diameter n a1 R1) (hb : back.IsLensFace T diameter n a2 R2)
    (hw : IsLensWall wall T diameter n (faceHeight a2 R2 ((diameter / 2) ^ 2)) (faceHeight a1 R1 ((diameter / 2) ^ 2)))
    {r : Ray ℝ E} (hu : r.dir.IsUnit) (hax : offAxis T r.dir = 0 ∨ 1 / 10 ^ 10 < offAxis T r.dir)
    (hin : Placed T (lensInside diameter (faceHeight a2 R2) (faceHeight a1 R1)) r.vertex) :
    ∃ s ∈ o.surfs, s.Stops r := by
  have hdet := M3.IsRotation.det_ne hT
  obtain ⟨q, hq, hv⟩ := hin
  have hue : (T.inv.dir r.dir).IsUnit := M3.IsRotation.unit_inv hT hu
  obtain ⟨t, ht, p, hp, hr, hlo, hhi, hc⟩ := lens_exit
    (M := |a1| + 2 * |R1| + (|a2| + 2 * |R2|))
    (faceHeight_continuous a2 R2) (faceHeight_continuous a1 R1)
    (fun rr h => by
      have := faceHeight_bound a2 R2 h
      linarith [abs_nonneg a1, abs_nonneg R1])
    (fun rr h => by
      have := faceHeight_bound a1 R1 h
      linarith [abs_nonneg a2, abs_nonneg R2]) hue hq
  have hpt : r.vertex + t • r.dir = T.point p := by
    rw [hp, Tf.point_add_smul, hv]
    congr 2
    exact (M3.mulVec_inv_mulVec hdet r.dir).symm
  have onF : p.z = faceHeight a1 R1 (p.x ^ 2 + p.y ^ 2) → ∃ s ∈ o.surfs, s.Stops r := fun h =>
    ⟨front, by simp [ho], stops_of_liesOn (hf.lies r hu) ht ⟨p, ⟨hr, h⟩, hpt⟩⟩
  rcases hc with h | h | h
  · rw [h] at hlo hhi
    rcases (le_trans hlo hhi).lt_or_eq with hlt | heq
    · obtain ⟨s, rfl, _, hs⟩ := hw.gap hlt
      refine ⟨s, by simp [ho], stops_of_liesOn (hs r ?_) ht ⟨p, ⟨h, hlo, hhi⟩, hpt⟩⟩
      rcases hax with h0 | h0
      · exfalso
        obtain ⟨hx, hy⟩ := offAxis_zero hT h0
        have h3 := hq.1
        rw [hp] at h
        simp [hx, hy] at h
        linarith
      · exact h0
    · apply onF
      rw [h]
      linarith
  · exact ⟨back, by simp [ho], stops_of_liesOn (hb.lies r hu) ht ⟨p, ⟨hr, h⟩, hpt⟩⟩
  · exact onF h

theorem axis_at {T : Tf ℝ} (z t : ℝ) : T.point ⟨0, 0, z⟩ + t • T.dir ⟨0, 0, -1⟩ = T.point ⟨0, 0, z - t⟩ := by
  rw [← Tf.point_add_smul]
  congr 1
  apply V3.ext <;> simp
  ring

/-- C61: a ray coming down the axis from above meets a face at its apex.  So the apexes of the faces of
`C61_partial` are `depth` apart. -/
theorem C61_apex {T : Tf ℝ} (hT : T.Rigid) {diameter n apex R : ℝ} {s : SceneSurf σ ℝ E}
    (hs : s.IsLensFace T diameter n apex R) {z : ℝ} (hz : apex < z) {r : Ray ℝ E} (hv : r.vertex = T.point ⟨0, 0, z⟩)
    (hd : r.dir = T.dir ⟨0, 0, -1⟩) : s.surf.register [r] = [((z - apex : ℝ) : WithTop ℝ)] := by
  have hdet := M3.IsRotation.det_ne hT
  have hu : r.dir.IsUnit := by
    rw [hd]
    apply M3.IsRotation.unit hT
    unfold V3.IsUnit V3.dot
    norm_num
  obtain ⟨p, hp, hf⟩ := hs.lies r hu
  have hat : ∀ t : ℝ, Placed T (lensFaceSet diameter apex R) (r.vertex + t • r.dir) ↔ t = z - apex := by
    intro t
    rw [hv, hd, axis_at, placed_iff hdet, Tf.inv_point_point hdet]
    unfold lensFaceSet
    simp only [ne_eq, OfNat.ofNat_ne_zero, not_false_eq_true, zero_pow, add_zero, faceHeight_zero]
    constructor
    · rintro ⟨_, h⟩; linarith
    · rintro rfl; exact ⟨by positivity, by ring⟩
  rw [hp]
  cases p with
  | top => exact absurd ((hat _).2 rfl) (hf (z - apex) (by linarith))
  | coe t =>
    have := (hat t).1 hf.2.1
    rw [this]

/-- C61 fails for a planar front: there is no such lens. -/
theorem C61_planar_front {diameter depth n : ℝ} (hd : 0 < diameter) {R1 : Option ℝ} (h1 : R1 = none ∨ R1 = some 0)
    (R2 : Option ℝ) (T : Tf ℝ) :
    sphericalLens (σ := σ) (E := E) diameter depth R1 R2 n T = .error .name := by
  have c : curvedRadius R1 = none := by
    rcases h1 with rfl | rfl
    · rfl
    · exact if_pos rfl
  have hr : ∃ g : Geometry ℝ E, roundPlateGM (diameter / 2) = .ok g := by
    unfold roundPlateGM
    rw [if_neg (by linarith)]
    exact ⟨_, rfl⟩
  obtain ⟨g, hg⟩ := hr
  unfold sphericalLens lensFront
  simp only [c, hg]

theorem flip_disk (T : Tf ℝ) (R : ℝ) : Placed (T * ⟨flipSide, 0⟩) (diskXY R) = Placed T (diskXY R) := by
  have e : ∀ q : V3 ℝ, (T * (⟨flipSide, 0⟩ : Tf ℝ)).point q = T.point ⟨q.x, -q.y, -q.z⟩ := by
    intro q
    rw [Tf.mul_point]
    congr 1
    unfold Tf.point
    rw [flipSide_eq]
    apply V3.ext <;> simp
  funext p
  apply propext
  constructor
  · rintro ⟨q, ⟨h1, h2⟩, rfl⟩
    exact ⟨⟨q.x, -q.y, -q.z⟩, ⟨by simp [h1], by simpa using h2⟩, e q⟩
  · rintro ⟨q, ⟨h1, h2⟩, rfl⟩
    refine ⟨⟨q.x, -q.y, -q.z⟩, ⟨by simp [h1], by simpa using h2⟩, ?_⟩
    rw [e]
    simp

/-- C61 for a planar back: the lens is closed, but the back face stays in the plane Z = 0 while the apex of the front
is at `depth + depth/n`. -/
theorem C61_planar_back {T : Tf ℝ} (hT : T.Rigid) {diameter depth R1 n : ℝ} (hd : 0 < diameter) (hR1 : R1 ≠ 0)
    (h1 : diameter ≤ 2 * |R1|) (hn : n ≠ 0) (hn1 : n ≠ 1) {R2 : Option ℝ} (h2 : R2 = none ∨ R2 = some 0) :
    ∃ (o : SceneObj σ ℝ E) (front back : SceneSurf σ ℝ E) (wall : List (SceneSurf σ ℝ E)),
      sphericalLens diameter depth (some R1) R2 n T = .ok (o, R1 / (n - 1)) ∧
      o.surfs = front :: back :: wall ∧
      front.IsLensFace T diameter n (depth + depth / n) R1 ∧
      (back.data.2 = refractiveHomogenous 1 n ∧ ∀ r : Ray ℝ E, 1 / 10 ^ 10 < |V3.dot r.dir T.rot.c3| →
        ∃ p, back.surf.register [r] = [p] ∧ FirstAmong (0 ≤ ·) (Placed T (diskXY (diameter / 2))) r.vertex r.dir p) ∧
      IsLensWall wall T diameter n 0 (faceHeight (depth + depth / n) R1 ((diameter / 2) ^ 2)) := by
  have h1' := sq_of_abs hd h1
  obtain ⟨g1, hg1, hf1⟩ := lensFace_ok (E := E) (σ := σ) (n := n) hR1 h1'
  have hr : ∃ g : Geometry ℝ E, roundPlateGM (diameter / 2) = .ok g := by
    unfold roundPlateGM
    rw [if_neg (by linarith)]
    exact ⟨_, rfl⟩
  obtain ⟨g, hg⟩ := hr
  have hn1' : n - 1 ≠ 0 := sub_ne_zero.2 hn1
  have hp : lensPower depth n R1 none = (n - 1) / R1 := by unfold lensPower; field_simp
  have c1 : curvedRadius (some R1) = some R1 := if_neg hR1
  have c2 : curvedRadius R2 = none := by
    rcases h2 with rfl | rfl
    · rfl
    · exact if_pos rfl
  have hz : ¬ (n = 0 ∨ lensPower depth n R1 none = 0) := by
    rw [hp]
    simp [hn, hn1', hR1]
  have hf : 1 / lensPower depth n R1 none = R1 / (n - 1) := by rw [hp]; field_simp
  have hpd : R1 / (n - 1) * depth * (n - 1) / n / R1 = depth / n := by field_simp
  have hs1 := section_height diameter R1 (depth / n + depth)
  have hcomm : depth / n + depth = depth + depth / n := by ring
  generalize hhi : faceHeight (depth / n + depth) R1 ((diameter / 2) ^ 2) = hi at hs1
  have hok : sphericalLens (σ := σ) (E := E) diameter depth (some R1) R2 n T = .ok
      (let front : SceneSurf σ ℝ E := ⟨⟨1, ⟨0, 0, depth / n + depth - R1⟩⟩, ⟨1, ⟨0, 0, depth / n + depth - R1⟩⟩, (g1, refractiveHomogenous 1 n)⟩
       let back : SceneSurf σ ℝ E := Surface.new g (refractiveHomogenous 1 n) ⟨flipSide, 0⟩
       let surfs := if 0 < 0 + hi then
         [front, back, Surface.new (finiteCylinderGM diameter (0 + hi)) (refractiveHomogenous n 1) ⟨1, ⟨0, 0, 0 + hi / 2⟩⟩]
         else [front, back]
       (ObjNode.new surfs T (Obj.defaultOwn, Obj.defaultNext surfs.length), R1 / (n - 1))) := by
    unfold sphericalLens lensFront lensBack
    simp only [c1, c2, hf1, hg, Option.map_none, if_neg hz, hf, hpd, hs1]
    rfl
  simp only at hok
  have ef : depth / n + depth - R1 + R1 = depth + depth / n := by ring
  have F := face_isLensFace (σ := σ) hT (n := n) (loc := depth / n + depth - R1) hd hR1 h1' hg1
    ⟨1, ⟨0, 0, depth / n + depth - R1⟩⟩
  rw [ef] at F
  rw [hcomm] at hhi
  have B : ∀ r : Ray ℝ E, 1 / 10 ^ 10 < |V3.dot r.dir T.rot.c3| →
      ∃ p, g.find (T * ⟨flipSide, 0⟩) [r] = [p] ∧ FirstAmong (0 ≤ ·) (Placed T (diskXY (diameter / 2))) r.vertex r.dir p := by
    intro r hr
    have hrig : (T * (⟨flipSide, 0⟩ : Tf ℝ)).Rigid := hT.mul flipSide_rotation
    obtain ⟨p, hp, hfa, _⟩ := C32_round_plate hrig hg [r] 0 r rfl
    have hc3 : (T * (⟨flipSide, 0⟩ : Tf ℝ)).rot.c3 = -T.rot.c3 := by
      show T.rot.mulVec flipSide.c3 = _
      rw [flipSide_eq]
      apply V3.ext <;> simp
    rw [hc3, flip_disk] at hfa
    have hneg : V3.dot r.dir (-T.rot.c3) = -V3.dot r.dir T.rot.c3 := by unfold V3.dot; simp; ring
    rw [hneg, abs_neg] at hfa
    refine ⟨p, ?_, hfa hr⟩
    have hlen : (g.find (T * ⟨flipSide, 0⟩) [r]).length = 1 := by
      unfold roundPlateGM at hg
      split at hg
      · simp at hg
      · cases hg
        simp [finiteFlatGM]
    obtain ⟨a, ha⟩ := List.length_eq_one_iff.1 hlen
    rw [ha] at hp ⊢
    simpa using hp
  by_cases hgap : 0 < 0 + hi
  · simp only [if_pos hgap] at hok
    refine ⟨_, _, _, _, hok, lens_surfs _ _ _, F, ⟨rfl, B⟩, ?_, ?_⟩
    · intro _
      refine ⟨_, rfl, rfl, fun r hr => ?_⟩
      rw [hhi]
      exact wall_liesOn hT (by ring) (by ring) _ hr
    · intro h
      rw [hhi] at h
      linarith
  · simp only [if_neg hgap] at hok
    refine ⟨_, _, _, _, hok, lens_surfs _ _ _, F, ⟨rfl, B⟩, ?_, ?_⟩
    · intro h
      rw [hhi] at h
      exact absurd (by linarith) hgap
    · intro _; rfl

/-- C61 fails for a planar back: the faces are not `depth` apart along the axis, but `depth*(1 + 1/n)`. -/
theorem C61_planar_back_fails {T : Tf ℝ} (hT : T.Rigid) {diameter depth R1 n : ℝ} (hd : 0 < diameter) (hR1 : R1 ≠ 0)
    (h1 : diameter ≤ 2 * |R1|) (hn : 1 < n) (hdep : 0 < depth) {R2 : Option ℝ} (h2 : R2 = none ∨ R2 = some 0)
    {z : ℝ} (hz : depth + depth / n < z) {r : Ray ℝ E} (hv : r.vertex = T.point ⟨0, 0, z⟩) (hr : r.dir = T.dir ⟨0, 0, -1⟩) :
    ∃ (o : SceneObj σ ℝ E) (f : ℝ) (front back : SceneSurf σ ℝ E) (wall : List (SceneSurf σ ℝ E)) (t1 t2 : ℝ),
      sphericalLens diameter depth (some R1) R2 n T = .ok (o, f) ∧ o.surfs = front :: back :: wall ∧
      front.surf.register [r] = [(t1 : WithTop ℝ)] ∧ back.surf.register [r] = [(t2 : WithTop ℝ)] ∧
      t2 - t1 = depth * (1 + 1 / n) ∧ depth < t2 - t1 := by
  have hdet := M3.IsRotation.det_ne hT
  obtain ⟨o, front, back, wall, hok, hs, hf, ⟨_, hb⟩, _⟩ :=
    C61_planar_back (σ := σ) (E := E) hT (depth := depth) (n := n) hd hR1 h1 (by linarith) (by linarith) h2
  have hdn : 0 < depth / n := by positivity
  have hc : V3.dot r.dir T.rot.c3 = -1 := by
    have hu : V3.dot T.rot.c3 T.rot.c3 = 1 := ((M3.isRotation_iff _).1 hT).1.2.2.1
    rw [hr]
    have : T.dir ⟨0, 0, -1⟩ = -T.rot.c3 := by
      unfold Tf.dir
      apply V3.ext <;> simp
    rw [this]
    unfold V3.dot at hu ⊢
    simp only [V3.neg_x, V3.neg_y, V3.neg_z]
    linarith
  obtain ⟨p, hp, hfa⟩ := hb r (by rw [hc]; norm_num)
  have hat : ∀ t : ℝ, Placed T (diskXY (diameter / 2)) (r.vertex + t • r.dir) ↔ t = z := by
    intro t
    rw [hv, hr, axis_at, placed_iff hdet, Tf.inv_point_point hdet]
    unfold diskXY
    simp only
    constructor
    · rintro ⟨h, _⟩; linarith
    · rintro rfl; exact ⟨by ring, by norm_num; positivity⟩
  have hpz : p = (z : WithTop ℝ) := by
    cases p with
    | top => exact absurd ((hat _).2 rfl) (hfa z (by linarith))
    | coe t => rw [(hat t).1 hfa.2.1]
  refine ⟨o, _, front, back, wall, z - (depth + depth / n), z, hok, hs, C61_apex hT hf hz hv hr, hpz ▸ hp, by ring, by linarith⟩

/-- C61: what is refused.  A face whose sphere is smaller than the aperture gives nan. -/
theorem C61_too_small {diameter depth R1 n : ℝ} (hR1 : R1 ≠ 0) (h : R1 ^ 2 < diameter ^ 2 / 4) (R2 : Option ℝ) (T : Tf ℝ) :
    sphericalLens (σ := σ) (E := E) diameter depth (some R1) R2 n T = .error .nonfinite := by
  have c1 : curvedRadius (some R1) = some R1 := if_neg hR1
  unfold sphericalLens lensFront lensFace
  simp only [c1, if_pos h]

/-- A biconvex lens and a ray inside it satisfy the hypotheses of `C61_partial` and `C61_closed`. -/
example : ∃ (o : SceneObj Unit ℝ Unit) (f apex : ℝ) (front back : SceneSurf Unit ℝ Unit) (wall : List (SceneSurf Unit ℝ Unit)),
    sphericalLens 1 (1 / 2) (some 1) (some (-1)) (3 / 2) 1 = .ok (o, f) ∧ o.surfs = front :: back :: wall ∧
    front.IsLensFace 1 1 (3 / 2) (apex + 1 / 2) 1 ∧ back.IsLensFace 1 1 (3 / 2) apex (-1) ∧
    ∃ r : Ray ℝ Unit, r.dir.IsUnit ∧ 1 / 10 ^ 10 < offAxis 1 r.dir ∧
      Placed 1 (lensInside 1 (faceHeight apex (-1)) (faceHeight (apex + 1 / 2) 1)) r.vertex ∧ ∃ s ∈ o.surfs, s.Stops r := by
  obtain ⟨o, f, apex, front, back, wall, hok, hs, hf, hb, hw⟩ := C61_partial (σ := Unit) (E := Unit) (T := 1)
    Tf.Rigid.one (diameter := 1) (depth := 1 / 2) (R1 := 1) (R2 := -1) (n := 3 / 2) (by norm_num) (by norm_num) (by norm_num)
    (by norm_num) (by norm_num) (by norm_num) (by norm_num)
  have hin : Placed 1 (lensInside 1 (faceHeight apex (-1)) (faceHeight (apex + 1 / 2) 1)) (⟨0, 0, apex + 1 / 4⟩ : V3 ℝ) := by
    refine ⟨⟨0, 0, apex + 1 / 4⟩, ⟨by norm_num, ?_, ?_⟩, (Tf.one_point _).symm⟩
    · simp [faceHeight_zero]
    · simp only [ne_eq, OfNat.ofNat_ne_zero, not_false_eq_true, zero_pow, add_zero, faceHeight_zero]
      linarith
  have hu : (⟨1, 0, 0⟩ : V3 ℝ).IsUnit := by unfold V3.IsUnit V3.dot; norm_num
  have ha : 1 / 10 ^ 10 < offAxis 1 (⟨1, 0, 0⟩ : V3 ℝ) := by
    unfold offAxis
    show 1 / 10 ^ 10 < V3.dot (V3.cross ⟨1, 0, 0⟩ (⟨0, 0, 1⟩ : V3 ℝ)) (V3.cross ⟨1, 0, 0⟩ ⟨0, 0, 1⟩)
    unfold V3.dot V3.cross
    norm_num
  exact ⟨o, f, apex, front, back, wall, hok, hs, hf, hb, ⟨⟨0, 0, apex + 1 / 4⟩, ⟨1, 0, 0⟩, 1, 0, some 1, ()⟩, hu, ha, hin,
    C61_closed Tf.Rigid.one hs hf hb hw hu (.inr ha) hin⟩

/-- The conditions of the other statements: a lens with a plane back, a ray down its axis, and the lenses that cannot be made. -/
example : (∃ (o : SceneObj Unit ℝ Unit) (front back : SceneSurf Unit ℝ Unit) (wall : List (SceneSurf Unit ℝ Unit)),
      sphericalLens 1 (1 / 2) (some 1) none (3 / 2) 1 = .ok (o, 1 / (3 / 2 - 1)) ∧ o.surfs = front :: back :: wall ∧
      front.surf.register [⟨⟨0, 0, 3⟩, ⟨0, 0, -1⟩, 1, 0, some 1, ()⟩] = [((3 - (1 / 2 + 1 / 2 / (3 / 2)) : ℝ) : WithTop ℝ)]) ∧
    (∃ (o : SceneObj Unit ℝ Unit) (f : ℝ) (front back : SceneSurf Unit ℝ Unit) (wall : List (SceneSurf Unit ℝ Unit)) (t1 t2 : ℝ),
      sphericalLens 1 (1 / 2) (some 1) none (3 / 2) 1 = .ok (o, f) ∧ o.surfs = front :: back :: wall ∧
      front.surf.register [⟨⟨0, 0, 3⟩, ⟨0, 0, -1⟩, 1, 0, some 1, ()⟩] = [(t1 : WithTop ℝ)] ∧
      back.surf.register [⟨⟨0, 0, 3⟩, ⟨0, 0, -1⟩, 1, 0, some 1, ()⟩] = [(t2 : WithTop ℝ)] ∧ t2 - t1 = 1 / 2 * (1 + 1 / (3 / 2)) ∧ 1 / 2 < t2 - t1) ∧
    sphericalLens (σ := Unit) (E := Unit) 1 (1 / 2) none (some (-1)) (3 / 2) 1 = .error .name ∧
    sphericalLens (σ := Unit) (E := Unit) 3 (1 / 2) (some 1) (some (-1)) (3 / 2) 1 = .error .nonfinite := by
  refine ⟨?_, C61_planar_back_fails Tf.Rigid.one (by norm_num) (by norm_num) (by norm_num) (by norm_num) (by norm_num) (Or.inl rfl) (z := 3)
    (by norm_num) (Tf.one_point _).symm (Tf.one_dir _).symm, C61_planar_front (by norm_num) (Or.inl rfl) _ _,
    C61_too_small (by norm_num) (by norm_num) _ _⟩
  obtain ⟨o, front, back, wall, h1, h2, h3, _⟩ := C61_planar_back (σ := Unit) (E := Unit) Tf.Rigid.one (diameter := 1) (depth := 1 / 2) (R1 := 1)
    (n := 3 / 2) (by norm_num) (by norm_num) (by norm_num) (by norm_num) (by norm_num) (R2 := none) (Or.inl rfl)
  exact ⟨o, front, back, wall, h1, h2, C61_apex Tf.Rigid.one h3 (by norm_num) (Tf.one_point _).symm (Tf.one_dir _).symm⟩

end Tracer
