import Verif.Spec.Curved
import Verif.Lemmas.Quadric
import Verif.Lemmas.Rigid
import Verif.Props.Flat
import Verif.Model.Optics
import Verif.Lemmas.Surface
import Mathlib.Analysis.Calculus.Deriv.Pow
import Mathlib.Analysis.Calculus.Deriv.Mul
import Mathlib.Analysis.Calculus.Deriv.Add

/-! # Quadric surfaces (C28, C34, C35, C36, C37, C38, C39, C40) -/

set_option linter.unusedSectionVars false

namespace Tracer

open Real

variable {E : Type _}

/-! ## Lemmas -/

/-- The first crossing, when the equation is truly quadratic. -/
theorem first_of_quadratic {A B C : ℝ} {S : V3 ℝ → Prop} {test : V3 ℝ → Bool} {v d : V3 ℝ}
    (hS : ∀ s : ℝ, S (v + s • d) ↔ A * s ^ 2 + B * s + C = 0 ∧ test (v + s • d) = true)
    (hA : planarTol < A) :
    FirstAmong (0 < ·) S v d (chosenParam (trimPick test) (candidate (A, B, C) v d)) := by
  have hA0 : 0 < A := lt_trans planarTol_pos hA
  unfold candidate
  simp only
  split
  · rename_i hd
    rw [if_neg (not_le.2 hA)]
    obtain ⟨hle, hr⟩ := quadratic_roots hA0 hd
    generalize (-B + -1 * √(B ^ 2 - 4 * A * C)) / (2 * A) = t0 at hle hr
    generalize (-B + 1 * √(B ^ 2 - 4 * A * C)) / (2 * A) = t1 at hle hr
    unfold chosenParam trimPick pick
    simp only
    by_cases h0 : test (v + t0 • d) = true ∧ 0 < t0
    · rw [if_pos (by simp [h0])]
      refine ⟨h0.2, (hS _).2 ⟨(hr _).2 (Or.inl rfl), h0.1⟩, fun s _ hs => ?_⟩
      rcases (hr s).1 ((hS s).1 hs).1 with rfl | rfl
      · exact le_refl _
      · exact hle
    · rw [if_neg (by simpa using h0)]
      by_cases h1 : test (v + t1 • d) = true ∧ 0 < t1
      · rw [if_pos (by simp [h1])]
        refine ⟨h1.2, (hS _).2 ⟨(hr _).2 (Or.inr rfl), h1.1⟩, fun s hs hs' => ?_⟩
        rcases (hr s).1 ((hS s).1 hs').1 with h | h
        · exact absurd ⟨h ▸ ((hS s).1 hs').2, h ▸ hs⟩ h0
        · exact le_of_eq h.symm
      · rw [if_neg (by simpa using h1)]
        intro s hs hs'
        rcases (hr s).1 ((hS s).1 hs').1 with h | h
        · exact h0 ⟨h ▸ ((hS s).1 hs').2, h ▸ hs⟩
        · exact h1 ⟨h ▸ ((hS s).1 hs').2, h ▸ hs⟩
  · rename_i hd
    intro s _ hs
    exact quadratic_no_root (not_le.1 hd) s ((hS s).1 hs).1

/-- The first crossing, when the equation is linear. -/
theorem first_of_linear {B C : ℝ} {S : V3 ℝ → Prop} {test : V3 ℝ → Bool} {v d : V3 ℝ}
    (hS : ∀ s : ℝ, S (v + s • d) ↔ B * s + C = 0 ∧ test (v + s • d) = true) (hB : B ≠ 0) :
    FirstAmong (0 < ·) S v d (chosenParam (trimPick test) (candidate (0, B, C) v d)) := by
  have hr : ∀ s, B * s + C = 0 ↔ s = -C / B := by
    intro s; rw [eq_div_iff hB]; constructor <;> intro h <;> linarith
  unfold candidate
  simp only
  rw [if_pos (by nlinarith [sq_nonneg B]), if_pos planarTol_pos.le, if_neg hB]
  generalize -C / B = t at hr
  unfold chosenParam trimPick pick
  simp only
  by_cases h0 : test (v + t • d) = true ∧ 0 < t
  · rw [if_pos (by simp [h0])]
    exact ⟨h0.2, (hS _).2 ⟨(hr _).2 rfl, h0.1⟩, fun s _ hs => le_of_eq ((hr s).1 ((hS s).1 hs).1).symm⟩
  · rw [if_neg (by simpa using h0), if_neg (by simpa using h0)]
    intro s hs hs'
    have h := (hr s).1 ((hS s).1 hs').1
    exact h0 ⟨h ▸ ((hS s).1 hs').2, h ▸ hs⟩

/-- In the tolerance, whatever is answered solves the linear equation. -/
theorem band_answer {A B C : ℝ} {test : V3 ℝ → Bool} {v d : V3 ℝ} (hA : A ≤ planarTol) {t : ℝ}
    (h : chosenParam (trimPick test) (candidate (A, B, C) v d) = (t : WithTop ℝ)) :
    0 < t ∧ B * t + C = 0 ∧ test (v + t • d) = true := by
  unfold candidate at h
  simp only at h
  by_cases hd : 0 ≤ B ^ 2 - 4 * A * C
  · rw [if_pos hd, if_pos hA] at h
    by_cases hB : B = 0
    · rw [if_pos hB] at h; exact absurd h (by simp [chosenParam])
    · rw [if_neg hB] at h
      unfold chosenParam trimPick pick at h
      simp only at h
      by_cases h0 : test (v + (-C / B) • d) = true ∧ 0 < -C / B
      · rw [if_pos (by simp [h0])] at h
        have : t = -C / B := by
          simp only [Cand.choose] at h
          exact (WithTop.coe_eq_coe.1 h).symm
        rw [this]
        exact ⟨h0.2, by field_simp; ring, h0.1⟩
      · rw [if_neg (by simpa using h0), if_neg (by simpa using h0)] at h
        exact absurd h (by simp)
  · rw [if_neg hd] at h; exact absurd h (by simp [chosenParam])

/-- The same for coefficients given as a triple. -/
theorem first_of_abc {abc : ℝ × ℝ × ℝ} {S : V3 ℝ → Prop} {test : V3 ℝ → Bool} {v d : V3 ℝ}
    (hS : ∀ s : ℝ, S (v + s • d) ↔ abc.1 * s ^ 2 + abc.2.1 * s + abc.2.2 = 0 ∧ test (v + s • d) = true)
    (hA : planarTol < abc.1) :
    FirstAmong (0 < ·) S v d (chosenParam (trimPick test) (candidate abc v d)) :=
  first_of_quadratic hS hA

theorem band_answer_abc {abc : ℝ × ℝ × ℝ} {test : V3 ℝ → Bool} {v d : V3 ℝ} (hA : abc.1 ≤ planarTol) {t : ℝ}
    (h : chosenParam (trimPick test) (candidate abc v d) = (t : WithTop ℝ)) :
    0 < t ∧ abc.2.1 * t + abc.2.2 = 0 ∧ test (v + t • d) = true := band_answer hA h

theorem first_of_abc_linear {abc : ℝ × ℝ × ℝ} {S : V3 ℝ → Prop} {test : V3 ℝ → Bool} {v d : V3 ℝ}
    (hS : ∀ s : ℝ, S (v + s • d) ↔ abc.1 * s ^ 2 + abc.2.1 * s + abc.2.2 = 0 ∧ test (v + s • d) = true)
    (hA : abc.1 = 0) (hB : abc.2.1 ≠ 0) :
    FirstAmong (0 < ·) S v d (chosenParam (trimPick test) (candidate abc v d)) := by
  obtain ⟨A, B, C⟩ := abc
  simp only at hA hB hS
  subst hA
  refine first_of_linear (fun s => ?_) hB
  rw [hS s]
  simp

theorem localDir_eq {frame : Tf ℝ} (h : frame.Rigid) (d : V3 ℝ) : localDir frame d = frame.inv.dir d := by
  unfold localDir Tf.inv Tf.dir
  rw [M3.IsRotation.inv_eq h]

theorem getElem?_map' {α β : Type _} {l : List α} {i : Nat} {a : α} (f : α → β) (h : l[i]? = some a) :
    (l.map f)[i]? = some (f a) := by simp [h]

/-- Where a point of the ray is in local coordinates. -/
theorem local_at {frame : Tf ℝ} (h : frame.Rigid) (v d : V3 ℝ) (s : ℝ) :
    frame.inv.point (v + s • d) = frame.inv.point v + s • localDir frame d := by
  rw [localDir_eq h, Tf.point_add_smul]

/-- The selection of every quadric but the hemisphere and the cut sphere is made ray by ray. -/
theorem find_default (abc : V3 ℝ → V3 ℝ → ℝ × ℝ × ℝ) (rays : Bundle ℝ E) :
    quadricFind abc defaultSelect rays = rays.map fun r =>
      chosenParam (trimPick fun _ => true) (candidate (abc r.vertex r.dir) r.vertex r.dir) := by
  rw [quadricFind_map abc defaultSelect_eq]
  have : defaultPick = trimPick fun _ => true := funext fun c => (trimPick_true c).symm
  rw [this]

theorem find_trim (abc : V3 ℝ → V3 ℝ → ℝ × ℝ × ℝ) (test : V3 ℝ → Bool) (rays : Bundle ℝ E) :
    quadricFind abc (trimSelect nonzeroT test) rays = rays.map fun r =>
      chosenParam (trimPick test) (candidate (abc r.vertex r.dir) r.vertex r.dir) :=
  quadricFind_map abc (trimSelect_eq test) rays

theorem rotation_rows {m : M3 ℝ} (h : m.IsRotation) : V3.dot m.transpose.c1 m.transpose.c1 = 1 ∧
    V3.dot m.transpose.c2 m.transpose.c2 = 1 ∧ V3.dot m.transpose.c3 m.transpose.c3 = 1 ∧
    V3.dot m.transpose.c1 m.transpose.c2 = 0 ∧ V3.dot m.transpose.c1 m.transpose.c3 = 0 ∧
    V3.dot m.transpose.c2 m.transpose.c3 = 0 := ((M3.isRotation_iff _).1 h.transpose).1

theorem local_dot {frame : Tf ℝ} (h : frame.Rigid) (u w : V3 ℝ) :
    V3.dot (localDir frame u) (localDir frame w) = V3.dot u w :=
  M3.IsRotation.dot (M3.IsRotation.transpose h) u w

theorem local_sq {frame : Tf ℝ} (h : frame.Rigid) (d : V3 ℝ) :
    (localDir frame d).x ^ 2 + (localDir frame d).y ^ 2 = offAxis frame d := by
  have h1 := local_dot h d d
  have hz : (localDir frame d).z = V3.dot d frame.rot.c3 := by
    unfold localDir V3.dot M3.transpose; simp only [M3.mulVec_z]; ring
  have hu : V3.dot frame.rot.c3 frame.rot.c3 = 1 := ((M3.isRotation_iff _).1 h).1.2.2.1
  have hlag : offAxis frame d = V3.dot d d * V3.dot frame.rot.c3 frame.rot.c3 - V3.dot d frame.rot.c3 ^ 2 := by
    unfold offAxis V3.dot V3.cross; ring
  rw [hlag, hu, ← h1, ← hz]
  unfold V3.dot
  ring

/-! ## C34 -/

theorem sphere_placed {frame : Tf ℝ} (h : frame.Rigid) (R : ℝ) (p : V3 ℝ) :
    Placed frame (sphereSet R) p ↔ V3.dist2 p frame.loc = R ^ 2 := by
  rw [placed_iff (M3.IsRotation.det_ne h)]
  have h0 : frame.inv.point frame.loc = 0 := by
    have : frame.loc = frame.point 0 := by unfold Tf.point; apply V3.ext <;> simp
    rw [this, Tf.inv_point_point (M3.IsRotation.det_ne h)]
  rw [← Tf.Rigid.dist (Tf.Rigid.inv h), h0]
  unfold sphereSet V3.dist2 V3.dot
  simp only [V3.sub_x, V3.sub_y, V3.sub_z, V3.zero_x, V3.zero_y, V3.zero_z, sub_zero, ← pow_two]

theorem sphere_at (frame : Tf ℝ) (R : ℝ) (v d : V3 ℝ) (s : ℝ) :
    V3.dist2 (v + s • d) frame.loc = R ^ 2 ↔
      (sphereABC R frame v d).1 * s ^ 2 + (sphereABC R frame v d).2.1 * s + (sphereABC R frame v d).2.2 = 0 := by
  unfold sphereABC V3.dist2 V3.dot
  simp only [V3.sub_x, V3.sub_y, V3.sub_z, V3.add_x, V3.add_y, V3.add_z, V3.smul_x, V3.smul_y, V3.smul_z]
  constructor <;> intro h <;> linear_combination h

theorem sphereABC_fst {R : ℝ} {frame : Tf ℝ} {v d : V3 ℝ} : (sphereABC R frame v d).1 = V3.dot d d := by
  unfold sphereABC V3.dot; ring

theorem unit_tol {d : V3 ℝ} (h : d.IsUnit) : planarTol < V3.dot d d := by
  unfold V3.IsUnit at h
  rw [h]; unfold planarTol; norm_num

/-- C34: for a ray of unit direction the closed sphere answers with the first positive parameter at which
the ray is on the sphere, infinity if there is none. -/
theorem C34_sphere {frame : Tf ℝ} (h : frame.Rigid) {R : ℝ} {g : Geometry ℝ E} (hg : sphereGM R = .ok g)
    (rays : Bundle ℝ E) (i : Nat) (r : Ray ℝ E) (hr : rays[i]? = some r) (hu : r.dir.IsUnit) :
    ∃ p, (g.find frame rays)[i]? = some p ∧
      FirstAmong (0 < ·) (Placed frame (sphereSet R)) r.vertex r.dir p := by
  unfold sphereGM setRadius at hg
  split at hg
  · simp at hg
  · rename_i R' hR'
    split at hR'
    · simp at hR'
    · cases hR'
      cases hg
      refine ⟨_, (congrArg (·[i]?) (find_default _ rays)).trans (getElem?_map' _ hr), ?_⟩
      apply first_of_abc
      · intro s
        rw [sphere_placed h, sphere_at]
        simp
      · rw [sphereABC_fst]; exact unit_tol hu

/-- C34: the constructor accepts exactly positive radii. -/
theorem C34_constructor (R : ℝ) :
    (0 < R → ∃ g, (sphereGM R : Except Err (Geometry ℝ E)) = .ok g) ∧
    (R ≤ 0 → (sphereGM R : Except Err (Geometry ℝ E)) = .error .value) := by
  unfold sphereGM setRadius
  constructor
  · intro h; rw [if_neg (not_le.2 h)]; exact ⟨_, rfl⟩
  · intro h; rw [if_pos h]

/-! ## C35 -/

theorem cylinder_at {frame : Tf ℝ} (h : frame.Rigid) (R : ℝ) (v d : V3 ℝ) (s : ℝ) :
    cylinderSet R (frame.inv.point (v + s • d)) ↔
      (cylinderABC R frame v d).1 * s ^ 2 + (cylinderABC R frame v d).2.1 * s + (cylinderABC R frame v d).2.2 = 0 := by
  rw [local_at h]
  unfold cylinderABC cylinderSet
  simp only [V3.add_x, V3.add_y, V3.smul_x, V3.smul_y]
  constructor <;> intro h <;> linear_combination h

/-- C35: the infinite cylinder is met at the first positive parameter at which the ray is on it; rays
parallel to the axis miss. -/
theorem C35_infinite_cylinder {frame : Tf ℝ} (h : frame.Rigid) (diameter : ℝ) (rays : Bundle ℝ E) (i : Nat)
    (r : Ray ℝ E) (hr : rays[i]? = some r) :
    ∃ p, ((infiniteCylinderGM diameter).find frame rays)[i]? = some p ∧
      (1 / 10 ^ 10 < offAxis frame r.dir →
        FirstAmong (0 < ·) (Placed frame (cylinderSet (diameter / 2))) r.vertex r.dir p) ∧
      (offAxis frame r.dir = 0 → p = ⊤) := by
  refine ⟨_, (congrArg (·[i]?) (find_default _ rays)).trans (getElem?_map' _ hr), ?_, ?_⟩
  · intro hA
    apply first_of_abc
    · intro s
      rw [placed_iff (M3.IsRotation.det_ne h), cylinder_at h]
      simp
    · show planarTol < (localDir frame r.dir).x ^ 2 + (localDir frame r.dir).y ^ 2
      rw [local_sq h]; exact hA
  · intro hA
    have := local_sq h r.dir
    rw [hA] at this
    have hx : (localDir frame r.dir).x = 0 := by nlinarith [sq_nonneg (localDir frame r.dir).x, sq_nonneg (localDir frame r.dir).y]
    have hy : (localDir frame r.dir).y = 0 := by nlinarith [sq_nonneg (localDir frame r.dir).x, sq_nonneg (localDir frame r.dir).y]
    unfold candidate cylinderABC
    simp only [hx, hy]
    norm_num [chosenParam, planarTol]

/-- C35: the finite cylinder is met at the first positive parameter at which the ray is on it and within half
the height of the middle; rays parallel to the axis miss. -/
theorem C35_finite_cylinder {frame : Tf ℝ} (h : frame.Rigid) (diameter height : ℝ) (rays : Bundle ℝ E) (i : Nat)
    (r : Ray ℝ E) (hr : rays[i]? = some r) :
    ∃ p, ((finiteCylinderGM diameter height).find frame rays)[i]? = some p ∧
      (1 / 10 ^ 10 < offAxis frame r.dir →
        FirstAmong (0 < ·) (Placed frame (finiteCylinderSet (diameter / 2) height)) r.vertex r.dir p) ∧
      (offAxis frame r.dir = 0 → p = ⊤) := by
  refine ⟨_, (congrArg (·[i]?) (quadricFind_map _ (cylinderSelect_eq (height / 2) frame) rays)).trans
    (getElem?_map' _ hr), ?_, ?_⟩
  · intro hA
    apply first_of_abc
    · intro s
      rw [placed_iff (M3.IsRotation.det_ne h), ← cylinder_at h]
      simp only [decide_eq_true_eq]
      rfl
    · show planarTol < (localDir frame r.dir).x ^ 2 + (localDir frame r.dir).y ^ 2
      rw [local_sq h]; exact hA
  · intro hA
    have := local_sq h r.dir
    rw [hA] at this
    have hx : (localDir frame r.dir).x = 0 := by nlinarith [sq_nonneg (localDir frame r.dir).x, sq_nonneg (localDir frame r.dir).y]
    have hy : (localDir frame r.dir).y = 0 := by nlinarith [sq_nonneg (localDir frame r.dir).x, sq_nonneg (localDir frame r.dir).y]
    unfold candidate cylinderABC
    simp only [hx, hy]
    norm_num [chosenParam, planarTol]

/-! ## C36 -/

theorem paraboloid_value {frame : Tf ℝ} (h : frame.Rigid) (a b : ℝ) (v d : V3 ℝ) (s : ℝ) :
    ((frame.inv.point (v + s • d)).x / a) ^ 2 + ((frame.inv.point (v + s • d)).y / b) ^ 2 -
        (frame.inv.point (v + s • d)).z =
      (paraboloidABC (1 / a ^ 2) (1 / b ^ 2) frame v d).1 * s ^ 2 +
        (paraboloidABC (1 / a ^ 2) (1 / b ^ 2) frame v d).2.1 * s +
        (paraboloidABC (1 / a ^ 2) (1 / b ^ 2) frame v d).2.2 := by
  rw [local_at h]
  unfold paraboloidABC
  simp only [V3.add_x, V3.add_y, V3.add_z, V3.smul_x, V3.smul_y, V3.smul_z]
  ring

theorem paraboloid_at {frame : Tf ℝ} (h : frame.Rigid) (a b : ℝ) (v d : V3 ℝ) (s : ℝ) :
    paraboloidSet a b (frame.inv.point (v + s • d)) ↔
      (paraboloidABC (1 / a ^ 2) (1 / b ^ 2) frame v d).1 * s ^ 2 +
        (paraboloidABC (1 / a ^ 2) (1 / b ^ 2) frame v d).2.1 * s +
        (paraboloidABC (1 / a ^ 2) (1 / b ^ 2) frame v d).2.2 = 0 := by
  rw [← paraboloid_value h]
  unfold paraboloidSet
  constructor <;> intro h <;> linarith

theorem paraboloidA {frame : Tf ℝ} (h : frame.Rigid) (a b : ℝ) (v d : V3 ℝ) :
    (paraboloidABC (1 / a ^ 2) (1 / b ^ 2) frame v d).1 =
      ((frame.inv.dir d).x / a) ^ 2 + ((frame.inv.dir d).y / b) ^ 2 := by
  unfold paraboloidABC
  simp only [localDir_eq h]
  ring

/-- A ray along the axis crosses the paraboloid transversally. -/
theorem paraboloidB_ne {frame : Tf ℝ} (h : frame.Rigid) {a b : ℝ} (ha : a ≠ 0) (hb : b ≠ 0) {v d : V3 ℝ} (hd : d ≠ 0)
    (hA : (paraboloidABC (1 / a ^ 2) (1 / b ^ 2) frame v d).1 = 0) :
    (paraboloidABC (1 / a ^ 2) (1 / b ^ 2) frame v d).2.1 ≠ 0 := by
  rw [paraboloidA h] at hA
  have hx : (frame.inv.dir d).x / a = 0 := by
    nlinarith [sq_nonneg ((frame.inv.dir d).x / a), sq_nonneg ((frame.inv.dir d).y / b)]
  have hy : (frame.inv.dir d).y / b = 0 := by
    nlinarith [sq_nonneg ((frame.inv.dir d).x / a), sq_nonneg ((frame.inv.dir d).y / b)]
  have hx' : (frame.inv.dir d).x = 0 := by rcases div_eq_zero_iff.1 hx with h | h; exacts [h, absurd h ha]
  have hy' : (frame.inv.dir d).y = 0 := by rcases div_eq_zero_iff.1 hy with h | h; exacts [h, absurd h hb]
  unfold paraboloidABC
  simp only [localDir_eq h, hx', hy']
  intro hz
  apply hd
  have hz' : (frame.inv.dir d).z = 0 := by linarith
  have h0 : frame.inv.dir d = 0 := V3.ext hx' hy' hz'
  have : d = frame.rot.mulVec (frame.inv.dir d) := (M3.mulVec_inv_mulVec (M3.IsRotation.det_ne h) d).symm
  rw [this, h0]
  apply V3.ext <;> simp

/-- C36: the paraboloid is met at the first positive parameter at which the ray is on it, unless the
direction is almost but not quite along the axis; then a reported point misses the equation of the
surface by exactly `A t²`. -/
theorem C36_paraboloid {frame : Tf ℝ} (h : frame.Rigid) {a b : ℝ} (ha : a ≠ 0) (hb : b ≠ 0) (rays : Bundle ℝ E)
    (i : Nat) (r : Ray ℝ E) (hr : rays[i]? = some r) (hd : r.dir ≠ 0) (A : ℝ)
    (hA : A = ((frame.inv.dir r.dir).x / a) ^ 2 + ((frame.inv.dir r.dir).y / b) ^ 2) :
    ∃ p, ((paraboloidGM a b).find frame rays)[i]? = some p ∧
      (1 / 10 ^ 10 < A ∨ A = 0 →
        FirstAmong (0 < ·) (Placed frame (paraboloidSet a b)) r.vertex r.dir p) ∧
      (A ≤ 1 / 10 ^ 10 → ∀ t : ℝ, p = t → 0 < t ∧ ∀ q, q = frame.inv.point (r.vertex + t • r.dir) →
        (q.x / a) ^ 2 + (q.y / b) ^ 2 - q.z = A * t ^ 2 ∧ A * t ^ 2 ≤ 1 / 10 ^ 10 * t ^ 2) := by
  rw [← paraboloidA h a b r.vertex] at hA
  have hS : ∀ s : ℝ, Placed frame (paraboloidSet a b) (r.vertex + s • r.dir) ↔
      (paraboloidABC (1 / a ^ 2) (1 / b ^ 2) frame r.vertex r.dir).1 * s ^ 2 +
        (paraboloidABC (1 / a ^ 2) (1 / b ^ 2) frame r.vertex r.dir).2.1 * s +
        (paraboloidABC (1 / a ^ 2) (1 / b ^ 2) frame r.vertex r.dir).2.2 = 0 ∧ (fun _ => true) (r.vertex + s • r.dir) = true := by
    intro s
    rw [placed_iff (M3.IsRotation.det_ne h), paraboloid_at h]
    simp
  refine ⟨_, (congrArg (·[i]?) (find_default _ rays)).trans (getElem?_map' _ hr), ?_, ?_⟩
  · rintro (hlt | h0)
    · exact first_of_abc hS (hA ▸ hlt)
    · exact first_of_abc_linear hS (hA ▸ h0) (paraboloidB_ne h ha hb hd (hA ▸ h0))
  · intro hle t ht
    obtain ⟨h1, h2, _⟩ := band_answer_abc (by rw [← hA]; exact hle) ht
    refine ⟨h1, ?_⟩
    rintro q rfl
    rw [paraboloid_value h, ← hA]
    exact ⟨by linarith, mul_le_mul_of_nonneg_right hle (sq_nonneg t)⟩

/-! ## C37 -/

theorem dish_iff {f : ℝ} (hf : 0 < f) (q : V3 ℝ) :
    dishSet f q ↔ paraboloidSet (2 * √f) (2 * √f) q := by
  have : (2 * √f) ^ 2 = 4 * f := by rw [mul_pow, Real.sq_sqrt hf.le]; ring
  unfold dishSet paraboloidSet
  rw [div_pow, div_pow, this, add_div]

theorem dish_test {f D : ℝ} (hf : 0 < f) {q : V3 ℝ} (hq : dishSet f q) :
    q.z ≤ (D / 2 / (2 * √f)) ^ 2 ↔ q.x ^ 2 + q.y ^ 2 ≤ (D / 2) ^ 2 := by
  have : (2 * √f) ^ 2 = 4 * f := by rw [mul_pow, Real.sq_sqrt hf.le]; ring
  unfold dishSet at hq
  rw [hq, div_pow, this, div_le_div_iff_of_pos_right (by linarith)]

/-- The trimmed paraboloids of revolution. -/
theorem dish_first {frame : Tf ℝ} (h : frame.Rigid) {f : ℝ} (hf : 0 < f) {test : V3 ℝ → Bool} {P : V3 ℝ → Prop}
    (ht : ∀ p, dishSet f (frame.inv.point p) → (test p = true ↔ P (frame.inv.point p)))
    {v d : V3 ℝ} (hd : d ≠ 0) (hA : 1 / 10 ^ 10 < offAxis frame d / (4 * f) ∨ offAxis frame d = 0) :
    FirstAmong (0 < ·) (Placed frame fun q => dishSet f q ∧ P q) v d
      (chosenParam (trimPick test) (candidate (paraboloidABC (1 / (2 * √f) ^ 2) (1 / (2 * √f) ^ 2) frame v d) v d)) := by
  have hne : (2 * √f) ≠ 0 := by
    have := Real.sqrt_pos.2 hf
    positivity
  have hpar : (2 * √f) ^ 2 = 4 * f := by rw [mul_pow, Real.sq_sqrt hf.le]; ring
  have hS : ∀ s : ℝ, Placed frame (fun q => dishSet f q ∧ P q) (v + s • d) ↔
      (paraboloidABC (1 / (2 * √f) ^ 2) (1 / (2 * √f) ^ 2) frame v d).1 * s ^ 2 +
        (paraboloidABC (1 / (2 * √f) ^ 2) (1 / (2 * √f) ^ 2) frame v d).2.1 * s +
        (paraboloidABC (1 / (2 * √f) ^ 2) (1 / (2 * √f) ^ 2) frame v d).2.2 = 0 ∧ test (v + s • d) = true := by
    intro s
    rw [placed_iff (M3.IsRotation.det_ne h), ← paraboloid_at h, ← dish_iff hf]
    exact and_congr_right fun hq => (ht _ hq).symm
  have hA1 : (paraboloidABC (1 / (2 * √f) ^ 2) (1 / (2 * √f) ^ 2) frame v d).1 = offAxis frame d / (4 * f) := by
    rw [← local_sq h, ← hpar]
    unfold paraboloidABC
    simp only
    ring
  rcases hA with hA | hA
  · exact first_of_abc hS (by rw [hA1]; exact hA)
  · have h0 : (paraboloidABC (1 / (2 * √f) ^ 2) (1 / (2 * √f) ^ 2) frame v d).1 = 0 := by rw [hA1, hA, zero_div]
    exact first_of_abc_linear hS h0 (paraboloidB_ne h hne hne hd h0)

/-- C37: the dish is met at the first positive parameter at which the ray is on the paraboloid within the
aperture (outside the tolerance around the axis direction). -/
theorem C37_dish {frame : Tf ℝ} (h : frame.Rigid) {diameter focal : ℝ} (hf : 0 < focal) (rays : Bundle ℝ E) (i : Nat)
    (r : Ray ℝ E) (hr : rays[i]? = some r) (hd : r.dir ≠ 0)
    (hA : 1 / 10 ^ 10 < offAxis frame r.dir / (4 * focal) ∨ offAxis frame r.dir = 0) :
    ∃ p, ((parabolicDishGM diameter focal).find frame rays)[i]? = some p ∧
      FirstAmong (0 < ·) (Placed frame fun q => dishSet focal q ∧ q.x ^ 2 + q.y ^ 2 ≤ (diameter / 2) ^ 2)
        r.vertex r.dir p := by
  refine ⟨_, (congrArg (·[i]?) (find_trim _ _ rays)).trans (getElem?_map' _ hr), ?_⟩
  apply dish_first h hf _ hd hA
  intro p hp
  unfold dishTest
  rw [decide_eq_true_eq, dish_test hf hp]

/-- C37: at any point of the dish, a ray that comes down the axis is reflected through the focus, and the path
from the point to the focus is as long as from the plane `z = -f`. -/
theorem C37_focus {frame : Tf ℝ} (h : frame.Rigid) {diameter focal : ℝ} (hf : 0 < focal) {p : V3 ℝ}
    (hp : Placed frame (dishSet focal) p) :
    frame.point ⟨0, 0, focal⟩ = p + ((frame.inv.point p).z + focal) •
      reflection (frame.dir ⟨0, 0, -1⟩)
        ((parabolicDishGM diameter focal : Geometry ℝ E).normal frame p (frame.dir ⟨0, 0, -1⟩)) ∧
    0 < (frame.inv.point p).z + focal := by
  have hdet := M3.IsRotation.det_ne h
  rw [placed_iff hdet] at hp
  have hpp : p = frame.point (frame.inv.point p) := (Tf.point_inv_point hdet p).symm
  generalize hq : frame.inv.point p = q at hp hpp
  have hz : q.z = (q.x ^ 2 + q.y ^ 2) / (4 * focal) := hp
  have hz0 : 0 ≤ q.z := by rw [hz]; positivity
  refine ⟨?_, by linarith⟩
  have hpar : (2 * √focal) ^ 2 = 4 * focal := by rw [mul_pow, Real.sq_sqrt hf.le]; ring
  show frame.point ⟨0, 0, focal⟩ = p + (q.z + focal) • reflection (frame.dir ⟨0, 0, -1⟩)
    (paraboloidNormal (1 / (2 * √focal) ^ 2) (1 / (2 * √focal) ^ 2) frame p (frame.dir ⟨0, 0, -1⟩))
  rw [hpar]
  have hld : localDir frame (frame.dir ⟨0, 0, -1⟩) = ⟨0, 0, -1⟩ := by
    rw [localDir_eq h]; exact M3.inv_mulVec_mulVec hdet _
  unfold paraboloidNormal
  simp only [hq, hld]
  have hN : 0 < (-(2 * q.x * (1 / (4 * focal)))) ^ 2 + (-(2 * q.y * (1 / (4 * focal)))) ^ 2 + (1 : ℝ) ^ 2 := by positivity
  have hNq : (-(2 * q.x * (1 / (4 * focal)))) ^ 2 + (-(2 * q.y * (1 / (4 * focal)))) ^ 2 + (1 : ℝ) ^ 2 =
      (q.z + focal) / focal := by
    rw [hz]; field_simp; ring
  have hsq := Real.sq_sqrt hN.le
  have hsp := Real.sqrt_pos.2 hN
  generalize √((-(2 * q.x * (1 / (4 * focal)))) ^ 2 + (-(2 * q.y * (1 / (4 * focal)))) ^ 2 + (1 : ℝ) ^ 2) = N at hsq hsp
  rw [hNq] at hsq
  have hneg : ¬ (0 : ℝ) < 0 * ((1 / N) • (⟨-(2 * q.x * (1 / (4 * focal))), -(2 * q.y * (1 / (4 * focal))), 1⟩ : V3 ℝ)).x +
      0 * ((1 / N) • (⟨-(2 * q.x * (1 / (4 * focal))), -(2 * q.y * (1 / (4 * focal))), 1⟩ : V3 ℝ)).y +
      -1 * ((1 / N) • (⟨-(2 * q.x * (1 / (4 * focal))), -(2 * q.y * (1 / (4 * focal))), 1⟩ : V3 ℝ)).z := by
    simp only [V3.smul_z, mul_one, zero_mul, zero_add]
    have : 0 < 1 / N := by positivity
    linarith
  rw [if_neg hneg]
  -- the reflected direction in local coordinates
  have hrot : ∀ u n : V3 ℝ, reflection (frame.rot.mulVec u) (frame.rot.mulVec n) = frame.rot.mulVec (reflection u n) := by
    intro u n
    unfold reflection
    rw [M3.IsRotation.dot h]
    apply V3.ext <;> simp <;> ring
  unfold Tf.dir
  rw [hrot, hpp]
  have : (⟨0, 0, focal⟩ : V3 ℝ) = q + (q.z + focal) • reflection ⟨0, 0, -1⟩
      ((1 / N) • (⟨-(2 * q.x * (1 / (4 * focal))), -(2 * q.y * (1 / (4 * focal))), 1⟩ : V3 ℝ)) := by
    have hinv : (1 / N) * (1 / N) * (q.z + focal) = focal := by
      have : N ^ 2 * focal = q.z + focal := by rw [hsq]; field_simp
      rw [← this]; field_simp
    unfold reflection V3.dot
    apply V3.ext
    · simp only [V3.add_x, V3.smul_x, V3.sub_x, V3.smul_y, V3.smul_z]
      have : (0 : ℝ) = q.x + (q.z + focal) * ((1 / N) * (1 / N)) * (2 * (-(2 * q.x * (1 / (4 * focal))))) := by
        rw [mul_comm (q.z + focal), hinv]; field_simp; ring
      linear_combination this
    · simp only [V3.add_y, V3.smul_x, V3.sub_y, V3.smul_y, V3.smul_z]
      have : (0 : ℝ) = q.y + (q.z + focal) * ((1 / N) * (1 / N)) * (2 * (-(2 * q.y * (1 / (4 * focal))))) := by
        rw [mul_comm (q.z + focal), hinv]; field_simp; ring
      linear_combination this
    · simp only [V3.add_z, V3.smul_x, V3.sub_z, V3.smul_y, V3.smul_z]
      linear_combination -2 * hinv
  rw [this]
  unfold Tf.point
  apply V3.ext <;> simp <;> ring

/-- C37: whatever else is in the bundle, a ray that comes down the axis and is selected on a reflective dish
leaves towards the focus. -/
theorem C37_concentrates {σ : Type _} {frame : Tf ℝ} (h : frame.Rigid) {diameter focal absorptivity : ℝ} (hf : 0 < focal)
    {w w' : σ} {rays out : Bundle ℝ E} {sel : List Nat}
    (hout : (mkSurf (parabolicDishGM diameter focal) (reflective absorptivity) frame).outgoing w rays sel = .ok (out, w'))
    {q : Ray ℝ E} (hq : q ∈ out) {r : Ray ℝ E} (hr : rays[q.parent]? = some r) (hd : r.dir = frame.dir ⟨0, 0, -1⟩) :
    ∃ s : ℝ, 0 < s ∧ q.vertex + s • q.dir = frame.point ⟨0, 0, focal⟩ := by
  unfold mkSurf at hout
  simp only at hout
  split at hout
  · simp at hout
  · rename_i recs hrecs
    obtain ⟨_, hall⟩ := hitRecs_ok hrecs
    simp only [reflective, Except.ok.injEq, Prod.mk.injEq] at hout
    rw [← hout.1] at hq
    obtain ⟨k, hk, rfl⟩ := List.mem_map.1 hq
    obtain ⟨hkr, t, ht, hpt, hn⟩ := hall k hk
    have hrk : k.ray = r := by
      have : (reflectOne absorptivity k).parent = k.idx := rfl
      rw [this, hkr] at hr
      exact Option.some.inj hr
    have hdir0 : k.ray.dir ≠ 0 := by
      rw [hrk, hd]
      intro h0
      have h1 : frame.rot.inv.mulVec (frame.rot.mulVec ⟨0, 0, -1⟩) = ⟨0, 0, -1⟩ :=
        M3.inv_mulVec_mulVec (M3.IsRotation.det_ne h) _
      unfold Tf.dir at h0
      rw [h0] at h1
      have := congrArg V3.z h1
      simp at this
    have hoff : offAxis frame k.ray.dir = 0 := by
      rw [← local_sq h, localDir_eq h, hrk, hd]
      have : frame.inv.dir (frame.dir ⟨0, 0, -1⟩) = ⟨0, 0, -1⟩ := M3.inv_mulVec_mulVec (M3.IsRotation.det_ne h) _
      rw [this]; norm_num
    obtain ⟨p, hp, hfirst⟩ := C37_dish h hf rays k.idx k.ray hkr hdir0 (diameter := diameter) (Or.inr hoff)
    rw [ht] at hp
    obtain rfl : (t : WithTop ℝ) = p := Option.some.inj hp
    have hon : Placed frame (dishSet focal) k.point := by
      obtain ⟨c, hc, hc'⟩ := hfirst.2.1
      exact ⟨c, hc.1, hpt.trans hc'⟩
    obtain ⟨h1, h2⟩ := C37_focus (E := E) (diameter := diameter) h hf hon
    refine ⟨_, h2, ?_⟩
    rw [h1]
    show k.point + _ • reflection k.ray.dir k.normal = _
    rw [hn, hrk, hd]

/-! ## C38 -/

theorem hexagon_iff (R : ℝ) (frame : Tf ℝ) (p : V3 ℝ) :
    hexagonTest R frame p = true ↔ hexagon R (frame.inv.point p) := by
  unfold hexagonTest hexagon
  simp only
  generalize frame.inv.point p = q
  have h3 : (0 : ℝ) < √3 := Real.sqrt_pos.2 (by norm_num)
  have hs : √3 * √3 = 3 := Real.mul_self_sqrt (by norm_num)
  have c2 : cos (2 * (π / 3)) = -(1 / 2) := by
    rw [show 2 * (π / 3) = π - π / 3 by ring, cos_pi_sub, cos_pi_div_three]
  have s2 : sin (2 * (π / 3)) = √3 / 2 := by
    rw [show 2 * (π / 3) = π - π / 3 by ring, sin_pi_sub, sin_pi_div_three]
  have c3 : cos (3 * (π / 3)) = -1 := by rw [show 3 * (π / 3) = π by ring, cos_pi]
  have s3 : sin (3 * (π / 3)) = 0 := by rw [show 3 * (π / 3) = π by ring, sin_pi]
  have c4 : cos (4 * (π / 3)) = -(1 / 2) := by
    rw [show 4 * (π / 3) = π / 3 + π by ring, cos_add_pi, cos_pi_div_three]
  have s4 : sin (4 * (π / 3)) = -(√3 / 2) := by
    rw [show 4 * (π / 3) = π / 3 + π by ring, sin_add_pi, sin_pi_div_three]
  have c5 : cos (5 * (π / 3)) = 1 / 2 := by
    rw [show 5 * (π / 3) = 2 * π - π / 3 by ring, cos_two_pi_sub, cos_pi_div_three]
  have s5 : sin (5 * (π / 3)) = -(√3 / 2) := by
    rw [show 5 * (π / 3) = 2 * π - π / 3 by ring, sin_two_pi_sub, sin_pi_div_three]
  have ht : tan (π / 6) * √3 = 1 := by rw [tan_pi_div_six]; field_simp
  rw [cos_pi_div_six]
  simp only [Bool.not_eq_true', Bool.or_eq_false_iff, decide_eq_false_iff_not, not_lt]
  generalize tan (π / 6) = T at ht
  have hT : T = √3 / 3 := by
    have : T * √3 * √3 = √3 := by rw [ht, one_mul]
    rw [mul_assoc, hs] at this; linarith
  subst hT
  constructor
  · rintro ⟨hx, hy⟩
    obtain ⟨hx1, hx2⟩ := abs_le.1 hx
    have hxx := le_abs_self q.x
    have hxn := neg_abs_le q.x
    have hyy := le_trans (le_abs_self q.y) hy
    have hyn := le_trans (neg_le_abs q.y) hy
    have e1 : √3 / 3 * |q.x| ≥ √3 / 3 * q.x := mul_le_mul_of_nonneg_left hxx (by positivity)
    have e2 : √3 / 3 * |q.x| ≥ √3 / 3 * (-q.x) := mul_le_mul_of_nonneg_left (neg_le_abs q.x) (by positivity)
    have y1 : q.y * (√3 / 2) ≤ (R - √3 / 3 * q.x) * (√3 / 2) := mul_le_mul_of_nonneg_right (by linarith) (by positivity)
    have y2 : q.y * (√3 / 2) ≤ (R + √3 / 3 * q.x) * (√3 / 2) := mul_le_mul_of_nonneg_right (by linarith) (by positivity)
    have y3 : -q.y * (√3 / 2) ≤ (R - √3 / 3 * q.x) * (√3 / 2) := mul_le_mul_of_nonneg_right (by linarith) (by positivity)
    have y4 : -q.y * (√3 / 2) ≤ (R + √3 / 3 * q.x) * (√3 / 2) := mul_le_mul_of_nonneg_right (by linarith) (by positivity)
    intro k
    fin_cases k
    · simp; linarith
    · simp; rw [← div_eq_mul_inv]; nlinarith
    · simp [c2, s2]; nlinarith
    · simp [c3, s3]; linarith
    · simp [c4, s4]; nlinarith
    · simp [c5, s5]; nlinarith
  · intro hk
    have k0 := hk 0
    have k1 := hk 1
    have k2 := hk 2
    have k3 := hk 3
    have k4 := hk 4
    have k5 := hk 5
    simp [c2, s2, c3, s3, c4, s4, c5, s5] at k0 k1 k2 k3 k4 k5
    refine ⟨abs_le.2 ⟨by linarith, by linarith⟩, ?_⟩
    have hmul : ∀ a b : ℝ, a * (√3 / 2) ≤ b * (√3 / 2) → a ≤ b := fun a b h => le_of_mul_le_mul_right h (by positivity)
    rcases abs_cases q.x with ⟨hx, _⟩ | ⟨hx, _⟩ <;> rcases abs_cases q.y with ⟨hy, _⟩ | ⟨hy, _⟩ <;> rw [hx, hy] <;>
      apply hmul <;> nlinarith

/-- C38: the hexagonal dish is met at the first positive parameter at which the ray is on the paraboloid within
the regular hexagon (outside the tolerance around the axis direction). -/
theorem C38_hexagonal_dish {frame : Tf ℝ} (h : frame.Rigid) {diameter focal : ℝ} (hf : 0 < focal) (rays : Bundle ℝ E)
    (i : Nat) (r : Ray ℝ E) (hr : rays[i]? = some r) (hd : r.dir ≠ 0)
    (hA : 1 / 10 ^ 10 < offAxis frame r.dir / (4 * focal) ∨ offAxis frame r.dir = 0) :
    ∃ p, ((hexagonalDishGM diameter focal).find frame rays)[i]? = some p ∧
      FirstAmong (0 < ·) (Placed frame fun q => dishSet focal q ∧ hexagon (diameter / 2) q) r.vertex r.dir p := by
  refine ⟨_, (congrArg (·[i]?) (find_trim _ _ rays)).trans (getElem?_map' _ hr), ?_⟩
  apply dish_first h hf _ hd hA
  intro p _
  exact hexagon_iff _ _ _

/-- C38: whatever else is in the bundle, a ray that comes down the axis and is selected on a reflective hexagonal dish
leaves towards the focus. -/
theorem C38_concentrates {σ : Type _} {frame : Tf ℝ} (h : frame.Rigid) {diameter focal absorptivity : ℝ} (hf : 0 < focal)
    {w w' : σ} {rays out : Bundle ℝ E} {sel : List Nat}
    (hout : (mkSurf (hexagonalDishGM diameter focal) (reflective absorptivity) frame).outgoing w rays sel = .ok (out, w'))
    {q : Ray ℝ E} (hq : q ∈ out) {r : Ray ℝ E} (hr : rays[q.parent]? = some r) (hd : r.dir = frame.dir ⟨0, 0, -1⟩) :
    ∃ s : ℝ, 0 < s ∧ q.vertex + s • q.dir = frame.point ⟨0, 0, focal⟩ := by
  unfold mkSurf at hout
  simp only at hout
  split at hout
  · simp at hout
  · rename_i recs hrecs
    obtain ⟨_, hall⟩ := hitRecs_ok hrecs
    simp only [reflective, Except.ok.injEq, Prod.mk.injEq] at hout
    rw [← hout.1] at hq
    obtain ⟨k, hk, rfl⟩ := List.mem_map.1 hq
    obtain ⟨hkr, t, ht, hpt, hn⟩ := hall k hk
    have hrk : k.ray = r := by
      have : (reflectOne absorptivity k).parent = k.idx := rfl
      rw [this, hkr] at hr
      exact Option.some.inj hr
    have hdir0 : k.ray.dir ≠ 0 := by
      rw [hrk, hd]
      intro h0
      have h1 : frame.rot.inv.mulVec (frame.rot.mulVec ⟨0, 0, -1⟩) = ⟨0, 0, -1⟩ :=
        M3.inv_mulVec_mulVec (M3.IsRotation.det_ne h) _
      unfold Tf.dir at h0
      rw [h0] at h1
      have := congrArg V3.z h1
      simp at this
    have hoff : offAxis frame k.ray.dir = 0 := by
      rw [← local_sq h, localDir_eq h, hrk, hd]
      have : frame.inv.dir (frame.dir ⟨0, 0, -1⟩) = ⟨0, 0, -1⟩ := M3.inv_mulVec_mulVec (M3.IsRotation.det_ne h) _
      rw [this]; norm_num
    obtain ⟨p, hp, hfirst⟩ := C38_hexagonal_dish h hf rays k.idx k.ray hkr hdir0 (diameter := diameter) (Or.inr hoff)
    rw [ht] at hp
    obtain rfl : (t : WithTop ℝ) = p := Option.some.inj hp
    have hon : Placed frame (dishSet focal) k.point := by
      obtain ⟨c, hc, hc'⟩ := hfirst.2.1
      exact ⟨c, hc.1, hpt.trans hc'⟩
    obtain ⟨h1, h2⟩ := C37_focus (E := E) (diameter := diameter) h hf hon
    refine ⟨_, h2, ?_⟩
    rw [h1]
    show k.point + _ • reflection k.ray.dir k.normal = _
    rw [hn, hrk, hd]
    rfl

/-! ## Examples -/

/-- A ray from (3, 0, 1) against X. -/
noncomputable def Examples.sideways : Ray ℝ Unit := ⟨⟨3, 0, 1⟩, ⟨-1, 0, 0⟩, 1, 0, none, ()⟩

/-- A ray down the line x = 1, y = 0. -/
noncomputable def Examples.downwards : Ray ℝ Unit := ⟨⟨1, 0, 9⟩, ⟨0, 0, -1⟩, 1, 0, none, ()⟩

example : ∃ g : Geometry ℝ Unit, sphereGM 2 = .ok g ∧ ∃ p, (g.find 1 [Examples.downwards, Examples.sideways])[1]? = some p ∧
    FirstAmong (0 < ·) (Placed 1 (sphereSet 2)) (⟨3, 0, 1⟩ : V3 ℝ) ⟨-1, 0, 0⟩ p := by
  obtain ⟨g, hg⟩ := (C34_constructor (E := Unit) 2).1 (by norm_num)
  exact ⟨g, hg, C34_sphere Tf.Rigid.one hg _ 1 Examples.sideways rfl
    (by unfold Examples.sideways V3.IsUnit V3.dot; norm_num)⟩

theorem Examples.sideways_off : offAxis 1 Examples.sideways.dir = 1 := by
  unfold offAxis Examples.sideways V3.dot V3.cross
  simp

theorem Examples.downwards_off : offAxis 1 Examples.downwards.dir = 0 := by
  unfold offAxis Examples.downwards V3.dot V3.cross
  simp

example : ∃ p q, ((finiteCylinderGM 2 4).find 1 [Examples.downwards, Examples.sideways]) = [p, q] ∧ p = ⊤ ∧
    FirstAmong (0 < ·) (Placed 1 (finiteCylinderSet (2 / 2) 4)) (⟨3, 0, 1⟩ : V3 ℝ) ⟨-1, 0, 0⟩ q := by
  obtain ⟨p, hp, _, h1⟩ := C35_finite_cylinder (E := Unit) Tf.Rigid.one 2 4 [Examples.downwards, Examples.sideways] 0 _ rfl
  obtain ⟨q, hq, h2, _⟩ := C35_finite_cylinder (E := Unit) Tf.Rigid.one 2 4 [Examples.downwards, Examples.sideways] 1 _ rfl
  refine ⟨p, q, ?_, h1 Examples.downwards_off, h2 (by rw [Examples.sideways_off]; norm_num)⟩
  have hlen : ((finiteCylinderGM 2 4 : Geometry ℝ Unit).find 1 [Examples.downwards, Examples.sideways]).length = 2 := by
    simp [finiteCylinderGM, quadricFind]
  match hl : (finiteCylinderGM 2 4 : Geometry ℝ Unit).find 1 [Examples.downwards, Examples.sideways] with
  | [] => simp [hl] at hlen
  | [_] => simp [hl] at hlen
  | [x, y] => rw [hl] at hp hq; simp at hp hq; rw [hp, hq]
  | _ :: _ :: _ :: _ => simp [hl] at hlen

/-- The axis-parallel ray meets the paraboloid of focal length 1 at (1, 0, 1/4). -/
theorem Examples.downwards_first {P : V3 ℝ → Prop} (hP : P ⟨1, 0, 1 / 4⟩) :
    FirstAmong (0 < ·) (Placed (1 : Tf ℝ) fun q => dishSet 1 q ∧ P q) Examples.downwards.vertex Examples.downwards.dir ((35 / 4 : ℝ) : WithTop ℝ) := by
  have hat : ∀ s : ℝ, (1 : Tf ℝ).inv.point (Examples.downwards.vertex + s • Examples.downwards.dir) = ⟨1, 0, 9 - s⟩ := by
    intro s
    rw [local_at Tf.Rigid.one]
    unfold localDir Tf.inv Tf.point M3.transpose M3.inv M3.det Examples.downwards V3.dot V3.cross
    apply V3.ext <;> simp
    ring
  refine ⟨by norm_num, ?_, fun s _ h => ?_⟩
  · rw [placed_iff (M3.IsRotation.det_ne Tf.Rigid.one), hat]
    refine ⟨by unfold dishSet; norm_num, ?_⟩
    norm_num at hP ⊢
    exact hP
  · rw [placed_iff (M3.IsRotation.det_ne Tf.Rigid.one), hat] at h
    have := h.1
    unfold dishSet at this
    norm_num at this ⊢
    linarith

theorem Examples.downwards_ne : Examples.downwards.dir ≠ 0 := by
  intro h; have := congrArg V3.z h; simp [Examples.downwards] at this

theorem Examples.dish_finds : (parabolicDishGM 4 1 : Geometry ℝ Unit).find 1 [Examples.downwards] = [((35 / 4 : ℝ) : WithTop ℝ)] := by
  obtain ⟨p, hp, hf⟩ := C37_dish (E := Unit) (diameter := 4) Tf.Rigid.one one_pos [Examples.downwards] 0 _ rfl Examples.downwards_ne
    (Or.inr Examples.downwards_off)
  rw [hf.unique (Examples.downwards_first (P := fun q => q.x ^ 2 + q.y ^ 2 ≤ (4 / 2) ^ 2) (by norm_num))] at hp
  have hlen : ((parabolicDishGM 4 1 : Geometry ℝ Unit).find 1 [Examples.downwards]).length = 1 := by
    simp [parabolicDishGM, quadricFind]
  match hl : (parabolicDishGM 4 1 : Geometry ℝ Unit).find 1 [Examples.downwards] with
  | [] => simp [hl] at hlen
  | [x] => rw [hl] at hp; simp at hp; rw [hp]
  | _ :: _ :: _ => simp [hl] at hlen

theorem Examples.hexagonal_dish_finds :
    (hexagonalDishGM 4 1 : Geometry ℝ Unit).find 1 [Examples.downwards] = [((35 / 4 : ℝ) : WithTop ℝ)] := by
  obtain ⟨p, hp, hf⟩ := C38_hexagonal_dish (E := Unit) (diameter := 4) Tf.Rigid.one one_pos [Examples.downwards] 0 _ rfl Examples.downwards_ne
    (Or.inr Examples.downwards_off)
  rw [hf.unique (Examples.downwards_first (P := hexagon (4 / 2)) ?_)] at hp
  · have hlen : ((hexagonalDishGM 4 1 : Geometry ℝ Unit).find 1 [Examples.downwards]).length = 1 := by
      simp [hexagonalDishGM, quadricFind]
    match hl : (hexagonalDishGM 4 1 : Geometry ℝ Unit).find 1 [Examples.downwards] with
    | [] => simp [hl] at hlen
    | [x] => rw [hl] at hp; simp at hp; rw [hp]
    | _ :: _ :: _ => simp [hl] at hlen
  · intro k
    have h1 := Real.cos_le_one (k * (Real.pi / 3))
    have h2 : (1 : ℝ) ≤ √3 := Real.one_le_sqrt.2 (by norm_num)
    rw [Real.cos_pi_div_six]
    simp only [zero_mul, add_zero, one_mul]
    linarith

example : ∃ p, ((hexagonalDishGM 4 1 : Geometry ℝ Unit).find 1 [Examples.downwards, Examples.sideways])[1]? = some p ∧
    FirstAmong (0 < ·) (Placed (1 : Tf ℝ) fun q => dishSet 1 q ∧ hexagon (4 / 2) q) ⟨3, 0, 1⟩ ⟨-1, 0, 0⟩ p := by
  have hne : Examples.sideways.dir ≠ 0 := by
    intro h; have := congrArg V3.x h; simp [Examples.sideways] at this
  exact C38_hexagonal_dish (E := Unit) (diameter := 4) Tf.Rigid.one one_pos _ 1 Examples.sideways rfl hne
    (Or.inl (by rw [Examples.sideways_off]; norm_num))

/-- Reflected by either dish, that ray goes through the focus. -/
example : ∃ out, (mkSurf (parabolicDishGM 4 1) (reflective (1 / 10)) 1).outgoing () [Examples.downwards] [0] = .ok (out, ()) ∧
    out.length = 1 ∧ ∀ q ∈ out, ∃ s : ℝ, 0 < s ∧ q.vertex + s • q.dir = (1 : Tf ℝ).point ⟨0, 0, 1⟩ := by
  have h : (mkSurf (parabolicDishGM 4 1) (reflective (1 / 10)) 1).outgoing () [Examples.downwards] [0] =
      .ok ([reflectOne (1 / 10) ⟨0, Examples.downwards, Examples.downwards.at (35 / 4),
        (parabolicDishGM 4 1 : Geometry ℝ Unit).normal 1 (Examples.downwards.at (35 / 4)) Examples.downwards.dir⟩], ()) := by
    unfold mkSurf hitRecs hitRecs
    simp only [Examples.dish_finds]
    rfl
  exact ⟨_, h, rfl, fun q hq => C37_concentrates Tf.Rigid.one one_pos h hq (r := Examples.downwards)
    (by rw [List.mem_singleton.1 hq]; rfl) (Tf.one_dir _).symm⟩

example : ∃ out, (mkSurf (hexagonalDishGM 4 1) (reflective (1 / 10)) 1).outgoing () [Examples.downwards] [0] = .ok (out, ()) ∧
    out.length = 1 ∧ ∀ q ∈ out, ∃ s : ℝ, 0 < s ∧ q.vertex + s • q.dir = (1 : Tf ℝ).point ⟨0, 0, 1⟩ := by
  have h : (mkSurf (hexagonalDishGM 4 1) (reflective (1 / 10)) 1).outgoing () [Examples.downwards] [0] =
      .ok ([reflectOne (1 / 10) ⟨0, Examples.downwards, Examples.downwards.at (35 / 4),
        (hexagonalDishGM 4 1 : Geometry ℝ Unit).normal 1 (Examples.downwards.at (35 / 4)) Examples.downwards.dir⟩], ()) := by
    unfold mkSurf hitRecs hitRecs
    simp only [Examples.hexagonal_dish_finds]
    rfl
  exact ⟨_, h, rfl, fun q hq => C38_concentrates Tf.Rigid.one one_pos h hq (r := Examples.downwards)
    (by rw [List.mem_singleton.1 hq]; rfl) (Tf.one_dir _).symm⟩

/-- The unbounded cylinder and paraboloid, for the two rays. -/
example : (∃ p, ((infiniteCylinderGM 2).find 1 [Examples.downwards, Examples.sideways])[1]? = some p ∧
      FirstAmong (0 < ·) (Placed 1 (cylinderSet (2 / 2))) (⟨3, 0, 1⟩ : V3 ℝ) ⟨-1, 0, 0⟩ p) ∧
    (∃ p, ((paraboloidGM 2 1).find 1 [Examples.downwards, Examples.sideways])[0]? = some p ∧
      FirstAmong (0 < ·) (Placed 1 (paraboloidSet 2 1)) (⟨1, 0, 9⟩ : V3 ℝ) ⟨0, 0, -1⟩ p) := by
  obtain ⟨p, h1, h2, _⟩ := C35_infinite_cylinder (E := Unit) Tf.Rigid.one 2 [Examples.downwards, Examples.sideways] 1 _ rfl
  obtain ⟨q, h3, h4, _⟩ := C36_paraboloid (E := Unit) (a := 2) (b := 1) Tf.Rigid.one (by norm_num) (by norm_num)
    [Examples.downwards, Examples.sideways] 0 _ rfl Examples.downwards_ne _ rfl
  refine ⟨⟨p, h1, h2 (by rw [Examples.sideways_off]; norm_num)⟩, q, h3, h4 (Or.inr ?_)⟩
  unfold Tf.dir Tf.inv M3.inv M3.det Examples.downwards
  simp [V3.cross, V3.dot]

/-- The focus of the dish, seen from (1, 0, 1/4). -/
example : 0 < ((1 : Tf ℝ).inv.point ⟨1, 0, 1 / 4⟩).z + 1 := by
  refine (C37_focus (E := Unit) (diameter := 4) Tf.Rigid.one one_pos ⟨⟨1, 0, 1 / 4⟩, ?_, (Tf.one_point _).symm⟩).2
  unfold dishSet; norm_num

end Tracer
