import Verif.Spec.Geometry
import Verif.Model.Flat
import Verif.Lemmas.Rigid
import Verif.Lemmas.Contracts
import Mathlib.Tactic.Linarith
import Mathlib.Tactic.NormNum
import Mathlib.Algebra.Order.Field.Rat

/-! # Flat surfaces (C28, C30, C31, C32, C33, C40) -/

set_option linter.unusedSectionVars false

namespace Tracer

variable {K E : Type _} [Field K] [LinearOrder K] [IsStrictOrderedRing K]

/-! ## Lemmas -/

theorem FirstAmong.unique {I : K → Prop} {S : V3 K → Prop} {v d : V3 K} {p q : WithTop K}
    (hp : FirstAmong I S v d p) (hq : FirstAmong I S v d q) : p = q := by
  match p, q, hp, hq with
  | none, none, _, _ => rfl
  | some t, none, hp, hq => exact absurd hp.2.1 (hq t hp.1)
  | none, some t, hp, hq => exact absurd hq.2.1 (hp t hq.1)
  | some t, some s, hp, hq =>
    rw [le_antisymm (hp.2.2 s hq.1 hq.2.1) (hq.2.2 t hp.1 hp.2.1)]

theorem FirstAmong.congr {I : K → Prop} {S S' : V3 K → Prop} {v d : V3 K} (h : ∀ p, S p ↔ S' p) {p : WithTop K}
    (hp : FirstAmong I S v d p) : FirstAmong I S' v d p := by
  match p, hp with
  | none, hp => exact fun s hs hS => hp s hs ((h _).2 hS)
  | some t, hp => exact ⟨hp.1, (h _).1 hp.2.1, fun s hs hS => hp.2.2 s hs ((h _).2 hS)⟩

theorem placed_iff {frame : Tf K} (h : frame.rot.det ≠ 0) (S : V3 K → Prop) (p : V3 K) :
    Placed frame S p ↔ S (frame.inv.point p) := by
  constructor
  · rintro ⟨q, hq, rfl⟩; rwa [Tf.inv_point_point h]
  · intro hs; exact ⟨_, hs, (Tf.point_inv_point h p).symm⟩

/-- The Z coordinate in a rigid frame is the component along the frame's Z axis. -/
theorem local_z {frame : Tf K} (h : frame.Rigid) (p : V3 K) :
    (frame.inv.point p).z = V3.dot frame.rot.c3 (p - frame.loc) := by
  unfold Tf.inv Tf.point
  rw [M3.IsRotation.inv_eq h]
  unfold V3.dot M3.transpose
  simp only [V3.add_z, M3.mulVec_z, M3.mulVec_x, M3.mulVec_y, V3.neg_z, V3.sub_x, V3.sub_y, V3.sub_z]
  ring

theorem plane_iff {frame : Tf K} (h : frame.Rigid) (p : V3 K) :
    Placed frame planeXY p ↔ V3.dot frame.rot.c3 (p - frame.loc) = 0 := by
  rw [placed_iff (M3.IsRotation.det_ne h), ← local_z h]
  rfl

theorem plane_at (frame : Tf K) (v d : V3 K) (t : K) :
    V3.dot frame.rot.c3 (v + t • d - frame.loc) =
      V3.dot frame.rot.c3 (v - frame.loc) + t * V3.dot d frame.rot.c3 := by
  unfold V3.dot; simp; ring

theorem parallelTol_nonneg : (0 : K) ≤ parallelTol := by
  unfold parallelTol
  exact div_nonneg zero_le_one (pow_nonneg (Nat.cast_nonneg 10) 10)

/-! ## C30 -/

theorem flatParam_first {frame : Tf K} (h : frame.Rigid) {v d : V3 K}
    (hd : parallelTol < |V3.dot d frame.rot.c3|) :
    FirstAmong (0 ≤ ·) (Placed frame planeXY) v d (flatParam frame v d) := by
  have hne : V3.dot d frame.rot.c3 ≠ 0 := by
    intro h0; rw [h0, abs_zero] at hd; exact absurd hd (not_lt.2 parallelTol_nonneg)
  have hiff : ∀ s, Placed frame planeXY (v + s • d) ↔
      s = -(V3.dot frame.rot.c3 (v - frame.loc)) / V3.dot d frame.rot.c3 := by
    intro s
    rw [plane_iff h, plane_at, eq_div_iff hne]
    constructor <;> intro h' <;> linarith
  unfold flatParam
  simp only [if_pos hd]
  split
  · rename_i hneg
    intro s hs hS
    rw [(hiff s).1 hS] at hs
    exact absurd hneg (not_lt.2 hs)
  · rename_i hneg
    exact ⟨not_lt.1 hneg, (hiff _).2 rfl, fun s _ hS => le_of_eq ((hiff s).1 hS).symm⟩

theorem flatParam_parallel {frame : Tf K} {v d : V3 K} (hd : |V3.dot d frame.rot.c3| ≤ parallelTol) :
    flatParam frame v d = ⊤ := by
  unfold flatParam
  simp only [if_neg (not_lt.2 hd)]

/-- C30: for every bundle and every ray in it, the infinite flat surface answers with the first (only)
parameter, zero included, at which the ray is in the plane, infinity if there is none; a ray within 1e-10 of
parallel misses. -/
theorem C30_flat {frame : Tf K} (h : frame.Rigid) (rays : Bundle K E) (i : Nat) (r : Ray K E)
    (hr : rays[i]? = some r) :
    ∃ p, (flatGM.find frame rays)[i]? = some p ∧
      (1 / 10 ^ 10 < |V3.dot r.dir frame.rot.c3| →
        FirstAmong (0 ≤ ·) (Placed frame planeXY) r.vertex r.dir p) ∧
      (|V3.dot r.dir frame.rot.c3| ≤ 1 / 10 ^ 10 → p = ⊤) := by
  refine ⟨flatParam frame r.vertex r.dir, ?_, flatParam_first h, flatParam_parallel⟩
  simp [flatGM, hr]

/-! ## Apertures -/

/-- Trimming by an aperture. -/
theorem finiteParam_first {frame : Tf K} (h : frame.Rigid) {v d : V3 K} {out : Tf K → V3 K → Bool}
    {S : V3 K → Prop} (hS : ∀ p, Placed frame S p ↔ Placed frame planeXY p ∧ out frame p = false)
    (hd : parallelTol < |V3.dot d frame.rot.c3|) :
    FirstAmong (0 ≤ ·) (Placed frame S) v d (finiteParam out frame v d) := by
  have hf := flatParam_first h (v := v) hd
  unfold finiteParam
  cases hp : flatParam frame v d with
  | top =>
    rw [hp] at hf
    intro s hs hS'
    exact hf s hs ((hS _).1 hS').1
  | coe t =>
    rw [hp] at hf
    obtain ⟨h0, h1, h2⟩ := hf
    show FirstAmong _ _ v d (if out frame (v + t • d) = true then ⊤ else (t : WithTop K))
    split
    · rename_i ho
      intro s hs hS'
      obtain ⟨h3, h4⟩ := (hS _).1 hS'
      have hts : t ≤ s := h2 s hs h3
      have hne : V3.dot d frame.rot.c3 ≠ 0 := by
        intro h0; rw [h0, abs_zero] at hd; exact absurd hd (not_lt.2 parallelTol_nonneg)
      have : s = t := by
        rw [plane_iff h, plane_at] at h1 h3
        have : (s - t) * V3.dot d frame.rot.c3 = 0 := by linear_combination h3 - h1
        rcases mul_eq_zero.1 this with h | h
        · linarith
        · exact absurd h hne
      rw [this, ho] at h4
      exact absurd h4 (by simp)
    · rename_i ho
      refine ⟨h0, (hS _).2 ⟨h1, by simpa using ho⟩, fun s hs hS' => h2 s hs ((hS _).1 hS').1⟩

theorem finiteParam_parallel {frame : Tf K} {v d : V3 K} {out : Tf K → V3 K → Bool}
    (hd : |V3.dot d frame.rot.c3| ≤ parallelTol) : finiteParam out frame v d = ⊤ := by
  unfold finiteParam
  rw [flatParam_parallel hd]

theorem finite_find {out : Tf K → V3 K → Bool} {frame : Tf K} {rays : Bundle K E} {i : Nat} {r : Ray K E}
    (hr : rays[i]? = some r) :
    ((finiteFlatGM out).find frame rays)[i]? = some (finiteParam out frame r.vertex r.dir) := by
  simp [finiteFlatGM, hr]

theorem rect_placed {frame : Tf K} (h : frame.Rigid) (width height : K) (p : V3 K) :
    Placed frame (rectXY width height) p ↔ Placed frame planeXY p ∧ rectOutside width height frame p = false := by
  rw [placed_iff (M3.IsRotation.det_ne h), placed_iff (M3.IsRotation.det_ne h)]
  unfold rectXY planeXY rectOutside toLocal
  simp only [Bool.or_eq_false_iff, decide_eq_false_iff_not, not_lt]

theorem round_placed {frame : Tf K} (h : frame.Rigid) (R : K) (p : V3 K) :
    Placed frame (diskXY R) p ↔ Placed frame planeXY p ∧ roundOutside R frame p = false := by
  rw [placed_iff (M3.IsRotation.det_ne h), placed_iff (M3.IsRotation.det_ne h)]
  unfold diskXY planeXY roundOutside toLocal
  simp only [decide_eq_false_iff_not, not_lt]

/-- C31: the rectangular plate is met exactly in its rectangle. -/
theorem C31_rect_plate {frame : Tf K} (h : frame.Rigid) {width height : K} {g : Geometry K E}
    (hg : rectPlateGM width height = .ok g) (rays : Bundle K E) (i : Nat) (r : Ray K E) (hr : rays[i]? = some r) :
    ∃ p, (g.find frame rays)[i]? = some p ∧
      (1 / 10 ^ 10 < |V3.dot r.dir frame.rot.c3| →
        FirstAmong (0 ≤ ·) (Placed frame (rectXY width height)) r.vertex r.dir p) ∧
      (|V3.dot r.dir frame.rot.c3| ≤ 1 / 10 ^ 10 → p = ⊤) := by
  unfold rectPlateGM at hg
  split at hg
  · simp at hg
  · split at hg
    · simp at hg
    · cases hg
      exact ⟨_, finite_find hr, finiteParam_first h (rect_placed h width height), finiteParam_parallel⟩

/-- C31: the constructor accepts exactly positive dimensions. -/
theorem C31_constructor (width height : K) :
    (0 < width ∧ 0 < height → ∃ g, (rectPlateGM width height : Except Err (Geometry K E)) = .ok g) ∧
    (width ≤ 0 ∨ height ≤ 0 → (rectPlateGM width height : Except Err (Geometry K E)) = .error .value) := by
  unfold rectPlateGM
  constructor
  · rintro ⟨h1, h2⟩
    rw [if_neg (not_le.2 h1), if_neg (not_le.2 h2)]
    exact ⟨_, rfl⟩
  · rintro (h | h)
    · rw [if_pos h]
    · rw [if_pos h]; split <;> rfl

/-- C32: the round plate is met exactly in its disk. -/
theorem C32_round_plate {frame : Tf K} (h : frame.Rigid) {R : K} {g : Geometry K E}
    (hg : roundPlateGM R = .ok g) (rays : Bundle K E) (i : Nat) (r : Ray K E) (hr : rays[i]? = some r) :
    ∃ p, (g.find frame rays)[i]? = some p ∧
      (1 / 10 ^ 10 < |V3.dot r.dir frame.rot.c3| →
        FirstAmong (0 ≤ ·) (Placed frame (diskXY R)) r.vertex r.dir p) ∧
      (|V3.dot r.dir frame.rot.c3| ≤ 1 / 10 ^ 10 → p = ⊤) := by
  unfold roundPlateGM at hg
  split at hg
  · simp at hg
  · cases hg
    exact ⟨_, finite_find hr, finiteParam_first h (round_placed h R), finiteParam_parallel⟩

/-- C32: the constructor accepts exactly positive radii. -/
theorem C32_constructor (R : K) :
    (0 < R → ∃ g, (roundPlateGM R : Except Err (Geometry K E)) = .ok g) ∧
    (R ≤ 0 → (roundPlateGM R : Except Err (Geometry K E)) = .error .value) := by
  unfold roundPlateGM
  constructor
  · intro h; rw [if_neg (not_le.2 h)]; exact ⟨_, rfl⟩
  · intro h; rw [if_pos h]

/-! ### Triangles -/

theorem tri_placed {frame : Tf K} (h : frame.Rigid) {a b : V3 K} (ha : a.z = 0) (hb : b.z = 0)
    (hab : a.x * b.y - a.y * b.x ≠ 0) (p : V3 K) :
    Placed frame (triangle a b) p ↔ Placed frame planeXY p ∧ triOutside a b frame p = false := by
  have hdet := M3.IsRotation.det_ne h
  rw [placed_iff hdet, placed_iff hdet]
  have hp : p = frame.point (frame.inv.point p) := (Tf.point_inv_point hdet p).symm
  generalize hq : frame.inv.point p = q at hp
  have hw : p - frame.loc = frame.rot.mulVec q := by
    rw [hp]; unfold Tf.point; apply V3.ext <;> simp
  have hA : ∀ c : V3 K, V3.dot (p - frame.loc) (frame.point c - frame.loc) = V3.dot q c := by
    intro c
    have hc : frame.point c - frame.loc = frame.rot.mulVec c := by
      unfold Tf.point; apply V3.ext <;> simp
    rw [hw, hc, M3.IsRotation.dot h]
  unfold triOutside planeXY triangle
  simp only [hA, Bool.or_eq_false_iff, decide_eq_false_iff_not, not_lt]
  have hden : (V3.dot a b ^ 2 - V3.dot a a * V3.dot b b) = -(a.x * b.y - a.y * b.x) ^ 2 := by
    unfold V3.dot; rw [ha, hb]; ring
  have hden0 : V3.dot a b ^ 2 - V3.dot a a * V3.dot b b ≠ 0 := by
    rw [hden]; exact neg_ne_zero.2 (pow_ne_zero 2 hab)
  constructor
  · rintro ⟨s, t, h0, h1, h2, rfl⟩
    refine ⟨by simp [ha, hb], ?_⟩
    have hs : (V3.dot a b * V3.dot (s • a + t • b) b - V3.dot b b * V3.dot (s • a + t • b) a) /
        (V3.dot a b ^ 2 - V3.dot a a * V3.dot b b) = s := by
      rw [div_eq_iff hden0]; unfold V3.dot; simp only [V3.add_x, V3.add_y, V3.add_z, V3.smul_x, V3.smul_y, V3.smul_z]; ring
    have ht : (V3.dot a b * V3.dot (s • a + t • b) a - V3.dot a a * V3.dot (s • a + t • b) b) /
        (V3.dot a b ^ 2 - V3.dot a a * V3.dot b b) = t := by
      rw [div_eq_iff hden0]; unfold V3.dot; simp only [V3.add_x, V3.add_y, V3.add_z, V3.smul_x, V3.smul_y, V3.smul_z]; ring
    rw [hs, ht]
    exact ⟨⟨h0, h1⟩, h2⟩
  · rintro ⟨hz, ⟨h0, h1⟩, h2⟩
    refine ⟨_, _, h0, h1, h2, ?_⟩
    have hd2 := hden0
    rw [hden] at hd2 ⊢
    have hsq : (a.x * b.y - a.y * b.x) ^ 2 ≠ 0 := pow_ne_zero 2 hab
    apply V3.ext
    · simp only [V3.add_x, V3.smul_x]
      rw [div_mul_eq_mul_div, div_mul_eq_mul_div, ← add_div, eq_div_iff hd2]
      unfold V3.dot; rw [ha, hb, hz]; ring
    · simp only [V3.add_y, V3.smul_y]
      rw [div_mul_eq_mul_div, div_mul_eq_mul_div, ← add_div, eq_div_iff hd2]
      unfold V3.dot; rw [ha, hb, hz]; ring
    · simp [ha, hb, hz]

/-- C33: the triangular face is met exactly in the triangle of the origin and the two given vertices,
for every non-degenerate triangle in the local XY plane. -/
theorem C33_triangle {frame : Tf K} (h : frame.Rigid) {a b : V3 K} (ha : a.z = 0) (hb : b.z = 0)
    (hab : V3.cross a b ≠ 0) (rays : Bundle K E) (i : Nat) (r : Ray K E) (hr : rays[i]? = some r) :
    ∃ p, ((triangularFace a b).find frame rays)[i]? = some p ∧
      (1 / 10 ^ 10 < |V3.dot r.dir frame.rot.c3| →
        FirstAmong (0 ≤ ·) (Placed frame (triangle a b)) r.vertex r.dir p) ∧
      (|V3.dot r.dir frame.rot.c3| ≤ 1 / 10 ^ 10 → p = ⊤) := by
  have hab' : a.x * b.y - a.y * b.x ≠ 0 := by
    intro h0
    apply hab
    unfold V3.cross
    rw [ha, hb, h0]
    apply V3.ext <;> simp
  exact ⟨_, finite_find hr, finiteParam_first h (tri_placed h ha hb hab'), finiteParam_parallel⟩

/-! ## C40 for flat surfaces -/

/-- C40, flat surfaces (plates and triangles report the same normals): a unit vector, orthogonal to the
plane, on the side the ray comes from. -/
theorem C40_flat {frame : Tf K} (h : frame.Rigid) (hit d : V3 K) :
    (flatNormal frame hit d).IsUnit ∧
    (∀ p q, Placed frame planeXY p → Placed frame planeXY q → V3.dot (p - q) (flatNormal frame hit d) = 0) ∧
    V3.dot d (flatNormal frame hit d) ≤ 0 := by
  have hu : frame.rot.c3.IsUnit := ((M3.isRotation_iff _).1 h).1.2.2.1
  have hneg : ∀ u v : V3 K, V3.dot u (-v) = -V3.dot u v := by intro u v; unfold V3.dot; simp; ring
  have horth : ∀ p q, Placed frame planeXY p → Placed frame planeXY q → V3.dot (p - q) frame.rot.c3 = 0 := by
    intro p q hp hq
    rw [plane_iff h] at hp hq
    unfold V3.dot at *
    simp only [V3.sub_x, V3.sub_y, V3.sub_z] at *
    linear_combination hp - hq
  unfold flatNormal
  split
  · rename_i hpos
    refine ⟨?_, ?_, ?_⟩
    · unfold V3.IsUnit V3.dot at *; simp only [V3.neg_x, V3.neg_y, V3.neg_z]; linarith
    · intro p q hp hq; rw [hneg, horth p q hp hq, neg_zero]
    · rw [hneg]; linarith
  · rename_i hpos
    exact ⟨hu, horth, not_lt.1 hpos⟩

/-! ## C28 for flat surfaces -/

theorem move_rot_c3 (M frame : Tf K) : (M * frame).rot.c3 = M.rot.mulVec frame.rot.c3 := rfl

theorem flatParam_move {M : Tf K} (hM : M.Rigid) (frame : Tf K) (v d : V3 K) :
    flatParam (M * frame) (M.point v) (M.dir d) = flatParam frame v d := by
  unfold flatParam
  have h1 : V3.dot (M.dir d) (M * frame).rot.c3 = V3.dot d frame.rot.c3 := by
    rw [move_rot_c3]; exact M3.IsRotation.dot hM _ _
  have h2 : V3.dot (M * frame).rot.c3 (M.point v - (M * frame).loc) = V3.dot frame.rot.c3 (v - frame.loc) := by
    have : M.point v - (M * frame).loc = M.rot.mulVec (v - frame.loc) := Tf.Rigid.point_sub M v frame.loc
    rw [this, move_rot_c3]
    exact M3.IsRotation.dot hM _ _
  rw [h1, h2]

theorem mulVec_neg' (m : M3 K) (v : V3 K) : m.mulVec (-v) = -m.mulVec v := by
  apply V3.ext <;> simp <;> ring

theorem flatNormal_move {M : Tf K} (hM : M.Rigid) (frame : Tf K) (hit d : V3 K) :
    flatNormal (M * frame) (M.point hit) (M.dir d) = M.dir (flatNormal frame hit d) := by
  have h1 : V3.dot (M.dir d) (M * frame).rot.c3 = V3.dot d frame.rot.c3 := by
    rw [move_rot_c3]; exact M3.IsRotation.dot hM _ _
  unfold flatNormal
  rw [h1]
  split
  · rw [move_rot_c3]; exact (mulVec_neg' _ _).symm
  · rfl

theorem point_at (M : Tf K) (v d : V3 K) (t : K) : M.point v + t • M.dir d = M.point (v + t • d) := by
  rw [Tf.point_add_smul]

theorem finiteParam_move {M frame : Tf K} (hM : M.Rigid) {out : Tf K → V3 K → Bool}
    (hout : ∀ p, out (M * frame) (M.point p) = out frame p) (v d : V3 K) :
    finiteParam out (M * frame) (M.point v) (M.dir d) = finiteParam out frame v d := by
  unfold finiteParam
  rw [flatParam_move hM]
  cases flatParam frame v d with
  | top => rfl
  | coe t =>
    show (if out (M * frame) (M.point v + t • M.dir d) = true then ⊤ else (t : WithTop K)) =
      if out frame (v + t • d) = true then ⊤ else (t : WithTop K)
    rw [point_at, hout]

theorem toLocal_move {M frame : Tf K} (hM : M.Rigid) (hf : frame.Rigid) (p : V3 K) :
    toLocal (M * frame) (M.point p) = toLocal frame p := by
  unfold toLocal
  have hd := M3.IsRotation.det_ne (Tf.Rigid.mul hM hf)
  have hd' := M3.IsRotation.det_ne hf
  have : M.point p = (M * frame).point (frame.inv.point p) := by
    rw [Tf.mul_point, Tf.point_inv_point hd']
  rw [this, Tf.inv_point_point hd]

theorem finite_equivariant {out : Tf K → V3 K → Bool}
    (hout : ∀ M frame p, Tf.Rigid M → Tf.Rigid frame → out (M * frame) (M.point p) = out frame p) :
    (finiteFlatGM out : Geometry K E).Equivariant where
  find M frame rays hM hf := by
    unfold finiteFlatGM
    simp only [List.map_map]
    apply List.map_congr_left
    intro r _
    exact finiteParam_move hM (fun p => hout M frame p hM hf) _ _
  normal M frame hit d hM _ := flatNormal_move hM frame hit d

/-- C28: the flat surfaces and plates do not notice a common rigid motion. -/
theorem C28_flat : (flatGM : Geometry K E).Equivariant where
  find M frame rays hM hf := by
    unfold flatGM
    simp only [List.map_map]
    apply List.map_congr_left
    intro r _
    exact flatParam_move hM _ _ _
  normal M frame hit d hM _ := flatNormal_move hM frame hit d

/-- C28: rectangular plates. -/
theorem C28_rect {width height : K} {g : Geometry K E} (hg : rectPlateGM width height = .ok g) : g.Equivariant := by
  unfold rectPlateGM at hg
  split at hg
  · simp at hg
  · split at hg
    · simp at hg
    · cases hg
      apply finite_equivariant
      intro M frame p hM hf
      unfold rectOutside
      rw [toLocal_move hM hf]

/-- C28: round plates. -/
theorem C28_round {R : K} {g : Geometry K E} (hg : roundPlateGM R = .ok g) : g.Equivariant := by
  unfold roundPlateGM at hg
  split at hg
  · simp at hg
  · cases hg
    apply finite_equivariant
    intro M frame p hM hf
    unfold roundOutside
    rw [toLocal_move hM hf]

/-- C28: triangles, degenerate ones included. -/
theorem C28_triangle (a b : V3 K) : (triangularFace a b : Geometry K E).Equivariant := by
  apply finite_equivariant
  intro M frame p hM hf
  have h1 : ∀ c, (M * frame).point c - (M * frame).loc = M.rot.mulVec (frame.point c - frame.loc) := by
    intro c
    rw [Tf.mul_point]
    exact Tf.Rigid.point_sub M (frame.point c) frame.loc
  have h2 : M.point p - (M * frame).loc = M.rot.mulVec (p - frame.loc) := Tf.Rigid.point_sub M p frame.loc
  unfold triOutside
  simp only [h1, h2, M3.IsRotation.dot hM]

/-! ## Examples -/

/-- A frame turned by 90 degrees about X: its local Z is the global -Y. -/
def Examples.tilted : Tf ℚ := ⟨⟨⟨1, 0, 0⟩, ⟨0, 0, 1⟩, ⟨0, -1, 0⟩⟩, ⟨0, 3, 0⟩⟩

theorem Examples.tilted_rigid : Examples.tilted.Rigid := by
  refine ⟨by decide +kernel, by decide +kernel⟩

/-- The ray from the origin along (3/5, 4/5, 0) meets the plane Y = 3 at parameter 15/4, at X = 9/4: outside
the plate of width 4, inside the triangle. -/
def Examples.slanted : Bundle ℚ Unit := [⟨⟨0, 0, 0⟩, ⟨3/5, 4/5, 0⟩, 1, 0, none, ()⟩]

example : (flatGM.find Examples.tilted Examples.slanted) = [((15/4 : ℚ) : WithTop ℚ)] ∧
    ((finiteFlatGM (rectOutside 4 4)).find Examples.tilted Examples.slanted) = [⊤] ∧
    ((triangularFace ⟨3, 0, 0⟩ ⟨0, 3, 0⟩).find Examples.tilted Examples.slanted) = [((15/4 : ℚ) : WithTop ℚ)] := by
  refine ⟨by decide +kernel, by decide +kernel, by decide +kernel⟩

example : ∃ p, ((triangularFace ⟨3, 0, 0⟩ ⟨0, 3, 0⟩).find Examples.tilted Examples.slanted)[0]? = some p ∧
    FirstAmong (0 ≤ ·) (Placed Examples.tilted (triangle ⟨3, 0, 0⟩ ⟨0, 3, 0⟩)) 0 ⟨3/5, 4/5, 0⟩ p := by
  obtain ⟨p, h1, h2, _⟩ := C33_triangle Examples.tilted_rigid (a := ⟨3, 0, 0⟩) (b := ⟨0, 3, 0⟩) rfl rfl
    (by decide +kernel) Examples.slanted 0 _ rfl
  exact ⟨p, h1, h2 (by decide +kernel)⟩

example : ∃ g : Geometry ℚ Unit, rectPlateGM 4 4 = .ok g ∧
    ∃ p, (g.find Examples.tilted Examples.slanted)[0]? = some p ∧
      FirstAmong (0 ≤ ·) (Placed Examples.tilted (rectXY 4 4)) 0 ⟨3/5, 4/5, 0⟩ p := by
  obtain ⟨g, hg⟩ := (C31_constructor (E := Unit) (4 : ℚ) 4).1 (by norm_num)
  obtain ⟨p, h1, h2, _⟩ := C31_rect_plate Examples.tilted_rigid hg Examples.slanted 0 _ rfl
  exact ⟨g, hg, p, h1, h2 (by decide +kernel)⟩

example : ∃ g : Geometry ℚ Unit, roundPlateGM 4 = .ok g ∧
    ∃ p, (g.find Examples.tilted Examples.slanted)[0]? = some p ∧
      FirstAmong (0 ≤ ·) (Placed Examples.tilted (diskXY 4)) 0 ⟨3/5, 4/5, 0⟩ p := by
  obtain ⟨g, hg⟩ := (C32_constructor (E := Unit) (4 : ℚ)).1 (by norm_num)
  obtain ⟨p, h1, h2, _⟩ := C32_round_plate Examples.tilted_rigid hg Examples.slanted 0 _ rfl
  exact ⟨g, hg, p, h1, h2 (by decide +kernel)⟩

example : ∃ p, ((flatGM : Geometry ℚ Unit).find Examples.tilted Examples.slanted)[0]? = some p ∧
    FirstAmong (0 ≤ ·) (Placed Examples.tilted planeXY) 0 ⟨3/5, 4/5, 0⟩ p ∧
    (flatNormal Examples.tilted 0 ⟨3/5, 4/5, 0⟩).IsUnit ∧ ∃ g : Geometry ℚ Unit, roundPlateGM 4 = .ok g ∧ g.Equivariant := by
  obtain ⟨p, h1, h2, _⟩ := C30_flat Examples.tilted_rigid Examples.slanted 0 _ rfl
  obtain ⟨g, hg⟩ := (C32_constructor (E := Unit) (4 : ℚ)).1 (by norm_num)
  exact ⟨p, h1, h2 (by decide +kernel), (C40_flat Examples.tilted_rigid _ _).1, g, hg, C28_round hg⟩

end Tracer
