import Verif.Props.Quadric
import Verif.Examples.Constructors

/-! # Quadrics do not notice a common rigid motion (C28) -/

set_option linter.unusedSectionVars false

namespace Tracer

open Real

variable {E : Type _}

/-- A pair of crossings, moved. -/
noncomputable def Cand.move (M : Tf ℝ) (c : Cand) : Cand := { c with p0 := M.point c.p0, p1 := M.point c.p1 }

theorem candidate_move (M : Tf ℝ) (abc : ℝ × ℝ × ℝ) (v d : V3 ℝ) :
    candidate abc (M.point v) (M.dir d) = (candidate abc v d).map (Cand.move M) := by
  unfold candidate
  simp only [point_at]
  split
  · split
    · split <;> rfl
    · rfl
  · rfl

theorem mask_map {α β : Type _} (f : α → β) (m : List Bool) (l : List α) :
    Np.mask m (l.map f) = (Np.mask m l).map f := by
  induction l generalizing m with
  | nil => cases m <;> simp
  | cons a l ih =>
    cases m with
    | nil => simp
    | cons b m => cases b <;> simp [ih]

theorem filterMap_map_option {α : Type _} (f : α → α) (l : List (Option α)) :
    (l.map (Option.map f)).filterMap id = (l.filterMap id).map f := by
  induction l with
  | nil => rfl
  | cons a l ih => cases a <;> simp_all

theorem quadricFind_move (M : Tf ℝ) {abc abc' : V3 ℝ → V3 ℝ → ℝ × ℝ × ℝ} {sel sel' : List Cand → List (Option Bool)}
    (habc : ∀ v d, abc' (M.point v) (M.dir d) = abc v d) (hsel : ∀ cands, sel' (cands.map (Cand.move M)) = sel cands)
    (rays : Bundle ℝ E) :
    quadricFind abc' sel' (rays.map (Ray.move M)) = quadricFind abc sel rays := by
  have hc : (rays.map (Ray.move M)).map (fun r => candidate (abc' r.vertex r.dir) r.vertex r.dir) =
      (rays.map fun r => candidate (abc r.vertex r.dir) r.vertex r.dir).map (Option.map (Cand.move M)) := by
    simp only [List.map_map]
    apply List.map_congr_left
    intro r _
    simp only [Function.comp, Ray.move, habc, candidate_move]
  have h2 : ∀ (bs : List Bool) (cs : List Cand), List.zipWith Cand.choose bs (cs.map (Cand.move M)) = List.zipWith Cand.choose bs cs := by
    intro bs cs
    rw [List.zipWith_map_right]
    rfl
  unfold quadricFind
  rw [hc, List.length_map]
  generalize (rays.map fun r => candidate (abc r.vertex r.dir) r.vertex r.dir) = cands
  have h3 : (cands.map (Option.map (Cand.move M))).map Option.isSome = cands.map Option.isSome := by
    rw [List.map_map]
    apply List.map_congr_left
    intro o _
    simp only [Function.comp, Option.isSome_map]
  simp only [h3, filterMap_map_option, hsel, mask_map, h2]

theorem defaultSelect_move (M : Tf ℝ) (cands : List Cand) : defaultSelect (cands.map (Cand.move M)) = defaultSelect cands := by
  rw [defaultSelect_eq, defaultSelect_eq, List.map_map]
  rfl

theorem trimSelect_move (M : Tf ℝ) {nz : List Bool → List (Bool × Bool) → List Bool} {test test' : V3 ℝ → Bool}
    (ht : ∀ p, test' (M.point p) = test p) (cands : List Cand) :
    trimSelect nz test' (cands.map (Cand.move M)) = trimSelect nz test cands := by
  unfold trimSelect
  rw [defaultSelect_move]
  have : (cands.map (Cand.move M)).map (fun c => (test' c.p0 && decide (0 < c.t0), test' c.p1 && decide (0 < c.t1))) =
      cands.map fun c => (test c.p0 && decide (0 < c.t0), test c.p1 && decide (0 < c.t1)) := by
    rw [List.map_map]
    apply List.map_congr_left
    intro c _
    simp only [Function.comp, Cand.move, ht]
    rfl
  rw [this]

variable {M frame : Tf ℝ}

theorem localDir_move (hM : M.Rigid) (frame : Tf ℝ) (d : V3 ℝ) : localDir (M * frame) (M.dir d) = localDir frame d := by
  unfold localDir Tf.dir
  have : ∀ c : V3 ℝ, V3.dot (M.rot.mulVec c) (M.rot.mulVec d) = V3.dot c d := fun c => M3.IsRotation.dot hM c d
  have h1 := this frame.rot.c1
  have h2 := this frame.rot.c2
  have h3 := this frame.rot.c3
  unfold V3.dot at h1 h2 h3
  apply V3.ext
  · exact h1
  · exact h2
  · exact h3

theorem inv_point_move (hM : M.Rigid) (hf : frame.Rigid) (p : V3 ℝ) :
    (M * frame).inv.point (M.point p) = frame.inv.point p := toLocal_move hM hf p

theorem sphereABC_move (hM : M.Rigid) (R : ℝ) (v d : V3 ℝ) :
    sphereABC R (M * frame) (M.point v) (M.dir d) = sphereABC R frame v d := by
  have hw : M.point v - (M * frame).loc = M.rot.mulVec (v - frame.loc) := Tf.Rigid.point_sub M v frame.loc
  have h1 := M3.IsRotation.dot hM d d
  have h2 := M3.IsRotation.dot hM d (v - frame.loc)
  have h3 := M3.IsRotation.dot hM (v - frame.loc) (v - frame.loc)
  unfold sphereABC
  rw [hw]
  unfold Tf.dir
  unfold V3.dot at h1 h2 h3
  simp only [Prod.mk.injEq]
  exact ⟨by linarith, by linarith, by linarith⟩

theorem mulVec_smul' (m : M3 ℝ) (c : ℝ) (v : V3 ℝ) : m.mulVec (c • v) = c • m.mulVec v := by
  apply V3.ext <;> simp <;> ring

theorem sphereNormal_move (hM : M.Rigid) (hit d : V3 ℝ) :
    sphereNormal (M * frame) (M.point hit) (M.dir d) = M.dir (sphereNormal frame hit d) := by
  have hw : (M * frame).loc - M.point hit = M.rot.mulVec (frame.loc - hit) := Tf.Rigid.point_sub M frame.loc hit
  have hn : M.point hit - (M * frame).loc = M.rot.mulVec (hit - frame.loc) := Tf.Rigid.point_sub M hit frame.loc
  have h1 := M3.IsRotation.dot hM (frame.loc - hit) d
  have hlen : ∀ u : V3 ℝ, (M.rot.mulVec u).x ^ 2 + (M.rot.mulVec u).y ^ 2 + (M.rot.mulVec u).z ^ 2 = u.x ^ 2 + u.y ^ 2 + u.z ^ 2 := by
    intro u
    have := M3.IsRotation.dot hM u u
    unfold V3.dot at this
    linarith
  unfold sphereNormal
  rw [hw, hn]
  unfold V3.dot at h1
  unfold Tf.dir
  simp only [h1]
  split
  · rw [← mulVec_smul', hlen, ← mulVec_smul']
  · rw [hlen, ← mulVec_smul']

theorem paraboloidABC_move (hM : M.Rigid) (hf : frame.Rigid) (a b : ℝ) (v d : V3 ℝ) :
    paraboloidABC a b (M * frame) (M.point v) (M.dir d) = paraboloidABC a b frame v d := by
  unfold paraboloidABC
  rw [localDir_move hM, inv_point_move hM hf]

theorem paraboloidNormal_move (hM : M.Rigid) (hf : frame.Rigid) (a b : ℝ) (hit d : V3 ℝ) :
    paraboloidNormal a b (M * frame) (M.point hit) (M.dir d) = M.dir (paraboloidNormal a b frame hit d) := by
  unfold paraboloidNormal
  rw [localDir_move hM, inv_point_move hM hf]
  exact M3.mul_mulVec _ _ _

theorem cylinderABC_move (hM : M.Rigid) (hf : frame.Rigid) (R : ℝ) (v d : V3 ℝ) :
    cylinderABC R (M * frame) (M.point v) (M.dir d) = cylinderABC R frame v d := by
  unfold cylinderABC
  rw [localDir_move hM, inv_point_move hM hf]

theorem cylinderNormal_move (hM : M.Rigid) (hf : frame.Rigid) (hit d : V3 ℝ) :
    cylinderNormal (M * frame) (M.point hit) (M.dir d) = M.dir (cylinderNormal frame hit d) := by
  unfold cylinderNormal
  rw [localDir_move hM, inv_point_move hM hf]
  exact M3.mul_mulVec _ _ _

theorem setRadius_ok {R R' : ℝ} (h : setRadius R = .ok R') : R' = R ∧ 0 < R := by
  unfold setRadius at h
  split at h
  · simp at h
  · rename_i hR
    exact ⟨(Except.ok.inj h).symm, not_le.1 hR⟩

/-- C28: closed spheres. -/
theorem C28_sphere {R : ℝ} {g : Geometry ℝ E} (hg : sphereGM R = .ok g) : g.Equivariant := by
  unfold sphereGM at hg
  split at hg
  · simp at hg
  · cases hg
    exact ⟨fun M frame rays hM hf => quadricFind_move M (sphereABC_move hM _) (defaultSelect_move M) rays,
      fun M frame hit d hM _ => sphereNormal_move hM hit d⟩

example : ∃ g : Geometry ℝ E, sphereGM 2 = .ok g ∧ g.Equivariant := by
  obtain ⟨g, hg⟩ := Examples.sphere_exists (E := E) two_pos
  exact ⟨g, hg, C28_sphere hg⟩

/-- C28: hemispheres. -/
theorem C28_hemisphere {R : ℝ} {g : Geometry ℝ E} (hg : hemisphereGM R = .ok g) : g.Equivariant := by
  unfold hemisphereGM at hg
  split at hg
  · simp at hg
  · cases hg
    refine ⟨fun M frame rays hM hf => quadricFind_move M (sphereABC_move hM _) (trimSelect_move M ?_) rays,
      fun M frame hit d hM _ => sphereNormal_move hM hit d⟩
    intro p
    unfold hemisphereTest
    rw [inv_point_move hM hf]

example : ∃ g : Geometry ℝ E, hemisphereGM 2 = .ok g ∧ g.Equivariant := by
  obtain ⟨g, hg⟩ := Examples.hemisphere_exists (E := E) two_pos
  exact ⟨g, hg, C28_hemisphere hg⟩

/-- C28: cut spheres, for a bounding volume that moves with the frame. -/
theorem C28_cut_sphere {R : ℝ} {bound : Option (Tf ℝ → V3 ℝ → Bool)}
    (hb : ∀ b, bound = some b → ∀ M frame p, Tf.Rigid M → Tf.Rigid frame → b (M * frame) (M.point p) = b frame p)
    {g : Geometry ℝ E} (hg : cutSphereGM R bound = .ok g) : g.Equivariant := by
  unfold cutSphereGM at hg
  split at hg
  · simp at hg
  · cases hg
    refine ⟨fun M frame rays hM hf => quadricFind_move M (sphereABC_move hM _) ?_ rays,
      fun M frame hit d hM _ => sphereNormal_move hM hit d⟩
    cases bound with
    | none => exact defaultSelect_move M
    | some b => exact trimSelect_move M fun p => hb b rfl M frame p hM hf

/-- A sphere of radius two, cut at the local height one. -/
example : ∃ g : Geometry ℝ E,
    cutSphereGM 2 (some fun frame p => decide ((frame.inv.point p).z ≤ 1)) = .ok g ∧ g.Equivariant := by
  obtain ⟨g, hg⟩ := Examples.cutSphere_exists (E := E) two_pos (some fun frame p => decide ((frame.inv.point p).z ≤ 1))
  refine ⟨g, hg, C28_cut_sphere ?_ hg⟩
  intro b hb M frame p hM hf
  cases hb
  simp only [inv_point_move hM hf]

/-- C28: paraboloids. -/
theorem C28_paraboloid (a b : ℝ) : (paraboloidGM a b : Geometry ℝ E).Equivariant :=
  ⟨fun M _ rays hM hf => quadricFind_move M (paraboloidABC_move hM hf _ _) (defaultSelect_move M) rays,
    fun _ _ hit d hM hf => paraboloidNormal_move hM hf _ _ hit d⟩

/-- C28: parabolic dishes. -/
theorem C28_dish (diameter focal : ℝ) : (parabolicDishGM diameter focal : Geometry ℝ E).Equivariant := by
  refine ⟨fun M frame rays hM hf => quadricFind_move M (paraboloidABC_move hM hf _ _) (trimSelect_move M ?_) rays,
    fun _ _ hit d hM hf => paraboloidNormal_move hM hf _ _ hit d⟩
  intro p
  unfold dishTest
  rw [inv_point_move hM hf]

/-- C28: hexagonal dishes. -/
theorem C28_hexagonal_dish (diameter focal : ℝ) : (hexagonalDishGM diameter focal : Geometry ℝ E).Equivariant := by
  refine ⟨fun M frame rays hM hf => quadricFind_move M (paraboloidABC_move hM hf _ _) (trimSelect_move M ?_) rays,
    fun _ _ hit d hM hf => paraboloidNormal_move hM hf _ _ hit d⟩
  intro p
  unfold hexagonTest
  rw [inv_point_move hM hf]

/-- C28: infinite cylinders. -/
theorem C28_infinite_cylinder (diameter : ℝ) : (infiniteCylinderGM diameter : Geometry ℝ E).Equivariant :=
  ⟨fun M _ rays hM hf => quadricFind_move M (cylinderABC_move hM hf _) (defaultSelect_move M) rays,
    fun _ _ hit d hM hf => cylinderNormal_move hM hf hit d⟩

/-- C28: finite cylinders. -/
theorem C28_finite_cylinder (diameter height : ℝ) : (finiteCylinderGM diameter height : Geometry ℝ E).Equivariant := by
  refine ⟨fun M frame rays hM hf => quadricFind_move M (cylinderABC_move hM hf _) ?_ rays,
    fun _ _ hit d hM hf => cylinderNormal_move hM hf hit d⟩
  intro cands
  rw [cylinderSelect_eq, cylinderSelect_eq, List.map_map]
  apply List.map_congr_left
  intro c _
  simp only [Function.comp, trimPick, Cand.move, inv_point_move hM hf]
  rfl

end Tracer
