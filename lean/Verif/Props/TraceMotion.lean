import Verif.Spec.Motion
import Verif.Lemmas.Simulation
import Verif.Props.Frames
import Verif.Props.Flat
import Verif.Props.Callables

/-! # Moving a scene moves its traces (C70) -/

set_option linter.unusedSectionVars false

namespace Tracer

section
variable {K E σ : Type _} [Field K] [LinearOrder K] [IsStrictOrderedRing K]

/-! ## Trees -/

mutual
theorem transform_fix {P Q : Type _} (T : Tf K) : ∀ a : Asm K P Q, InSync T a → a.transformChildren T = a
  | .mk own subs objs => fun h => by
    unfold Asm.transformChildren
    rw [transformAll_fix (T * own) subs fun b hb path s hbs => by
      have := h (own :: path) s (.sub hb hbs)
      rwa [List.foldl_cons] at this]
    congr 1
    have : ∀ o ∈ objs, o.transformChildren (T * own) = o := by
      intro o ho
      unfold ObjNode.transformChildren
      have : o.surfs.map (·.transformFrame (T * own * o.own)) = o.surfs := by
        conv_rhs => rw [← List.map_id o.surfs]
        refine List.map_congr_left fun s hs => ?_
        have ht := h [own, o.own, s.own] s (.object ho hs)
        unfold SurfNode.transformFrame
        simp only [List.foldl_cons, List.foldl_nil] at ht
        rw [← ht]
        rfl
      rw [this]
    conv_rhs => rw [← List.map_id objs]
    exact List.map_congr_left this

theorem transformAll_fix {P Q : Type _} (T : Tf K) : ∀ l : List (Asm K P Q), (∀ a ∈ l, InSync T a) →
    Asm.transformAll T l = l
  | [] => fun _ => rfl
  | a :: l => fun h => by
    unfold Asm.transformAll
    rw [transform_fix T a (h a (List.mem_cons_self ..)),
      transformAll_fix T l fun b hb => h b (List.mem_cons_of_mem _ hb)]
end

/-- An object with all frames for tracing moved. -/
def ObjNode.moveTemp {P Q : Type _} (M : Tf K) (o : ObjNode K P Q) : ObjNode K P Q :=
  { o with surfs := o.surfs.map fun s => { s with temp := M * s.temp } }

theorem obj_transform_move {P Q : Type _} (M T : Tf K) (o : ObjNode K P Q) :
    o.transformChildren (M * T) = (o.transformChildren T).moveTemp M := by
  unfold ObjNode.transformChildren ObjNode.moveTemp SurfNode.transformFrame
  simp only [List.map_map, ObjNode.mk.injEq, true_and, and_true]
  refine List.map_congr_left fun s _ => ?_
  simp only [Function.comp, SurfNode.mk.injEq, true_and, and_true, Tf.mul_assoc']

mutual
theorem transform_move {P Q : Type _} (M T : Tf K) : ∀ a : Asm K P Q,
    (a.transformChildren (M * T)).getObjects = (a.transformChildren T).getObjects.map (ObjNode.moveTemp M)
  | .mk own subs objs => by
    unfold Asm.transformChildren Asm.getObjects
    rw [Tf.mul_assoc', transformAll_move M (T * own) subs, List.map_append]
    congr 1
    rw [List.map_map]
    exact List.map_congr_left fun o _ => obj_transform_move M (T * own) o

theorem transformAll_move {P Q : Type _} (M T : Tf K) : ∀ l : List (Asm K P Q),
    Asm.getObjectsAll (Asm.transformAll (M * T) l) =
      (Asm.getObjectsAll (Asm.transformAll T l)).map (ObjNode.moveTemp M)
  | [] => rfl
  | a :: l => by
    unfold Asm.transformAll Asm.getObjectsAll
    rw [transform_move M T a, transformAll_move M T l, List.map_append]
end

theorem set_move {P Q : Type _} (M : Tf K) {a : Asm K P Q} (hs : InSync 1 a) :
    (a.set (.transform (M * a.own))).getObjects = a.getObjects.map (ObjNode.moveTemp M) := by
  have h := transform_move M 1 a
  rw [transform_fix 1 a hs] at h
  rw [← h]
  cases a with
  | mk own subs objs =>
    unfold Asm.set Change.apply Asm.transformChildren Asm.getObjects Asm.own
    rw [Tf.one_mul', Tf.mul_one']

/-! ## Surfaces -/

theorem hitRecs_move {M frame : Tf K} (hM : M.Rigid) (hf : frame.Rigid) {g : Geometry K E} (hg : g.Equivariant)
    (rays : Bundle K E) (sel : List Nat) :
    hitRecs g (M * frame) (rays.map (Ray.move M)) sel = (hitRecs g frame rays sel).map (List.map (HitRec.move M)) := by
  induction sel with
  | nil => rfl
  | cons i sel ih =>
    simp only [hitRecs, hg.find M frame rays hM hf, ih, List.getElem?_map]
    cases h1 : rays[i]? with
    | none => rfl
    | some r =>
      simp only [Option.map_some]
      cases h2 : (g.find frame rays)[i]? with
      | none => rfl
      | some p =>
        cases p with
        | top => rfl
        | coe t =>
          have hat : (r.move M).at t = M.point (r.at t) := by
            unfold Ray.at Ray.move
            exact (Tf.point_add_smul M r.vertex r.dir t).symm
          have hn : g.normal (M * frame) (M.point (r.at t)) (r.move M).dir = M.dir (g.normal frame (r.at t) r.dir) :=
            hg.normal M frame (r.at t) r.dir hM hf
          cases hitRecs g frame rays sel with
          | error e => rfl
          | ok recs =>
            change Except.ok (_ :: _) = Except.ok (_ :: _)
            rw [hat, hn]
            rfl

theorem surf_move {M : Tf K} (hM : M.Rigid) {ψ : σ → σ} {s : SceneSurf σ K E} (hf : s.temp.Rigid)
    (hg : s.data.1.Equivariant) (ho : Optics.MovesWith M ψ s.data.2) :
    Surf.Simulates (Ray.move M) ψ (mkSurf s.data.1 s.data.2 s.temp) (mkSurf s.data.1 s.data.2 (M * s.temp)) where
  register rays := hg.find M s.temp rays hM hf
  outgoing w rays sel := by
    simp only [mkSurf, hitRecs_move hM hf hg]
    cases hitRecs s.data.1 s.temp rays sel with
    | error e => rfl
    | ok recs =>
      simp only [Except.map]
      exact ho w s.temp.rot.c3 recs

theorem rayMap_move (M : Tf K) (minE : K) : RayMap (Ray.move M : Ray K E → Ray K E) minE minE :=
  ⟨fun _ => rfl, fun _ _ => rfl, fun _ => Iff.rfl⟩

/-- C70: moving an assembly by a rigid transform, with `set_transform` on its root, and moving the source rays with it moves the whole
result: the returned rays, every bundle of the tree, and what the receivers remember.  Energies, parents, the exceptions
raised and the number of levels stay the same. -/
theorem C70_motion {M : Tf K} (hM : M.Rigid) {ψ : σ → σ} {a : SceneAsm σ K E} (hs : InSync 1 a)
    (hframe : ∀ o ∈ a.getObjects, ∀ s ∈ o.surfs, s.temp.Rigid)
    (hgeom : ∀ o ∈ a.getObjects, ∀ s ∈ o.surfs, s.data.1.Equivariant)
    (hopt : ∀ o ∈ a.getObjects, ∀ s ∈ o.surfs, Optics.MovesWith M ψ s.data.2)
    (hpol : ∀ o ∈ a.getObjects, Policies.IgnoreMotion M o.data)
    (w : σ) (b : Bundle K E) (reps : Nat) (minE : K) (keepTree : Bool) :
    rayTracer (a.set (.transform (M * a.own))).scene (ψ w) (b.map (Ray.move M)) reps minE keepTree =
      (rayTracer a.scene w b reps minE keepTree).map (TraceResult.move M ψ) := by
  have hsim : List.Forall₂ (Obj.Simulates (Ray.move M) ψ) a.scene (a.set (.transform (M * a.own))).scene := by
    unfold Asm.scene
    rw [set_move M hs, List.map_map]
    have : ∀ l : List (SceneObj σ K E), (∀ o ∈ l, o ∈ a.getObjects) →
        List.Forall₂ (Obj.Simulates (Ray.move M) ψ)
          (l.map fun o => ⟨o.surfs.map fun s => mkSurf s.data.1 s.data.2 s.temp, o.data.1, o.data.2⟩)
          (l.map ((fun o : SceneObj σ K E => ⟨o.surfs.map fun s => mkSurf s.data.1 s.data.2 s.temp, o.data.1, o.data.2⟩) ∘
            ObjNode.moveTemp M)) := by
      intro l
      induction l with
      | nil => intro _; exact .nil
      | cons o l ih =>
        intro hl
        refine .cons ⟨?_, ?_, ?_⟩ (ih fun x hx => hl x (List.mem_cons_of_mem _ hx))
        · have ho := hl o (List.mem_cons_self ..)
          have : ∀ ss : List (SceneSurf σ K E), (∀ s ∈ ss, s ∈ o.surfs) →
              List.Forall₂ (Surf.Simulates (Ray.move M) ψ) (ss.map fun s => mkSurf s.data.1 s.data.2 s.temp)
                (ss.map ((fun s : SceneSurf σ K E => mkSurf s.data.1 s.data.2 s.temp) ∘
                  fun s => { s with temp := M * s.temp })) := by
            intro ss
            induction ss with
            | nil => intro _; exact .nil
            | cons s ss ih' =>
              intro hss
              have h1 := hss s (List.mem_cons_self ..)
              exact .cons (surf_move hM (hframe o ho s h1) (hgeom o ho s h1) (hopt o ho s h1))
                (ih' fun x hx => hss x (List.mem_cons_of_mem _ hx))
          have h2 := this o.surfs fun _ h => h
          rw [← List.map_map] at h2
          exact h2
        · exact (hpol o (hl o (List.mem_cons_self ..))).1
        · exact (hpol o (hl o (List.mem_cons_self ..))).2
    exact this _ fun _ h => h
  rcases sim_rayTracer hsim (rayMap_move M minE) w b reps keepTree with ⟨e, h1, h2⟩ | ⟨st, tree, h1, h2⟩
  · rw [h1, h2]; rfl
  · rw [h1, h2]
    simp only [Except.map, TraceResult.move, List.map_map]
    rfl

/-! ## Callables and policies -/

theorem dot_move {M : Tf K} (hM : M.Rigid) (u v : V3 K) : V3.dot (M.dir u) (M.dir v) = V3.dot u v := M3.IsRotation.dot hM u v

theorem reflection_move {M : Tf K} (hM : M.Rigid) (d n : V3 K) :
    reflection (M.dir d) (M.dir n) = M.dir (reflection d n) := by
  unfold reflection
  rw [dot_move hM]
  unfold Tf.dir
  rw [M3.mulVec_sub, M3.mulVec_smul, M3.mulVec_smul]

theorem reflectOne_move {M : Tf K} (hM : M.Rigid) (c : K) (h : HitRec K E) :
    reflectOne c (h.move M) = (reflectOne c h).move M := by
  unfold reflectOne HitRec.move Ray.move
  simp only [reflection_move hM]

/-- C70: mirrors move with the scene. -/
theorem C70_reflective {M : Tf K} (hM : M.Rigid) (ψ : σ → σ) (c : K) :
    Optics.MovesWith M ψ (reflective c : Optics σ K E) := by
  intro w up hits
  simp only [reflective, Except.map, List.map_map]
  congr 2
  exact List.map_congr_left fun h _ => reflectOne_move hM c h

/-- C70: one-sided mirrors move with the scene. -/
theorem C70_one_sided {M : Tf K} (hM : M.Rigid) (ψ : σ → σ) (c : K) :
    Optics.MovesWith M ψ (absorberReflector c : Optics σ K E) := by
  intro w up hits
  simp only [absorberReflector, Except.map, List.map_map]
  congr 2
  refine List.map_congr_left fun h _ => ?_
  simp only [Function.comp, reflectOne_move hM]
  have : V3.dot (h.move M).ray.dir (M.dir up) = V3.dot h.ray.dir up := dot_move hM _ _
  rw [this]
  split <;> rfl

/-- C70: receivers move with the scene, and so do the points they remember. -/
theorem C70_receiver {M : Tf K} {ψ : σ → σ} (c : K) {get : σ → Account K} {set : Account K → σ → σ}
    (hget : ∀ w, get (ψ w) = (get w).move M) (hset : ∀ acc w, ψ (set acc w) = set (acc.move M) (ψ w))
    {opt : Optics σ K E} (ho : Optics.MovesWith M ψ opt) : Optics.MovesWith M ψ (accountant c get set opt) := by
  intro w up hits
  unfold accountant
  rw [← ho]
  congr 1
  rw [hset, hget]
  congr 1
  unfold Account.move
  simp only [List.map_append, List.map_map, List.map_cons, List.map_nil]
  rfl

/-- C70: the policies of the package look at nothing but the number of rays. -/
theorem C70_policies (M : Tf K) (s : Nat) :
    Policies.IgnoreMotion M ((Obj.defaultOwn, Obj.defaultNext s) : Policies K E) ∧
    Policies.IgnoreMotion M ((Obj.defaultOwn, Obj.skipNext s) : Policies K E) := by
  refine ⟨⟨?_, ?_⟩, ?_, ?_⟩ <;> intro rays k <;>
    simp only [Obj.defaultOwn, Obj.defaultNext, Obj.skipNext, List.length_map]

end

section
variable {E σ : Type _}

theorem refIndices_missing {hits : List (HitRec ℝ E)} (h : ∃ q ∈ hits, q.ray.ref = none) :
    refIndices hits = .error .attribute := by
  induction hits with
  | nil => obtain ⟨q, hq, _⟩ := h; exact absurd hq (by simp)
  | cons p hits ih =>
    unfold refIndices
    cases hp : p.ray.ref with
    | none => rfl
    | some n =>
      obtain ⟨q, hq, hn⟩ := h
      rcases List.mem_cons.1 hq with rfl | hq
      · rw [hp] at hn; cases hn
      · simp only [ih ⟨q, hq, hn⟩]

theorem refractedOne_move {M : Tf ℝ} (hM : M.Rigid) (n1 n2 : ℝ) (d m : V3 ℝ) :
    refractedOne n1 n2 (M.dir d) (M.dir m) = refractedOne n1 n2 d m := by
  unfold refractedOne
  rw [dot_move hM]

theorem fresnelOne_move {M : Tf ℝ} (hM : M.Rigid) (n1 n2 : ℝ) (d m : V3 ℝ) :
    fresnelOne (M.dir d) (M.dir m) n1 n2 = fresnelOne d m n1 n2 := by
  unfold fresnelOne
  rw [dot_move hM]

theorem fresnelDefined_move {M : Tf ℝ} (hM : M.Rigid) (n1 n2 : ℝ) (d m : V3 ℝ) :
    fresnelDefined (M.dir d) (M.dir m) n1 n2 = fresnelDefined d m n1 n2 := by
  unfold fresnelDefined
  rw [dot_move hM]

theorem refractOne_move {M : Tf ℝ} (hM : M.Rigid) (n1 n2 : ℝ) (d m : V3 ℝ) :
    refractOne n1 n2 (M.dir d) (M.dir m) = M.dir (refractOne n1 n2 d m) := by
  unfold refractOne
  rw [dot_move hM]
  ext <;> simp only [Tf.dir, M3.mulVec_x, M3.mulVec_y, M3.mulVec_z] <;> ring

/-- C70: refracting surfaces move with the scene, their exceptions included. -/
theorem C70_refractive {M : Tf ℝ} (hM : M.Rigid) (ψ : σ → σ) (a b : ℝ) :
    Optics.MovesWith M ψ (refractiveHomogenous a b : Optics σ ℝ E) := by
  intro w up hits
  by_cases hne : hits = []
  · subst hne; rfl
  have hne' : hits.map (HitRec.move M) ≠ [] := by simpa using hne
  by_cases href : ∀ q ∈ hits, q.ray.ref ≠ none
  · have href' : ∀ q ∈ hits.map (HitRec.move M), q.ray.ref ≠ none := by
      intro q hq
      obtain ⟨p, hp, rfl⟩ := List.mem_map.1 hq
      exact href p hp
    have h1 : ∀ h : HitRec ℝ E, hitRefr a b (h.move M) = hitRefr a b h := fun h => refractedOne_move hM _ _ _ _
    have h2 : ∀ h : HitRec ℝ E, hitR a b (h.move M) = hitR a b h := by
      intro h
      unfold hitR
      rw [h1]
      have : fresnelOne (h.move M).ray.dir (h.move M).normal (idxIn (h.move M)) (idxOut a b (h.move M)) =
          fresnelOne h.ray.dir h.normal (idxIn h) (idxOut a b h) := fresnelOne_move hM _ _ _ _
      rw [this]
    have h3 : ∀ h : HitRec ℝ E, hitReflected a b (h.move M) = (hitReflected a b h).move M := by
      intro h
      unfold hitReflected
      rw [h2]
      unfold reflectedRay HitRec.move Ray.move
      simp only [reflection_move hM]
    have h4 : ∀ h : HitRec ℝ E, hitRefracted a b (h.move M) = (hitRefracted a b h).move M := by
      intro h
      unfold hitRefracted
      rw [h2]
      have : refractOne (idxIn (h.move M)) (idxOut a b (h.move M)) (h.move M).ray.dir (h.move M).normal =
          M.dir (refractOne (idxIn h) (idxOut a b h) h.ray.dir h.normal) := refractOne_move hM _ _ _ _
      rw [this]
      rfl
    have h5 : ∀ h : HitRec ℝ E, fresnelDefined (h.move M).ray.dir (h.move M).normal (idxIn (h.move M)) (idxOut a b (h.move M)) =
        fresnelDefined h.ray.dir h.normal (idxIn h) (idxOut a b h) := fun h => fresnelDefined_move hM _ _ _ _
    rw [refractive_eq a b _ _ _ hne' href', refractive_eq a b _ _ _ hne href]
    simp only [List.any_map, List.map_map, List.filter_map, Function.comp_def, h1, h3, h4, h5]
    split
    · split
      · rfl
      · simp only [Except.map, List.map_append, List.map_map, Function.comp_def]
    · simp only [Except.map, List.map_map, Function.comp_def]
  · push Not at href
    obtain ⟨q, hq, hn⟩ := href
    have e1 : refIndices hits = .error .attribute := refIndices_missing ⟨q, hq, hn⟩
    have e2 : refIndices (hits.map (HitRec.move M)) = .error .attribute :=
      refIndices_missing ⟨q.move M, List.mem_map_of_mem hq, hn⟩
    unfold refractiveHomogenous
    rw [e1, e2]
    cases hits with
    | nil => exact absurd rfl hne
    | cons => rfl

end

/-- A plate that is one metre square. -/
def unitPlate : Geometry ℚ Unit := finiteFlatGM (rectOutside 1 1)

/-- A mirror above the origin facing down, and a receiver at the origin facing up. -/
def twoPlates : SceneAsm (Account ℚ) ℚ Unit :=
  Asm.new
    [ObjNode.new [Surface.new unitPlate (reflective (1 / 4)) 1] ⟨⟨⟨1, 0, 0⟩, ⟨0, -1, 0⟩, ⟨0, 0, -1⟩⟩, ⟨0, 0, 2⟩⟩
      (Obj.defaultOwn, Obj.defaultNext 1),
     ObjNode.new [Surface.new unitPlate (reflectiveReceiver (1 / 2) id fun a _ => a) 1] 1
      (Obj.defaultOwn, Obj.defaultNext 1)] [] 0 1 1

/-- A rotation about the Z axis and a shift. -/
def turnAndShift : Tf ℚ := ⟨⟨⟨3 / 5, 4 / 5, 0⟩, ⟨-4 / 5, 3 / 5, 0⟩, ⟨0, 0, 1⟩⟩, ⟨1, 2, 3⟩⟩

/-- The hypotheses of C70 are met by a mirror and a receiver facing each other, moved by a rotation and a shift; the trace has
several levels. -/
example :
    turnAndShift.Rigid ∧ InSync 1 twoPlates ∧
    (∀ o ∈ twoPlates.getObjects, ∀ s ∈ o.surfs, s.temp.Rigid ∧ s.data.1.Equivariant ∧
      Optics.MovesWith turnAndShift (Account.move turnAndShift) s.data.2) ∧
    (∀ o ∈ twoPlates.getObjects, Policies.IgnoreMotion turnAndShift o.data) ∧
    ((rayTracer twoPlates.scene Account.reset [⟨⟨0, 0, 1⟩, ⟨0, 0, -1⟩, 1, 0, none, ()⟩] 3 0 true).map
      fun r => (r.tree.length, r.world.absorbed)) = .ok (4, [[1 / 2], [3 / 16]]) := by
  have hM : turnAndShift.Rigid := by
    unfold Tf.Rigid M3.IsRotation
    decide +kernel
  have hg : unitPlate.Equivariant := C28_rect (width := 1) (height := 1) (by
    unfold rectPlateGM
    rw [if_neg (by norm_num), if_neg (by norm_num)]
    rfl)
  refine ⟨hM, (C22_construct _ _ _ _ _).1, ?_, ?_, by decide +kernel⟩
  · refine List.forall_mem_cons.2 ⟨List.forall_mem_cons.2 ⟨⟨?_, hg, C70_reflective hM _ _⟩, by simp⟩,
      List.forall_mem_cons.2 ⟨List.forall_mem_cons.2 ⟨⟨?_, hg, ?_⟩, by simp⟩, by simp⟩⟩
    · unfold Tf.Rigid M3.IsRotation
      decide +kernel
    · unfold Tf.Rigid M3.IsRotation
      decide +kernel
    · exact C70_receiver (get := id) (set := fun a _ => a) (1 / 2) (fun _ => rfl) (fun _ _ => rfl) (C70_reflective hM _ _)
  · exact List.forall_mem_cons.2 ⟨(C70_policies _ 1).1, List.forall_mem_cons.2 ⟨(C70_policies _ 1).1, by simp⟩⟩

end Tracer
