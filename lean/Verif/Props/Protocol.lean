import Verif.Lemmas.Protocol
import Verif.Lemmas.Contracts
import Verif.Lemmas.Default
import Mathlib.Algebra.Order.Field.Rat

/-! C43: surfaces and geometry managers as stateful objects. -/

set_option linter.unusedSectionVars false

namespace Tracer

variable {K E σ : Type _} [Field K] [LinearOrder K] [IsStrictOrderedRing K]

/-! ### The geometry managers of the package -/

/-- C43, the flat managers: infinite planes, rectangular and round plates, triangular faces.  Whatever is left
over in the object, registering rays, selecting hit rays, asking for hit points and normals, and `done()` raise nothing, and
the answers are those of the geometry. -/
theorem C43_flat (width height radius : K) (va vb : V3 K) :
    (flatObj : GM K E).Implements flatGM ∧
    (∀ g, rectPlateGM width height = .ok g → (finiteFlatObj (rectOutside width height) false : GM K E).Implements g) ∧
    (∀ g, roundPlateGM radius = .ok g → (finiteFlatObj (roundOutside radius) false : GM K E).Implements g) ∧
    (finiteFlatObj (triOutside va vb) true : GM K E).Implements (triangularFace va vb) := by
  refine ⟨flatObj_implements, ?_, ?_, finiteFlatObj_implements _ _⟩
  · intro g hg
    unfold rectPlateGM at hg
    split at hg
    · cases hg
    · split at hg
      · cases hg
      · cases hg
        exact finiteFlatObj_implements _ _
  · intro g hg
    unfold roundPlateGM at hg
    split at hg
    · cases hg
    · cases hg
      exact finiteFlatObj_implements _ _

theorem quadricClass_implements (abc : Tf ℝ → V3 ℝ → V3 ℝ → ℝ × ℝ × ℝ)
    (select : Tf ℝ → List Cand → List (Option Bool)) (normal : Tf ℝ → V3 ℝ → V3 ℝ → V3 ℝ)
    (hs : ∀ frame l, (select frame l).length = l.length) :
    (quadricClass abc select normal : GM ℝ E).Implements
      ⟨fun frame rays => quadricFind (abc frame) (select frame) rays, normal⟩ :=
  quadricObj_implements fun frame rays => quadricVerts_eq _ _ (hs frame) rays

/-- C43, the quadric managers: spheres, hemispheres and cut spheres. -/
theorem C43_spheres (R : ℝ) (bound : Option (Tf ℝ → V3 ℝ → Bool)) :
    (∀ g, sphereGM R = .ok g →
      (quadricClass (sphereABC R) (fun _ => defaultSelect) sphereNormal : GM ℝ E).Implements g) ∧
    (∀ g, hemisphereGM R = .ok g →
      (quadricClass (sphereABC R) (fun frame => trimSelect nonzeroUT (hemisphereTest frame)) sphereNormal :
        GM ℝ E).Implements g) ∧
    (∀ g, cutSphereGM R bound = .ok g →
      (quadricClass (sphereABC R) (fun frame => match bound with
        | none => defaultSelect
        | some b => trimSelect nonzeroUT (b frame)) sphereNormal : GM ℝ E).Implements g) := by
  refine ⟨?_, ?_, ?_⟩
  · intro g hg
    unfold sphereGM setRadius at hg
    by_cases hR : R ≤ 0
    · simp [hR] at hg
    · simp only [hR, if_false] at hg
      cases hg
      exact quadricClass_implements _ _ _ fun _ => defaultSelect_length
  · intro g hg
    unfold hemisphereGM setRadius at hg
    by_cases hR : R ≤ 0
    · simp [hR] at hg
    · simp only [hR, if_false] at hg
      cases hg
      exact quadricClass_implements _ _ _ fun _ => trimSelect_length _ _
  · intro g hg
    unfold cutSphereGM setRadius at hg
    by_cases hR : R ≤ 0
    · simp [hR] at hg
    · simp only [hR, if_false] at hg
      cases hg
      cases bound with
      | none => exact quadricClass_implements _ _ _ fun _ => defaultSelect_length
      | some b => exact quadricClass_implements _ _ _ fun _ => trimSelect_length _ _

/-- C43, the quadric managers: paraboloids, dishes and cylinders. -/
theorem C43_quadrics (a b diameter focal height : ℝ) :
    (quadricClass (paraboloidABC (1 / a ^ 2) (1 / b ^ 2)) (fun _ => defaultSelect)
      (paraboloidNormal (1 / a ^ 2) (1 / b ^ 2)) : GM ℝ E).Implements (paraboloidGM a b) ∧
    (∃ a' h, (quadricClass (paraboloidABC a' a') (fun frame => trimSelect nonzeroT (dishTest h frame))
      (paraboloidNormal a' a') : GM ℝ E).Implements (parabolicDishGM diameter focal)) ∧
    (∃ a', (quadricClass (paraboloidABC a' a') (fun frame => trimSelect nonzeroT (hexagonTest (diameter / 2) frame))
      (paraboloidNormal a' a') : GM ℝ E).Implements (hexagonalDishGM diameter focal)) ∧
    (quadricClass (cylinderABC (diameter / 2)) (fun _ => defaultSelect) cylinderNormal : GM ℝ E).Implements
      (infiniteCylinderGM diameter) ∧
    (quadricClass (cylinderABC (diameter / 2)) (cylinderSelect (height / 2)) cylinderNormal : GM ℝ E).Implements
      (finiteCylinderGM diameter height) :=
  ⟨quadricClass_implements _ _ _ fun _ => defaultSelect_length,
   ⟨_, _, quadricClass_implements _ _ _ fun _ => trimSelect_length _ _⟩,
   ⟨_, quadricClass_implements _ _ _ fun _ => trimSelect_length _ _⟩,
   quadricClass_implements _ _ _ fun _ => defaultSelect_length,
   quadricClass_implements _ _ _ fun frame => cylinderSelect_length _ frame⟩

/-! ### Traces -/

section
variable {objs : List (TracedObj σ K E)} {objs' : List (Obj σ K E)}

/-- C43: a trace on surface objects, in whatever state earlier traces left them, gives exactly the result of the value-level
engine; afterwards `done()` can still be called on every surface; and unless the trace raised, or no iteration was asked for, no
surface holds on to a bundle. -/
theorem C43_trace (hobj : List.Forall₂ TracedObj.Represents objs objs') (hshape : ∀ o ∈ objs', o.ShapeOk)
    (w : σ) (b : Bundle K E) (reps : Nat) (minE : K) (keep : Bool) {as : List (SurfAttrs K E)}
    (ha : List.Forall₂ (fun s a => s.gm.CanFinish a.geom) (objs.flatMap TracedObj.surfs) as) :
    (rayTracerA objs w b reps minE keep as).1 = rayTracer objs' w b reps minE keep ∧
    List.Forall₂ (fun s a => s.gm.CanFinish a.geom) (objs.flatMap TracedObj.surfs)
      (rayTracerA objs w b reps minE keep as).2 ∧
    (∀ res, (rayTracerA objs w b reps minE keep as).1 = .ok res → 0 < reps →
      List.Forall₂ SurfObj.Released (objs.flatMap TracedObj.surfs) (rayTracerA objs w b reps minE keep as).2) := by
  unfold rayTracerA rayTracer getSurfaces
  have he : objs.isEmpty = objs'.isEmpty := by cases hobj <;> rfl
  rw [he]
  by_cases hemp : objs'.isEmpty = true
  · simp only [hemp, if_true]
    exact ⟨trivial, ha, fun _ h => by cases h⟩
  · simp only [hemp, Bool.false_eq_true, if_false]
    have hl := (surfs_represents hobj).length_eq
    rw [hl]
    obtain ⟨as', h1, h2, h3⟩ := traceLoopA_ok (minE := minE) hobj hshape keep reps (initState_shape objs' b w)
      (if keep then [b] else []) none ha
    have hinit : (⟨b, List.replicate b.length none,
      List.replicate (objs'.flatMap Obj.surfs).length (List.replicate b.length true), w⟩ : TraceState σ K E) =
        initState objs' b w := rfl
    rw [hinit, h1]
    rcases ht : traceLoop objs' (objs'.flatMap Obj.surfs) minE keep reps (initState objs' b w)
        (if keep then [b] else []) none with e | ⟨st, tree, last⟩
    · exact ⟨rfl, h2, fun _ h => by cases h⟩
    · simp only
      have h4 : 0 < reps → List.Forall₂ SurfObj.Released (objs.flatMap TracedObj.surfs) as' :=
        fun hr => h3 _ ht (Or.inl hr)
      cases keep with
      | true => exact ⟨rfl, h2, fun _ _ hr => h4 hr⟩
      | false =>
        cases last with
        | none => exact ⟨rfl, h2, fun _ h => by cases h⟩
        | some r => exact ⟨rfl, h2, fun _ _ hr => h4 hr⟩

theorem take_not_attribute {α : Type _} {l : List α} {sel : List Nat} : Np.take l sel ≠ .error .attribute := by
  induction sel with
  | nil => simp [Np.take]
  | cons i sel ih =>
    unfold Np.take
    split
    · simp
    · split
      · rename_i e he
        intro hc
        cases hc
        exact ih he
      · simp

theorem rayTracer_not_attribute (hobj : List.Forall₂ TracedObj.Represents objs objs') (hshape : ∀ o ∈ objs', o.ShapeOk)
    (hopt : ∀ s ∈ objs.flatMap TracedObj.surfs, ∀ w up hits, s.opt w up hits ≠ .error .attribute)
    (w : σ) (b : Bundle K E) (reps : Nat) (minE : K) (keep : Bool) :
    rayTracer objs' w b reps minE keep ≠ .error .attribute := by
  have hout : ∀ s' ∈ objs'.flatMap Obj.surfs, ∀ w rays sel,
      s'.outgoing w rays sel ≠ .error .attribute := by
    intro s' hs' w rays sel
    obtain ⟨i, hi⟩ := List.mem_iff_getElem?.1 hs'
    rcases forall₂_get (surfs_represents hobj) i with ⟨_, h⟩ | ⟨s, s2, h1, h2, g, hg, hl, rfl⟩
    · rw [h] at hi
      cases hi
    · rw [h2] at hi
      cases hi
      simp only [mkSurf]
      split
      · rename_i e he
        intro hc
        cases hc
        have : ∀ sel, hitRecs g s.frame rays sel ≠ .error .attribute := by
          intro sel
          induction sel with
          | nil => simp [hitRecs]
          | cons i sel ih =>
            unfold hitRecs
            split
            · split
              · rename_i e he
                intro hc
                cases hc
                exact ih he
              · simp
            · simp
            · simp
        exact this sel he
      · exact hopt s (List.mem_of_getElem? h1) _ _ _
  have hfix : ∀ (owned : List Bool) (raw : Bundle K E), fixParents owned raw ≠ .error .attribute := by
    intro owned raw
    unfold fixParents
    split
    · rename_i e he
      intro hc
      cases hc
      exact take_not_attribute he
    · simp
  have hcon : ∀ (w : σ) (k : Nat) (s' : Surf σ K E) (f o : List Bool) (b : Bundle K E), s' ∈ objs'.flatMap Obj.surfs →
      contribute objs' minE b w k s' f o ≠ .error .attribute := by
    intro w k s' f o b hs'
    unfold contribute
    simp only
    split
    · rename_i e he
      intro hc
      cases hc
      exact hout s' hs' _ _ _ he
    · split
      · rename_i e he
        intro hc
        cases hc
        exact hfix _ _ he
      · split
        · simp
        · split <;> simp
  have hloop : ∀ (surfs : List (Surf σ K E)) (fronts owneds : List (List Bool)) (w : σ) (k : Nat) (b : Bundle K E),
      (∀ s ∈ surfs, s ∈ objs'.flatMap Obj.surfs) →
      surfLoop objs' minE b w k surfs fronts owneds ≠ .error .attribute := by
    intro surfs
    induction surfs with
    | nil => intro fronts owneds w k b _; simp [surfLoop]
    | cons s surfs ih =>
      intro fronts owneds w k b hm
      cases fronts with
      | nil => simp [surfLoop]
      | cons f fronts =>
        cases owneds with
        | nil => simp [surfLoop]
        | cons o owneds =>
          unfold surfLoop
          have hm' : ∀ s ∈ surfs, s ∈ objs'.flatMap Obj.surfs := fun q hq => hm q (by simp [hq])
          split
          · split
            · rename_i e he
              intro hc
              cases hc
              exact hcon _ _ _ _ _ _ (hm s (by simp)) he
            · split
              · rename_i e he
                intro hc
                cases hc
                exact ih _ _ _ _ _ hm' he
              · simp
          · exact ih _ _ _ _ _ hm'
  have hiter : ∀ st, iterate objs' (objs'.flatMap Obj.surfs) minE st ≠ .error .attribute := by
    intro st
    unfold iterate
    split
    · rename_i e he
      intro hc
      cases hc
      unfold intersectRay at he
      simp only at he
      split at he
      · cases he
      · split at he <;> cases he
    · split
      · rename_i e he
        intro hc
        cases hc
        exact hloop _ _ _ _ _ _ (fun _ h => h) he
      · simp only
        split
        · rename_i e he
          intro hc
          cases hc
          exact take_not_attribute he
        · simp
  have htrace : ∀ reps st tree last,
      traceLoop objs' (objs'.flatMap Obj.surfs) minE keep reps st tree last ≠ .error .attribute := by
    intro reps
    induction reps with
    | zero => intro st tree last; simp [traceLoop]
    | succ n ih =>
      intro st tree last
      unfold traceLoop
      split
      · rename_i e he
        intro hc
        cases hc
        exact hiter _ he
      · simp only
        split
        · simp
        · exact ih _ _ _
  unfold rayTracer getSurfaces
  by_cases hemp : objs'.isEmpty = true
  · simp [hemp]
  · simp only [hemp, Bool.false_eq_true, if_false]
    split
    · rename_i e he
      intro hc
      cases hc
      exact htrace _ _ _ _ he
    · split
      · simp
      · split <;> simp

/-- C43: no trace trips over an attribute that was not set or was deleted. -/
theorem C43_no_attribute_error (hobj : List.Forall₂ TracedObj.Represents objs objs') (hshape : ∀ o ∈ objs', o.ShapeOk)
    (hopt : ∀ s ∈ objs.flatMap TracedObj.surfs, ∀ w up hits, s.opt w up hits ≠ .error .attribute)
    (w : σ) (b : Bundle K E) (reps : Nat) (minE : K) (keep : Bool) {as : List (SurfAttrs K E)}
    (ha : List.Forall₂ (fun s a => s.gm.CanFinish a.geom) (objs.flatMap TracedObj.surfs) as) :
    (rayTracerA objs w b reps minE keep as).1 ≠ .error .attribute := by
  rw [(C43_trace hobj hshape w b reps minE keep ha).1]
  exact rayTracer_not_attribute hobj hshape hopt w b reps minE keep

end

/-- C43, histories: any sequence of traces over the same surfaces, which may move and change their optics in between, starting from
new surfaces and including traces that raise, gives the results that every single trace would give alone. -/
theorem C43_history (gms : List (GM K E)) (jobs : List (Job σ K E)) (scenes : List (List (Obj σ K E)))
    (h : List.Forall₂ (fun j objs' => (j.objs.flatMap TracedObj.surfs).map SurfObj.gm = gms ∧
      List.Forall₂ TracedObj.Represents j.objs objs' ∧ ∀ o ∈ objs', o.ShapeOk) jobs scenes) :
    runJobs jobs (gms.map fun _ => {}) =
      List.zipWith (fun j objs' => rayTracer objs' j.world j.bundle j.reps j.minE j.keepTree) jobs scenes := by
  have key : ∀ (as : List (SurfAttrs K E)), List.Forall₂ (fun (m : GM K E) a => m.CanFinish a.geom) gms as →
      runJobs jobs as =
        List.zipWith (fun j objs' => rayTracer objs' j.world j.bundle j.reps j.minE j.keepTree) jobs scenes := by
    induction h with
    | nil => intro _ _; rfl
    | @cons j objs' jobs scenes hj _ ih =>
      intro as ha
      rw [← hj.1, List.forall₂_map_left_iff] at ha
      obtain ⟨h1, h2, _⟩ := C43_trace hj.2.1 hj.2.2 j.world j.bundle j.reps j.minE j.keepTree ha
      simp only [runJobs, List.zipWith_cons_cons, h1, List.cons.injEq, true_and]
      apply ih
      rw [← hj.1, List.forall₂_map_left_iff]
      exact h2
  cases h with
  | nil => rfl
  | @cons j objs' jobs scenes hj _ =>
    apply key
    rw [← hj.1]
    have hs := surfs_represents hj.2.1
    generalize objs'.flatMap Obj.surfs = surfs' at hs
    generalize j.objs.flatMap TracedObj.surfs = surfs at hs
    induction hs with
    | nil => exact .nil
    | cons h _ ih =>
      obtain ⟨g, hg, _⟩ := h
      exact .cons hg.fresh ih

/-- The protocol depends on surfaces not sharing a manager: if two surfaces were given the same flat manager and both are hit,
the second one raises when its rays are selected, whichever they are. -/
theorem C43_shared_fails (frame1 frame2 : Tf K) (rays1 rays2 : Bundle K E) (sel1 sel2 : List Nat) (a0 : Attrs K E) :
    ∃ e, ((flatObj : GM K E).select sel2 (flatObj.done (flatObj.select sel1
      (flatObj.find frame2 rays2 (flatObj.find frame1 rays1 a0).2).2).2).2).1 = .error e := by
  simp only [flatObj]
  generalize (flatFindA frame1 rays1 a0).2 = a1
  have hw : (flatFindA frame2 rays2 a1).2.workingFrame.isSome ∧ (flatFindA frame2 rays2 a1).2.workingBundle.isSome :=
    ⟨rfl, rfl⟩
  revert hw
  generalize (flatFindA frame2 rays2 a1).2 = a2
  rintro ⟨w1, w2⟩
  have hsel : (flatSelectA sel1 a2).2.workingFrame = a2.workingFrame ∧
      (flatSelectA sel1 a2).2.workingBundle = a2.workingBundle := by
    unfold flatSelectA
    simp only
    repeat' split
    all_goals exact ⟨rfl, rfl⟩
  rw [← hsel.1] at w1
  rw [← hsel.2] at w2
  revert w1 w2
  generalize (flatSelectA sel1 a2).2 = a3
  intro w1 w2
  have hd : (flatDoneA a3).2.workingBundle = none := by
    obtain ⟨wf, wb, p, b, i, g, l, v, n⟩ := a3
    cases wf <;> cases wb <;> simp at w1 w2
    rfl
  revert hd
  generalize (flatDoneA a3).2 = a4
  intro hd
  unfold flatSelectA
  simp only [hd]
  repeat' split
  all_goals exact ⟨_, rfl⟩

/-- Two rays from behind the plane Z = 0. -/
def twoBehind : Bundle ℚ Unit := [⟨⟨0, 0, -1⟩, ⟨0, 0, 1⟩, 1, 0, none, ()⟩, ⟨⟨0, 0, -2⟩, ⟨0, 0, 1⟩, 1, 0, none, ()⟩]
/-- A plate of side 2. -/
def plateObj : GM ℚ Unit := finiteFlatObj (rectOutside 2 2) false
/-- The protocol also depends on selecting once per registration.  Two rays come from behind a plate, so both normals point backwards after the
first selection; selecting the same two rays a second time raises nothing and turns the first of the normals around. -/
theorem C43_select_twice_fails :
    (plateObj.select [0, 1] (plateObj.find 1 twoBehind {}).2).1 = .ok () ∧
    plateObj.normals (plateObj.select [0, 1] (plateObj.find 1 twoBehind {}).2).2 = .ok [⟨0, 0, -1⟩, ⟨0, 0, -1⟩] ∧
    (plateObj.select [0, 1] (plateObj.select [0, 1] (plateObj.find 1 twoBehind {}).2).2).1 = .ok () ∧
    plateObj.normals (plateObj.select [0, 1] (plateObj.select [0, 1] (plateObj.find 1 twoBehind {}).2).2).2 = .ok [⟨0, 0, 1⟩, ⟨0, 0, -1⟩] := by
  refine ⟨?_, ?_, ?_, ?_⟩ <;> decide +kernel

/-- Normals asked for after registering a bundle but before selecting from it, with a selection of `idxs` left from an earlier
bundle.  If as many rays were selected then as are registered now, the normals are those facing each of the new rays;
otherwise `IndexError` is raised.  With no selection at all there is an `AttributeError`. -/
theorem C43_normals_unselected {K E : Type _} [Field K] [LinearOrder K] (frame : Tf K) (rays : Bundle K E) (a : Attrs K E) :
    (a.idxs = none → flatObj.normals (flatObj.find frame rays a).2 = .error .attribute) ∧
    (∀ idxs, a.idxs = some idxs → idxs.length = rays.length → flatObj.normals (flatObj.find frame rays a).2 =
      .ok (rays.map fun r => if 0 < V3.dot r.dir (frame.dir ⟨0, 0, 1⟩) then -frame.dir ⟨0, 0, 1⟩ else frame.dir ⟨0, 0, 1⟩)) ∧
    (∀ idxs, a.idxs = some idxs → idxs.length ≠ rays.length →
      flatObj.normals (flatObj.find frame rays a).2 = .error .index) := by
  have hz : frame.dir ⟨0, 0, 1⟩ = frame.rot.c3 := by
    ext <;> simp [Tf.dir, M3.mulVec]
  refine ⟨fun h => ?_, fun idxs h hl => ?_, fun idxs h hl => ?_⟩
  · simp [flatObj, flatFindA, flatNormalsA, h]
  · simp only [flatObj, flatFindA, flatNormalsA, h, Backside.flip, List.length_map, hl, if_true, hz, List.map_map]
    refine congrArg Except.ok (List.map_congr_left fun r _ => ?_)
    simp
  · simp only [flatObj, flatFindA, flatNormalsA, h, Backside.flip, List.length_map]
    rw [if_neg fun e => hl e.symm]

/-- Such a state: a bundle of three rays, of which two are selected, then a bundle of two. -/
example : flatObj.normals (flatObj.find 1 twoBehind
    (flatObj.select [0, 2] (flatObj.find 1 (⟨⟨0, 0, 1⟩, ⟨0, 0, -1⟩, 1, 0, none, ()⟩ :: twoBehind) {}).2).2).2 =
    .ok [⟨0, 0, -1⟩, ⟨0, 0, -1⟩] := by
  refine ((C43_normals_unselected 1 twoBehind _).2.1 [0, 2] rfl rfl).trans ?_
  decide +kernel

theorem allPoints_ok {l : List (Option (V3 K))} {ps : List (V3 K)} : allPoints l = .ok ps ↔ l = ps.map some := by
  induction l generalizing ps with
  | nil => cases ps <;> simp [allPoints]
  | cons x l ih =>
    cases x with
    | none => cases ps <;> simp [allPoints]
    | some p =>
      simp only [allPoints]
      cases h : allPoints l with
      | error e =>
        cases ps with
        | nil => simp
        | cons q qs =>
          simp only [reduceCtorEq, List.map_cons, List.cons.injEq, Option.some.injEq, false_iff, not_and]
          intro _ hl
          rw [ih.2 hl] at h
          simp at h
      | ok qs =>
        rw [ih.1 h]
        cases ps with
        | nil => simp
        | cons q qs' =>
          simp only [Except.ok.injEq, List.map_cons, List.cons.injEq, Option.some.injEq]
          exact and_congr Iff.rfl ⟨fun e => by rw [e], fun e => List.map_injective_iff.2 (Option.some_injective _) e⟩

/-- Asking an infinite plane for hit points after a selection: they are given exactly if every selected ray was reported with a finite
parameter, and are then, in the order of the selection, the points of the rays at these parameters.  A selected ray that missed puts an infinite or undefined
point among them (here an error). -/
theorem C43_points (frame : Tf K) (rays : Bundle K E) (a : Attrs K E) (prms : List (WithTop K)) (idxs : List Nat)
    (hprms : (flatObj.find frame rays a).1 = .ok prms) (hidxs : ∀ i ∈ idxs, i < rays.length) (ps : List (V3 K)) :
    flatObj.points (flatObj.select idxs (flatObj.find frame rays a).2).2 = .ok ps ↔
      List.Forall₂ (fun i p => ∃ (r : Ray K E) (t : K), rays[i]? = some r ∧ prms[i]? = some (t : WithTop K) ∧ p = r.vertex + t • r.dir) idxs ps := by
  simp only [flatObj, flatFindA, Except.ok.injEq] at hprms
  subst hprms
  obtain ⟨bs, hbs⟩ := Np.take_ok_of_lt (l := rays.map fun r => decide (0 < V3.dot r.dir frame.rot.c3)) (sel := idxs) (by simpa using hidxs)
  obtain ⟨rs, hrs⟩ := Np.take_ok_of_lt (l := rays) (sel := idxs) hidxs
  obtain ⟨qs, hqs⟩ := Np.take_ok_of_lt (l := rays.map fun r => flatParam frame r.vertex r.dir) (sel := idxs) (by simpa using hidxs)
  simp only [flatObj, flatFindA, flatSelectA, Backside.select, hbs, hrs, hqs, flatPointsA, allPoints_ok]
  clear hbs
  induction idxs generalizing rs qs ps with
  | nil =>
    simp only [Np.take, Except.ok.injEq] at hrs hqs
    subst hrs hqs
    cases ps <;> simp
  | cons i idxs ih =>
    have hi := hidxs i (by simp)
    obtain ⟨rs', hrs'⟩ := Np.take_ok_of_lt (l := rays) (sel := idxs) fun j hj => hidxs j (by simp [hj])
    obtain ⟨qs', hqs'⟩ := Np.take_ok_of_lt (l := rays.map fun r => flatParam frame r.vertex r.dir) (sel := idxs)
      (by simpa using fun j hj => hidxs j (by simp [hj]))
    simp only [Np.take, List.getElem?_eq_getElem hi, hrs', Except.ok.injEq] at hrs
    simp only [Np.take, List.getElem?_map, List.getElem?_eq_getElem hi, Option.map_some, hqs', Except.ok.injEq] at hqs
    subst hrs hqs
    cases ps with
    | nil => simp
    | cons p ps =>
      simp only [List.zipWith_cons_cons, List.map_cons, List.cons.injEq, List.forall₂_cons]
      refine and_congr ?_ (ih (fun j hj => hidxs j (by simp [hj])) ps rs' hrs' qs' hqs')
      simp only [List.getElem?_eq_getElem hi, List.getElem?_map, Option.map_some, Option.some.injEq]
      constructor
      · intro h
        cases hp : flatParam frame rays[i].vertex rays[i].dir with
        | top => rw [hp] at h; simp [pointAt] at h
        | coe t =>
          rw [hp] at h
          exact ⟨_, t, rfl, rfl, (Option.some.inj h).symm⟩
      · rintro ⟨r, t, rfl, ht, rfl⟩
        rw [ht]; rfl

/-- A case: of two rays the first comes from behind the plane and hits it, the second leaves it.  The first may be selected, the second not. -/
example : flatObj.points (flatObj.select [0] (flatObj.find 1 [⟨⟨3, 0, -1⟩, ⟨0, 0, 1⟩, 1, 0, none, ()⟩, ⟨⟨0, 0, 1⟩, ⟨0, 0, 1⟩, 1, 0, none, ()⟩] {}).2).2 =
      .ok [(⟨3, 0, 0⟩ : V3 ℚ)] ∧
    ¬ ∃ ps : List (V3 ℚ), flatObj.points (flatObj.select [0, 1] (flatObj.find 1
      [⟨⟨3, 0, -1⟩, ⟨0, 0, 1⟩, 1, 0, none, ()⟩, ⟨⟨0, 0, 1⟩, ⟨0, 0, 1⟩, 1, 0, none, ()⟩] {}).2).2 = .ok ps := by
  refine ⟨(C43_points 1 _ {} _ [0] rfl (by decide) _).2 (.cons ⟨_, 1, rfl, by decide +kernel, by decide +kernel⟩ .nil), ?_⟩
  rintro ⟨ps, h⟩
  have := (C43_points 1 _ {} _ [0, 1] rfl (by decide) ps).1 h
  obtain _ | ⟨_, _ | ⟨⟨r, t, _, h2, _⟩, _⟩⟩ := this
  revert h2
  have e : flatParam (1 : Tf ℚ) ⟨0, 0, 1⟩ ⟨0, 0, 1⟩ = ⊤ := by decide +kernel
  simp [e]

/-! ### A case that meets the hypotheses -/

namespace Examples

/-- A half absorbing mirror in the plane z = 0 and a 4 by 4 plate at z = 2, as objects; `shift` moves the plate. -/
def facingObjs (shift : ℚ) : List (TracedObj Unit ℚ Unit) :=
  [⟨[⟨flatObj, reflective (1/2), 1⟩], Obj.defaultOwn, Obj.defaultNext 1⟩,
   ⟨[⟨finiteFlatObj (rectOutside 4 4) false, reflective (1/4), ⟨1, ⟨0, 0, 2 + shift⟩⟩⟩], Obj.defaultOwn, Obj.defaultNext 1⟩]

/-- The same scene at the value level. -/
def facingVals (shift : ℚ) : List (Obj Unit ℚ Unit) :=
  [⟨[mkSurf flatGM (reflective (1/2)) 1], Obj.defaultOwn, Obj.defaultNext 1⟩,
   ⟨[mkSurf (finiteFlatGM (rectOutside 4 4)) (reflective (1/4)) ⟨1, ⟨0, 0, 2 + shift⟩⟩],
    Obj.defaultOwn, Obj.defaultNext 1⟩]

theorem facing_represents (shift : ℚ) : List.Forall₂ TracedObj.Represents (facingObjs shift) (facingVals shift) :=
  .cons ⟨.cons ⟨flatGM, flatObj_implements, flatGM_perRay.lengthOk, rfl⟩ .nil, rfl, rfl⟩
    (.cons ⟨.cons ⟨_, finiteFlatObj_implements _ _, (finiteFlatGM_perRay _).lengthOk, rfl⟩ .nil, rfl, rfl⟩ .nil)

/-- A slanted ray, which leaves after one bounce, and a vertical one. -/
def protoSource : Bundle ℚ Unit :=
  [⟨⟨0, 0, 1⟩, ⟨3/5, 0, -4/5⟩, 1, 0, none, ()⟩, ⟨⟨0, 0, 1⟩, ⟨0, 0, -1⟩, 1, 0, none, ()⟩]

/-- Three traces: one that works, one with a call that raises (no iterations and no tree), and one after the plate was
moved up. -/
def protoJobs : List (Job Unit ℚ Unit) :=
  [⟨facingObjs 0, (), protoSource, 4, 1/5, true⟩, ⟨facingObjs 0, (), protoSource, 0, 1/5, false⟩,
   ⟨facingObjs 1, (), protoSource, 4, 1/5, true⟩]

/-- The hypotheses of `C43_history` are met. -/
example : runJobs protoJobs [{}, {}] =
    [rayTracer (facingVals 0) () protoSource 4 (1/5) true, rayTracer (facingVals 0) () protoSource 0 (1/5) false,
     rayTracer (facingVals 1) () protoSource 4 (1/5) true] := by
  have h0 := facing_represents 0
  have h1 := facing_represents 1
  have hshape : ∀ shift, ∀ o ∈ facingVals shift, o.ShapeOk := by
    intro shift o ho
    simp only [facingVals, List.mem_cons, List.not_mem_nil, or_false] at ho
    rcases ho with rfl | rfl <;> exact Obj.Default.shapeOk ⟨rfl, rfl⟩
  exact C43_history (σ := Unit) [flatObj, finiteFlatObj (rectOutside 4 4) false] protoJobs
    [facingVals 0, facingVals 0, facingVals 1]
    (.cons ⟨rfl, h0, hshape 0⟩ (.cons ⟨rfl, h0, hshape 0⟩ (.cons ⟨rfl, h1, hshape 1⟩ .nil)))

/-- What the first and the third of these traces record: parents and energies. -/
example : (runJobs protoJobs [{}, {}]).map (fun r => r.toOption.map fun r =>
      r.tree.map fun l => l.map fun q => (q.parent, q.energy)) =
    [some [[(0, 1), (0, 1)], [(0, 1/2), (1, 1/2)], [(1, 3/8)], [(0, 3/16)]], none,
     some [[(0, 1), (0, 1)], [(0, 1/2), (1, 1/2)], [(1, 3/8)], [(0, 3/16)]]] := by
  decide +kernel

end Examples
end Tracer
