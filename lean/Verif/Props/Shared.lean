import Verif.Lemmas.Shared
import Verif.Props.Protocol
import Verif.Props.Engine

/-! C111: surfaces listed twice, and surfaces that share a geometry manager. -/

set_option linter.unusedSectionVars false

namespace Tracer

variable {K E σ : Type _} [Field K] [LinearOrder K] [IsStrictOrderedRing K]

section
variable {objs : List (TracedObj σ K E)} {objs' : List (Obj σ K E)}

/-- C111: if no surface is listed twice and no geometry manager serves two of them, it does not matter where in memory their attributes are: the trace
gives exactly the result of the value-level engine, and afterwards `done()` can still be called on every manager. -/
theorem C111_unshared (hobj : List.Forall₂ TracedObj.Represents objs objs') (hshape : ∀ o ∈ objs', o.ShapeOk)
    {ids : List (Nat × Nat)} (hu : Unshared ids) {m : Mem K E}
    (hm : List.Forall₂ (fun s p => s.gm.CanFinish (m.geom p.2)) (objs.flatMap TracedObj.surfs) ids)
    (w : σ) (b : Bundle K E) (reps : Nat) (minE : K) (keep : Bool) :
    (rayTracerS objs w b reps minE keep ids m).1 = rayTracer objs' w b reps minE keep ∧
    List.Forall₂ (fun s p => s.gm.CanFinish ((rayTracerS objs w b reps minE keep ids m).2.geom p.2)) (objs.flatMap TracedObj.surfs) ids := by
  have ha : List.Forall₂ (fun s (a : SurfAttrs K E) => s.gm.CanFinish a.geom) (objs.flatMap TracedObj.surfs) (ids.map m.read) := by
    rw [List.forall₂_map_right_iff]; exact hm
  obtain ⟨h1, h2⟩ := rayTracerS_eq hm.length_eq.symm hu w b reps minE keep m
  obtain ⟨h3, h4, _⟩ := C43_trace hobj hshape w b reps minE keep ha
  refine ⟨h1.trans h3, ?_⟩
  rw [← h2, List.forall₂_map_right_iff] at h4
  exact h4

end

/-! ### The managers of the package cannot select after `done()` -/

theorem baseDone_paired (a : Attrs K E) (h : a.Paired) : a.baseDone.2.Paired := by
  obtain ⟨wf, wb, p, b, i, g, l, v, n⟩ := a
  intro _
  cases wf with
  | none => exact h rfl
  | some f => cases wb <;> rfl

theorem flatDone_paired (a : Attrs K E) (h : a.Paired) : (flatDoneA a).2.Paired := by
  have := baseDone_paired a h
  unfold flatDoneA
  rcases hb : a.baseDone with ⟨e | u, a'⟩ <;> rw [hb] at this <;> exact this

/-- C111, the contract: with every manager of the package, once `done()` has been called rays cannot be selected before others are registered. -/
theorem C111_managers (outside : Tf K → V3 K → Bool) (keepLocal : Bool) (find : Tf K → Bundle K E → List (WithTop K))
    (verts : Tf K → Bundle K E → List (Option (V3 K))) (normal : Tf K → V3 K → V3 K → V3 K) :
    (flatObj : GM K E).Once ∧ (finiteFlatObj outside keepLocal : GM K E).Once ∧ (quadricObj find verts normal : GM K E).Once := by
  refine ⟨⟨?_, ?_, flatDone_paired, ?_⟩, ⟨?_, ?_, flatDone_paired, ?_⟩, ⟨?_, ?_, ?_, ?_⟩⟩
  · intro frame rays a _ h; cases h
  · intro idxs a h
    have hsel : (flatSelectA idxs a).2.workingFrame = a.workingFrame ∧ (flatSelectA idxs a).2.workingBundle = a.workingBundle := by
      unfold flatSelectA
      simp only
      repeat' split
      all_goals exact ⟨rfl, rfl⟩
    intro h'
    exact hsel.2.trans (h (hsel.1.symm.trans h'))
  · intro idxs a h hok
    have hd : (flatDoneA a).2.workingBundle = none := by
      have hok' : (flatDoneA a).1 = .ok () := hok
      obtain ⟨wf, wb, p, b, i, g, l, v, n⟩ := a
      cases wf with
      | none => exact h rfl
      | some f =>
        cases wb with
        | none => cases hok'
        | some r => rfl
    change ∃ e, (flatSelectA idxs (flatDoneA a).2).1 = .error e
    revert hd
    generalize (flatDoneA a).2 = a4
    intro hd
    unfold flatSelectA
    simp only [hd]
    repeat' split
    all_goals exact ⟨_, rfl⟩
  · intro frame rays a _ h; cases h
  · intro idxs a h
    have hsel : (finiteSelectA idxs a).2.workingFrame = a.workingFrame ∧ (finiteSelectA idxs a).2.workingBundle = a.workingBundle := by
      unfold finiteSelectA
      simp only
      repeat' split
      all_goals exact ⟨rfl, rfl⟩
    intro h'
    exact hsel.2.trans (h (hsel.1.symm.trans h'))
  · intro idxs a h hok
    have hd : (flatDoneA a).2.glob = none := by
      have hok' : (flatDoneA a).1 = .ok () := hok
      unfold flatDoneA at hok' ⊢
      rcases hb : a.baseDone with ⟨e | u, a'⟩
      · rw [hb] at hok'; cases hok'
      · rfl
    change ∃ e, (finiteSelectA idxs (flatDoneA a).2).1 = .error e
    revert hd
    generalize (flatDoneA a).2 = a4
    intro hd
    unfold finiteSelectA
    simp only [hd]
    repeat' split
    all_goals exact ⟨_, rfl⟩
  · intro frame rays a _ h; cases h
  · intro idxs a h
    have hsel : (quadricSelectA normal idxs a).2.workingFrame = a.workingFrame ∧
        (quadricSelectA normal idxs a).2.workingBundle = a.workingBundle := by
      unfold quadricSelectA
      simp only
      repeat' split
      all_goals exact ⟨rfl, rfl⟩
    intro h'
    exact hsel.2.trans (h (hsel.1.symm.trans h'))
  · intro a h
    change (quadricDoneA a).2.Paired
    unfold quadricDoneA
    simp only
    split
    · split
      · exact h
      · exact baseDone_paired _ h
    · exact baseDone_paired _ h
  · intro idxs a h hok
    have hv : (quadricDoneA a).2.vertices = none := by
      have hb : ∀ a : Attrs K E, a.baseDone.2.vertices = a.vertices := by
        intro a
        obtain ⟨wf, wb, p, b, i, g, l, v, n⟩ := a
        cases wf <;> cases wb <;> rfl
      unfold quadricDoneA
      simp only
      split
      · split
        · rfl
        · rw [hb]
      · rw [hb]
    refine ⟨.attribute, ?_⟩
    change (quadricSelectA normal idxs (quadricDoneA a).2).1 = _
    unfold quadricSelectA
    simp only [hv]

/-! ### With sharing -/

section
variable {objs : List (TracedObj σ K E)} {objs' : List (Obj σ K E)} {gms : Nat → GM K E} {ids : List (Nat × Nat)}

/-- C111, one iteration: if some ray is to be reflected by the surface at place `j`, and an earlier place `i` has the same geometry manager, the iteration
raises. -/
theorem C111_iteration_raises (hg : ∀ g, (gms g).Once) (hobj : List.Forall₂ TracedObj.Represents objs objs')
    (hp : ManagersAt gms (objs.flatMap TracedObj.surfs) ids) {st : TraceState σ K E} (hs : st.Shape objs') {m : Mem K E}
    (hm : ∀ p ∈ ids, (gms p.2).CanFinish (m.geom p.2) ∧ (m.geom p.2).Paired) {minE : K} {front owned : List (List Bool)}
    (hint : intersectRay st.bund (objs'.flatMap Obj.surfs) (surfOwnership objs') st.rayOwn st.relev = .ok (front, owned))
    {i j r : Nat} (hij : i < j) (hmark : Marked front j r) (hshare : ∃ p q, ids[i]? = some p ∧ ids[j]? = some q ∧ p.2 = q.2) :
    ∃ e, (iterateS objs (objs.flatMap TracedObj.surfs) minE st ids m).1 = .error e := by
  have hsurf := surfs_represents hobj
  obtain ⟨h1, h2⟩ := intersectRayS_ok hg hsurf hp hs hm
  obtain ⟨p, q, hpi, hqj, hpq⟩ := hshare
  unfold iterateS
  rw [perObjA_eq hobj]
  change ∃ e, (match intersectRayS st.bund (objs.flatMap TracedObj.surfs) (surfOwnership objs') st.rayOwn st.relev ids m with
    | (.error e, m) => (.error e, m)
    | (.ok (front, owned), m) => _ : Except Err (TraceState σ K E × Bundle K E × Bundle K E) × Mem K E).1 = .error e
  rcases hr : intersectRayS st.bund (objs.flatMap TracedObj.surfs) (surfOwnership objs') st.rayOwn st.relev ids m with ⟨x, m'⟩
  rw [hr] at h1 h2
  simp only at h1 h2
  rw [hint] at h1
  subst h1
  simp only
  have hmark' := hmark
  rw [C08_nearest_iff hs (represents_lengthOk hsurf) hint] at hmark'
  obtain ⟨t, ha, _⟩ := hmark'
  obtain ⟨row, hrow, hrowr⟩ := hmark
  obtain ⟨hown, hfront⟩ := intersectRay_ok hint
  -- the ray is among those the surface is asked about
  have htest : Tested (surfOwnership objs') st.rayOwn st.relev j r := by
    obtain ⟨s, i', _, hi', _⟩ := ha
    have := List.mem_of_getElem? hi'
    unfold testedIdx at this
    simpa using (List.mem_filter.1 this).2
  obtain ⟨o, hoj, hor⟩ := (owned_getElem (rayOwn := st.rayOwn) (surfOwn := surfOwnership objs') (relev := st.relev) j r).2 htest
  have hol : o.length = st.bund.length := owned_row_length hs hoj
  have hfl : row.length = st.bund.length :=
    frontMask_row_length (dropSelfHits_row_length fun row hrow => rawStack_row_length hrow) row
      (hfront ▸ List.mem_of_getElem? hrow)
  have hhit : (Np.mask o row).any id = true := by
    have hr' : r ∈ Np.nonzero o := (Np.mem_nonzero).2 hor
    obtain ⟨i', hi'⟩ := List.mem_iff_getElem?.1 hr'
    have : i' ∈ Np.nonzero (Np.mask o row) := (Np.mem_mask_iff (by rw [hol, hfl])).2 ⟨r, hi', hrowr⟩
    rw [Np.mem_nonzero] at this
    rw [List.any_eq_true]
    exact ⟨true, List.mem_of_getElem? this, rfl⟩
  have hpair : (m'.geom q.2).Paired := (h2 q (List.mem_of_getElem? hqj)).2
  have hoj' : owned[j]? = some o := by rw [hown]; exact hoj
  obtain ⟨e, he⟩ := surfLoopS_shared hg hp (objs := objs) (minE := minE) st.world 0 hpair hij hpi hpq hqj rfl hrow hoj' hhit
  refine ⟨e, ?_⟩
  rcases hl : surfLoopS objs minE st.world 0 (objs.flatMap TracedObj.surfs) front owned ids m' with ⟨y, m''⟩
  rw [hl] at he
  simp only at he
  subst he
  rfl

/-- C111: if the surface at place `j` is the one that some source ray meets first, and an earlier place `i` has the same geometry manager, then the
trace raises. -/
theorem C111_raises (hg : ∀ g, (gms g).Once) (hobj : List.Forall₂ TracedObj.Represents objs objs')
    (hp : ManagersAt gms (objs.flatMap TracedObj.surfs) ids) {m : Mem K E}
    (hm : ∀ p ∈ ids, (gms p.2).CanFinish (m.geom p.2) ∧ (m.geom p.2).Paired)
    {i j r : Nat} (hij : i < j) (hshare : ∃ p q, ids[i]? = some p ∧ ids[j]? = some q ∧ p.2 = q.2)
    {b : Bundle K E} (hr : r < b.length) {s : Surf σ K E} (hs : (objs'.flatMap Obj.surfs)[j]? = some s) {t : K}
    (ht : (s.register b)[r]? = some (t : WithTop K)) (ht0 : 1 / 10 ^ 6 < t)
    (hfirst : ∀ s' ∈ objs'.flatMap Obj.surfs, ∀ t' : K, (s'.register b)[r]? = some (t' : WithTop K) → 1 / 10 ^ 10 < t' → t ≤ t')
    (w : σ) {reps : Nat} (hreps : 0 < reps) (minE : K) (keep : Bool) :
    ∃ e, (rayTracerS objs w b reps minE keep ids m).1 = .error e := by
  have hsurf := surfs_represents hobj
  unfold rayTracerS
  by_cases hemp : objs.isEmpty = true
  · simp only [hemp, if_true]; exact ⟨_, rfl⟩
  · simp only [hemp, Bool.false_eq_true, if_false]
    obtain ⟨n, rfl⟩ : ∃ n, reps = n + 1 := ⟨reps - 1, by omega⟩
    have hinit : (⟨b, List.replicate b.length none,
        List.replicate (objs.flatMap TracedObj.surfs).length (List.replicate b.length true), w⟩ : TraceState σ K E) =
          initState objs' b w := by
      unfold initState; rw [hsurf.length_eq]
    rw [hinit]
    have hsh := initState_shape objs' b w
    have key : ∃ e, (iterateS objs (objs.flatMap TracedObj.surfs) minE (initState objs' b w) ids m).1 = .error e := by
      rcases hint : intersectRay b (objs'.flatMap Obj.surfs) (surfOwnership objs') (initState objs' b w).rayOwn
          (initState objs' b w).relev with e | ⟨front, owned⟩
      · obtain ⟨h1, _⟩ := intersectRayS_ok hg hsurf hp (b := b) hsh hm
        rw [hint] at h1
        refine ⟨e, ?_⟩
        unfold iterateS
        rw [perObjA_eq hobj]
        change (match intersectRayS b (objs.flatMap TracedObj.surfs) (surfOwnership objs') (initState objs' b w).rayOwn
            (initState objs' b w).relev ids m with
          | (.error e, m) => (.error e, m)
          | (.ok (front, owned), m) => _ : Except Err (TraceState σ K E × Bundle K E × Bundle K E) × Mem K E).1 = .error e
        rcases hr : intersectRayS b (objs.flatMap TracedObj.surfs) (surfOwnership objs') (initState objs' b w).rayOwn
            (initState objs' b w).relev ids m with ⟨x, m'⟩
        rw [hr] at h1
        simp only at h1
        subst h1
        rfl
      · refine C111_iteration_raises hg hobj hp (st := initState objs' b w) hsh hm hint hij (r := r) ?_ hshare
        have hfree := initState_free objs' b w
        refine (C08_nearest_iff hsh (represents_lengthOk hsurf) hint j r).2
          ⟨t, (hfree.answer hsh j r t).2 ⟨s, hs, hr, ht⟩, lt_of_le_of_lt (threshold_le_dropTol _ _ _ _ _) ht0, ?_⟩
        intro k' t' ha hthr
        obtain ⟨s', h1, _, h3⟩ := (hfree.answer hsh k' r t').1 ha
        exact hfirst s' (List.mem_of_getElem? h1) t' h3 (lt_of_le_of_lt (selfTol_le_threshold _ _ _ _ _) hthr)
    obtain ⟨e, he⟩ := key
    unfold traceLoopS
    rcases hi : iterateS objs (objs.flatMap TracedObj.surfs) minE (initState objs' b w) ids m with ⟨x, m'⟩
    rw [hi] at he
    simp only at he
    subst he
    exact ⟨e, rfl⟩

/-- C111, a component used twice: if the same surface is listed at two places, and it is the one that some source ray meets first, then the trace
raises. -/
theorem C111_twice (hg : ∀ g, (gms g).Once) (hobj : List.Forall₂ TracedObj.Represents objs objs')
    (hp : ManagersAt gms (objs.flatMap TracedObj.surfs) ids) {m : Mem K E}
    (hm : ∀ p ∈ ids, (gms p.2).CanFinish (m.geom p.2) ∧ (m.geom p.2).Paired)
    {i j r : Nat} (hij : i ≠ j) {p : Nat × Nat} (hi : ids[i]? = some p) (hj : ids[j]? = some p) {s : Surf σ K E}
    (hsi : (objs'.flatMap Obj.surfs)[i]? = some s) (hsj : (objs'.flatMap Obj.surfs)[j]? = some s)
    {b : Bundle K E} (hr : r < b.length) {t : K}
    (ht : (s.register b)[r]? = some (t : WithTop K)) (ht0 : 1 / 10 ^ 6 < t)
    (hfirst : ∀ s' ∈ objs'.flatMap Obj.surfs, ∀ t' : K, (s'.register b)[r]? = some (t' : WithTop K) → 1 / 10 ^ 10 < t' → t ≤ t')
    (w : σ) {reps : Nat} (hreps : 0 < reps) (minE : K) (keep : Bool) :
    ∃ e, (rayTracerS objs w b reps minE keep ids m).1 = .error e := by
  rcases Nat.lt_or_gt_of_ne hij with h | h
  · exact C111_raises hg hobj hp hm h ⟨p, p, hi, hj, rfl⟩ hr hsj ht ht0 hfirst w hreps minE keep
  · exact C111_raises hg hobj hp hm h ⟨p, p, hj, hi, rfl⟩ hr hsi ht ht0 hfirst w hreps minE keep

end

/-! ### Cases -/

namespace Examples

/-- Two square mirrors, at z = 1 and z = 3. -/
def twoPlates : List (TracedObj Unit ℚ Unit) :=
  [⟨[⟨plateObj, reflective (1/2), ⟨1, ⟨0, 0, 1⟩⟩⟩], Obj.defaultOwn, Obj.defaultNext 1⟩,
   ⟨[⟨plateObj, reflective (1/2), ⟨1, ⟨0, 0, 3⟩⟩⟩], Obj.defaultOwn, Obj.defaultNext 1⟩]

/-- The first of them, used twice. -/
def plateTwice : List (TracedObj Unit ℚ Unit) :=
  [⟨[⟨plateObj, reflective (1/2), ⟨1, ⟨0, 0, 1⟩⟩⟩], Obj.defaultOwn, Obj.defaultNext 1⟩,
   ⟨[⟨plateObj, reflective (1/2), ⟨1, ⟨0, 0, 1⟩⟩⟩], Obj.defaultOwn, Obj.defaultNext 1⟩]

/-- One mirror at the value level. -/
def plateVal (z : ℚ) : Obj Unit ℚ Unit :=
  ⟨[mkSurf (finiteFlatGM (rectOutside 2 2)) (reflective (1/2)) ⟨1, ⟨0, 0, z⟩⟩], Obj.defaultOwn, Obj.defaultNext 1⟩

theorem plate_represents (z z' : ℚ) : List.Forall₂ TracedObj.Represents
    ([⟨[⟨plateObj, reflective (1/2), ⟨1, ⟨0, 0, z⟩⟩⟩], Obj.defaultOwn, Obj.defaultNext 1⟩,
      ⟨[⟨plateObj, reflective (1/2), ⟨1, ⟨0, 0, z'⟩⟩⟩], Obj.defaultOwn, Obj.defaultNext 1⟩] : List (TracedObj Unit ℚ Unit))
    [plateVal z, plateVal z'] :=
  .cons ⟨.cons ⟨_, finiteFlatObj_implements _ _, (finiteFlatGM_perRay _).lengthOk, rfl⟩ .nil, rfl, rfl⟩
    (.cons ⟨.cons ⟨_, finiteFlatObj_implements _ _, (finiteFlatGM_perRay _).lengthOk, rfl⟩ .nil, rfl, rfl⟩ .nil)

/-- New surfaces and managers. -/
def freshMem : Mem ℚ Unit := ⟨fun _ => (none, none), fun _ => {}⟩

/-- A ray going up from the origin. -/
def upRay : Bundle ℚ Unit := [⟨⟨0, 0, 0⟩, ⟨0, 0, 1⟩, 1, 0, none, ()⟩]

theorem plate_fresh : plateObj.CanFinish {} ∧ ({} : Attrs ℚ Unit).Paired :=
  ⟨(finiteFlatObj_implements (rectOutside 2 2) false).fresh, fun _ => rfl⟩

end Examples

open Examples in
/-- The hypotheses of `C111_unshared` are met by the two mirrors with a manager each. -/
example : (rayTracerS twoPlates () upRay 5 0 true [(0, 0), (1, 1)] freshMem).1 =
    rayTracer [plateVal 1, plateVal 3] () upRay 5 0 true := by
  refine (C111_unshared (plate_represents 1 3) ?_ ⟨by decide, by decide⟩
    (.cons plate_fresh.1 (.cons plate_fresh.1 .nil)) () upRay 5 0 true).1
  intro o ho
  simp only [List.mem_cons, List.not_mem_nil, or_false] at ho
  rcases ho with rfl | rfl <;> exact Obj.Default.shapeOk ⟨rfl, rfl⟩

open Examples in
/-- The hypotheses of `C111_twice` are met when a mirror is used twice and a ray meets it. -/
example : ∃ e, (rayTracerS plateTwice () upRay 5 0 true [(0, 0), (0, 0)] freshMem).1 = .error e := by
  refine C111_twice (gms := fun _ => plateObj)
    (fun _ => (C111_managers (rectOutside 2 2) false (fun _ _ => []) (fun _ _ => []) (fun _ p _ => p)).2.1)
    (plate_represents 1 1) (.cons rfl (.cons rfl .nil)) (fun _ _ => plate_fresh) (i := 0) (j := 1) (r := 0) (by decide)
    rfl rfl (s := mkSurf (finiteFlatGM (rectOutside 2 2)) (reflective (1/2)) ⟨1, ⟨0, 0, 1⟩⟩) rfl rfl (by decide) (t := 1)
    (by decide +kernel) (by norm_num) ?_ () (by decide) 0 true
  intro s' hs' t' ht' _
  have e : s' = mkSurf (finiteFlatGM (rectOutside 2 2)) (reflective (1/2)) ⟨1, ⟨0, 0, 1⟩⟩ := by
    simp only [plateVal, List.flatMap_cons, List.flatMap_nil, List.append_nil, List.cons_append, List.nil_append, List.mem_cons,
      List.not_mem_nil, or_false, or_self] at hs'
    exact hs'
  subst e
  have h1 : ((mkSurf (finiteFlatGM (rectOutside 2 2)) (reflective (1/2)) ⟨1, ⟨0, 0, 1⟩⟩ : Surf Unit ℚ Unit).register upRay)[0]? =
    some ((1 : ℚ) : WithTop ℚ) := by decide +kernel
  rw [h1] at ht'
  exact le_of_eq (WithTop.coe_inj.1 (Option.some.inj ht'))

open Examples in
/-- The property fails for surfaces that share a geometry manager: no exception is raised when only the first of them is hit, but it answers with the hit points
of the second.  A ray from the origin meets the mirror at z = 1 first.  With a manager each, it is recorded as leaving from there.  With one manager, it
is recorded as leaving from the mirror at z = 3. -/
theorem C111_shared_fails :
    ((rayTracerS twoPlates () upRay 1 0 true [(0, 0), (1, 1)] freshMem).1.toOption.map fun r =>
      r.tree.map fun l => l.map fun q => (q.vertex, q.dir)) = some [[(⟨0, 0, 0⟩, ⟨0, 0, 1⟩)], [(⟨0, 0, 1⟩, ⟨0, 0, -1⟩)]] ∧
    ((rayTracerS twoPlates () upRay 1 0 true [(0, 0), (1, 0)] freshMem).1.toOption.map fun r =>
      r.tree.map fun l => l.map fun q => (q.vertex, q.dir)) = some [[(⟨0, 0, 0⟩, ⟨0, 0, 1⟩)], [(⟨0, 0, 3⟩, ⟨0, 0, -1⟩)]] := by
  refine ⟨?_, ?_⟩ <;> decide +kernel

end Tracer
