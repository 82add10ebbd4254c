import Verif.Spec.Protocol
import Verif.Lemmas.Surface
import Verif.Lemmas.Np
import Verif.Lemmas.Quadric

/-! The stateful geometry managers implement the value-level geometries. -/

set_option linter.unusedSectionVars false

namespace Tracer

variable {K E σ : Type _} [Field K] [LinearOrder K] [IsStrictOrderedRing K]

theorem take_recs {α : Type _} {l : List α} {sel : List Nat} {recs : List (HitRec K E)} (f : HitRec K E → α)
    (h1 : recs.map HitRec.idx = sel) (h2 : ∀ r ∈ recs, l[r.idx]? = some (f r)) :
    Np.take l sel = .ok (recs.map f) := by
  subst h1
  induction recs with
  | nil => rfl
  | cons r recs ih =>
    simp only [List.map_cons, Np.take, h2 r (by simp), ih (fun q hq => h2 q (by simp [hq]))]

theorem allPoints_recs (recs : List (HitRec K E)) :
    allPoints (recs.map fun r => some r.point) = .ok (recs.map HitRec.point) := by
  induction recs with
  | nil => rfl
  | cons r recs ih => simp only [List.map_cons, allPoints, ih]

theorem flip_nonzero (m : List Bool) (c : V3 K) :
    (Backside.pos (Np.nonzero m)).flip m.length c = .ok (m.map fun x => if x then -c else c) := by
  have h1 : (Np.nonzero m).all (fun i => decide (i < m.length)) = true := by
    rw [List.all_eq_true]
    intro i hi
    rw [Np.mem_nonzero] at hi
    simpa using (List.getElem?_eq_some_iff.1 hi).1
  simp only [Backside.flip, h1, if_true]
  congr 1
  apply List.ext_getElem
  · simp
  · intro i hi hi'
    have hm : i < m.length := by simpa using hi
    simp only [List.getElem_map, List.getElem_range, List.contains_iff_mem, Np.mem_nonzero,
      List.getElem?_eq_getElem hm, Option.some.injEq]

theorem baseDone_ok {a : Attrs K E} (h : a.workingFrame.isSome → a.workingBundle.isSome) :
    a.baseDone = (.ok (), { a with workingFrame := none, workingBundle := if a.workingFrame.isSome then none else a.workingBundle }) := by
  obtain ⟨wf, wb, p, b, i, g, l, v, n⟩ := a
  cases wf with
  | none => rfl
  | some f =>
    cases wb with
    | none => simp at h
    | some b => rfl

theorem flat_canFinish (outside : Tf K → V3 K → Bool) (kl : Bool) (a : Attrs K E) :
    (flatObj.CanFinish a ↔ (a.workingFrame.isSome ↔ a.workingBundle.isSome)) ∧
    ((finiteFlatObj outside kl).CanFinish a ↔ (a.workingFrame.isSome ↔ a.workingBundle.isSome)) := by
  obtain ⟨wf, wb, p, b, i, g, l, v, n⟩ := a
  constructor <;>
  · constructor
    · rintro ⟨h1, h2, h3, h4, h5⟩
      cases wf <;> cases wb <;> simp_all [flatObj, finiteFlatObj, flatDoneA, Attrs.baseDone]
    · intro h
      cases wf <;> cases wb <;> simp at h <;>
      exact ⟨rfl, rfl, rfl, rfl, rfl⟩

theorem flatObj_implements : (flatObj : GM K E).Implements flatGM where
  fresh := ((flat_canFinish (fun _ _ => false) false _).1).2 (by simp)
  find frame rays a ha := by
    refine ⟨rfl, ((flat_canFinish (fun _ _ => false) false _).1).2 ?_⟩
    simp [flatObj, flatFindA]
  done a ha := by
    rw [(flat_canFinish (fun _ _ => false) false _).1] at ha ⊢
    obtain ⟨wf, wb, p, b, i, g, l, v, n⟩ := a
    cases wf <;> cases wb <;> simp at ha <;> simp [flatObj, flatDoneA, Attrs.baseDone]
  select frame rays a ha sel recs hr a' ha' := by
    obtain ⟨h1, h2⟩ := hitRecs_ok hr
    have t1 : Np.take (rays.map fun r => decide (0 < V3.dot r.dir frame.rot.c3)) sel =
        .ok (recs.map fun r => decide (0 < V3.dot r.ray.dir frame.rot.c3)) :=
      take_recs _ h1 fun r hr => by rw [List.getElem?_map, (h2 r hr).1]; rfl
    have t2 : Np.take rays sel = .ok (recs.map HitRec.ray) := take_recs _ h1 fun r hr => (h2 r hr).1
    have t3 : Np.take (rays.map fun r => flatParam frame r.vertex r.dir) sel =
        .ok (recs.map fun r => flatParam frame r.ray.vertex r.ray.dir) :=
      take_recs _ h1 fun r hr => by rw [List.getElem?_map, (h2 r hr).1]; rfl
    have t4 : List.zipWith pointAt (recs.map HitRec.ray) (recs.map fun r => flatParam frame r.ray.vertex r.ray.dir) =
        recs.map fun r => some r.point := by
      rw [List.zipWith_map, List.zipWith_self]
      apply List.map_congr_left
      intro r hr
      obtain ⟨e1, t, e2, e3, _⟩ := h2 r hr
      simp only [flatGM, List.getElem?_map, e1, Option.map_some, Option.some.injEq] at e2
      rw [e2, e3]
      rfl
    have key : flatSelectA sel (flatFindA frame rays a).2 = (.ok (), { (flatFindA frame rays a).2 with
        idxs := some sel, params := none, glob := some (recs.map fun r => some r.point),
        backside := some (.pos (Np.nonzero (recs.map fun r => decide (0 < V3.dot r.ray.dir frame.rot.c3)))) }) := by
      simp only [flatSelectA, flatFindA, Backside.select, t1, t2, t3, t4]
    subst ha'
    simp only [flatObj]
    rw [key]
    refine ⟨rfl, ((flat_canFinish (fun _ _ => false) false _).1).2 (by simp [flatFindA]), allPoints_recs recs, ?_, rfl⟩
    simp only [flatNormalsA, flatFindA]
    have hl : sel.length = (recs.map fun r => decide (0 < V3.dot r.ray.dir frame.rot.c3)).length := by
      rw [← h1]; simp
    rw [hl, flip_nonzero, List.map_map]
    congr 1
    apply List.map_congr_left
    intro r hr
    obtain ⟨_, t, _, _, e4⟩ := h2 r hr
    rw [e4]
    simp [flatGM, flatNormal]

theorem finite_params (outside : Tf K → V3 K → Bool) (frame : Tf K) (rays : Bundle K E) :
    List.zipWith (fun t g => match g with
        | none => t
        | some x => if outside frame x then ⊤ else t) (rays.map fun r => flatParam frame r.vertex r.dir)
      (List.zipWith pointAt rays (rays.map fun r => flatParam frame r.vertex r.dir)) =
    rays.map fun r => finiteParam outside frame r.vertex r.dir := by
  rw [List.zipWith_map_right, List.zipWith_self, List.zipWith_map, List.zipWith_self]
  apply List.map_congr_left
  intro r _
  unfold finiteParam pointAt
  cases flatParam frame r.vertex r.dir <;> rfl

theorem finiteFlatObj_implements (outside : Tf K → V3 K → Bool) (kl : Bool) :
    (finiteFlatObj outside kl : GM K E).Implements (finiteFlatGM outside) where
  fresh := ((flat_canFinish outside kl _).2).2 (by simp)
  find frame rays a ha := by
    refine ⟨?_, ((flat_canFinish outside kl _).2).2 ?_⟩
    · exact congrArg Except.ok (finite_params outside frame rays)
    · simp [finiteFlatObj, finiteFindA, flatFindA]
  done a ha := by
    rw [(flat_canFinish outside kl _).2] at ha ⊢
    obtain ⟨wf, wb, p, b, i, g, l, v, n⟩ := a
    cases wf <;> cases wb <;> simp at ha <;> simp [finiteFlatObj, flatDoneA, Attrs.baseDone]
  select frame rays a ha sel recs hr a' ha' := by
    obtain ⟨h1, h2⟩ := hitRecs_ok hr
    have t1 : Np.take (rays.map fun r => decide (0 < V3.dot r.dir frame.rot.c3)) sel =
        .ok (recs.map fun r => decide (0 < V3.dot r.ray.dir frame.rot.c3)) :=
      take_recs _ h1 fun r hr => by rw [List.getElem?_map, (h2 r hr).1]; rfl
    have t3 : Np.take (List.zipWith pointAt rays (rays.map fun r => flatParam frame r.vertex r.dir)) sel =
        .ok (recs.map fun r => some r.point) :=
      take_recs _ h1 fun r hr => by
        obtain ⟨e1, t, e2, e3, _⟩ := h2 r hr
        simp only [finiteFlatGM, List.getElem?_map, e1, Option.map_some, Option.some.injEq] at e2
        rw [List.zipWith_map_right, List.zipWith_self, List.getElem?_map, e1, e3]
        simp only [Option.map_some, Option.some.injEq]
        unfold finiteParam at e2
        split at e2
        · cases e2
        · rename_i q hq
          split at e2
          · cases e2
          · rw [hq]
            cases e2
            rfl
    have key : finiteSelectA sel (finiteFindA outside kl frame rays a).2 =
        (.ok (), { (finiteFindA outside kl frame rays a).2 with
        idxs := some sel, glob := some (recs.map fun r => some r.point),
        backside := some (.pos (Np.nonzero (recs.map fun r => decide (0 < V3.dot r.ray.dir frame.rot.c3)))) }) := by
      simp only [finiteSelectA, finiteFindA, flatFindA, Backside.select, t1, t3]
    subst ha'
    simp only [finiteFlatObj]
    rw [key]
    refine ⟨rfl, ((flat_canFinish outside kl _).2).2 (by simp [finiteFindA, flatFindA]), allPoints_recs recs, ?_, rfl⟩
    simp only [flatNormalsA, finiteFindA, flatFindA]
    have hl : sel.length = (recs.map fun r => decide (0 < V3.dot r.ray.dir frame.rot.c3)).length := by
      rw [← h1]; simp
    rw [hl, flip_nonzero, List.map_map]
    congr 1
    apply List.map_congr_left
    intro r hr
    obtain ⟨_, t, _, _, e4⟩ := h2 r hr
    rw [e4]
    simp [finiteFlatGM, flatNormal]

theorem quadric_canFinish {find : Tf K → Bundle K E → List (WithTop K)}
    {verts : Tf K → Bundle K E → List (Option (V3 K))} {normal : Tf K → V3 K → V3 K → V3 K} (a : Attrs K E) :
    (quadricObj find verts normal).CanFinish a ↔
      (a.workingFrame.isSome ↔ a.workingBundle.isSome) ∧ (a.norm.isSome ↔ a.idxs.isSome) := by
  obtain ⟨wf, wb, p, b, i, g, l, v, n⟩ := a
  constructor
  · rintro ⟨h1, h2, h3, h4, h5⟩
    cases wf <;> cases wb <;> cases i <;> cases n <;>
      simp_all [quadricObj, quadricDoneA, Attrs.baseDone, quadricNormalsA]
  · intro h
    cases wf <;> cases wb <;> cases i <;> cases n <;> simp at h <;> exact ⟨rfl, rfl, rfl, rfl, rfl⟩

theorem quadricObj_implements {find : Tf K → Bundle K E → List (WithTop K)}
    {verts : Tf K → Bundle K E → List (Option (V3 K))} {normal : Tf K → V3 K → V3 K → V3 K}
    (hv : ∀ frame rays, verts frame rays = List.zipWith pointAt rays (find frame rays)) :
    (quadricObj find verts normal).Implements ⟨find, normal⟩ where
  fresh := (quadric_canFinish _).2 (by simp)
  find frame rays a ha := by
    rw [quadric_canFinish] at ha ⊢
    exact ⟨rfl, by simp [quadricObj, quadricFindA], ha.2⟩
  done a ha := by
    rw [quadric_canFinish] at ha ⊢
    obtain ⟨wf, wb, p, b, i, g, l, v, n⟩ := a
    cases wf <;> cases wb <;> cases i <;> cases n <;> simp at ha <;> simp [quadricObj, quadricDoneA, Attrs.baseDone]
  select frame rays a ha sel recs hr a' ha' := by
    obtain ⟨h1, h2⟩ := hitRecs_ok hr
    have t1 : Np.take (verts frame rays) sel = .ok (recs.map fun r => some r.point) :=
      take_recs _ h1 fun r hr => by
        obtain ⟨e1, t, e2, e3, _⟩ := h2 r hr
        simp only at e2
        rw [hv, List.getElem?_zipWith, e1, e2, e3]
        rfl
    have t2 : Np.take rays sel = .ok (recs.map HitRec.ray) := take_recs _ h1 fun r hr => (h2 r hr).1
    have t3 : List.zipWith (fun (p : V3 K) (r : Ray K E) => normal frame p r.dir) (recs.map HitRec.point)
        (recs.map HitRec.ray) = recs.map HitRec.normal := by
      rw [List.zipWith_map, List.zipWith_self]
      apply List.map_congr_left
      intro r hr
      obtain ⟨_, t, _, _, e4⟩ := h2 r hr
      rw [e4]
    have key : quadricSelectA normal sel (quadricFindA find verts frame rays a).2 =
        (.ok (), { (quadricFindA find verts frame rays a).2 with
        idxs := some sel, vertices := some (recs.map fun r => some r.point),
        norm := some (recs.map HitRec.normal) }) := by
      simp only [quadricSelectA, quadricFindA, t1, t2, t3, allPoints_recs]
    subst ha'
    simp only [quadricObj]
    rw [key]
    exact ⟨rfl, (quadric_canFinish (find := find) (verts := verts) (normal := normal) _).2 (by simp [quadricFindA]),
      allPoints_recs recs, rfl, rfl⟩

theorem quadricVerts_eq (abc : V3 ℝ → V3 ℝ → ℝ × ℝ × ℝ) (select : List Cand → List (Option Bool))
    (hs : ∀ l, (select l).length = l.length) (rays : Bundle ℝ E) :
    quadricVerts abc select rays = List.zipWith pointAt rays (quadricFind abc select rays) := by
  unfold quadricVerts quadricFind
  simp only
  have h := hs ((rays.map fun r => candidate (abc r.vertex r.dir) r.vertex r.dir).filterMap id)
  revert h
  generalize select ((rays.map fun r => candidate (abc r.vertex r.dir) r.vertex r.dir).filterMap id) = sel
  intro h
  induction rays generalizing sel with
  | nil => simp [Np.scatter]
  | cons r rays ih =>
    rcases hc : candidate (abc r.vertex r.dir) r.vertex r.dir with _ | c
    · simp only [List.map_cons, hc, List.filterMap_cons, id_eq, Option.isSome_none, List.length_cons,
        List.replicate_succ, Np.scatter] at h ⊢
      exact congrArg (List.cons none) (ih sel h)
    · cases sel with
      | nil => simp [hc] at h
      | cons s sel =>
        simp only [List.map_cons, hc, List.filterMap_cons, id_eq, List.length_cons, Nat.add_right_cancel_iff] at h
        have := ih sel h
        cases s with
        | none =>
          simp only [List.map_cons, hc, List.filterMap_cons, id_eq, Option.isSome_none, Option.isSome_some,
            List.length_cons, List.replicate_succ, Np.scatter, Np.mask, List.zipWith_cons_cons]
          exact congrArg (List.cons none) this
        | some b =>
          simp only [List.map_cons, hc, List.filterMap_cons, id_eq, Option.isSome_some,
            List.length_cons, List.replicate_succ, Np.scatter, Np.mask, List.zipWith_cons_cons]
          refine congrArg₂ List.cons ?_ this
          unfold candidate at hc
          simp only at hc
          split at hc
          · split at hc
            · split at hc
              · cases hc
              · cases hc
                cases b <;> rfl
            · cases hc
              cases b <;> rfl
          · cases hc

theorem defaultSelect_length (l : List Cand) : (defaultSelect l).length = l.length := by
  rw [defaultSelect_eq]; simp

theorem scatter_length' {α : Type _} (m : List Bool) (v o : List α) : (Np.scatter m v o).length = o.length := by
  simp

theorem trimSelect_length (nz) (test : V3 ℝ → Bool) (l : List Cand) : (trimSelect nz test l).length = l.length := by
  unfold trimSelect fill
  simp only [scatter_length', defaultSelect_length]

theorem cylinderSelect_length (h : ℝ) (frame : Tf ℝ) (l : List Cand) : (cylinderSelect h frame l).length = l.length := by
  rw [cylinderSelect_eq]; simp

end Tracer
