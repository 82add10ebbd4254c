import Verif.Lemmas.Managers
import Verif.Lemmas.Trace

/-! The engine working on surface objects refines the engine of `Model/Engine.lean`. -/

set_option linter.unusedSectionVars false

namespace Tracer

variable {K E σ : Type _} [Field K] [LinearOrder K] [IsStrictOrderedRing K]

/-- Rays that a surface was asked about (tracer_engine.py:55-58). -/
def inRaysOf (b : Bundle K E) (owned : List Bool) : Bundle K E :=
  if owned.any (! ·) then Np.mask owned b else b

/-! ### one surface -/

theorem register_ok {s : SurfObj σ K E} {s' : Surf σ K E} (h : s.Represents s') (rays : Bundle K E)
    {a : SurfAttrs K E} (ha : s.gm.CanFinish a.geom) :
    (s.register rays a).1 = .ok (s'.register rays) ∧ s.gm.CanFinish (s.register rays a).2.geom := by
  obtain ⟨g, hg, _, rfl⟩ := h
  exact hg.find s.frame rays a.geom ha

theorem outgoing_ok {s : SurfObj σ K E} {s' : Surf σ K E} (h : s.Represents s') (rays : Bundle K E)
    {a a' : SurfAttrs K E} (ha : s.gm.CanFinish a.geom) (w : σ) {sel : List Nat}
    (hsel : ∀ i ∈ sel, ∃ t : K, (s'.register rays)[i]? = some (t : WithTop K))
    (ha' : a' = (s.select sel (s.register rays a).2).2) :
    (s.select sel (s.register rays a).2).1 = .ok () ∧ s.gm.CanFinish a'.geom ∧
      s.outgoing w a' = s'.outgoing w rays sel := by
  obtain ⟨g, hg, hl, rfl⟩ := h
  obtain ⟨recs, hrecs⟩ := hitRecs_exists (g := g) (frame := s.frame) (rays := rays) (sel := sel) hl hsel
  obtain ⟨h1, h2, h3, h4, h5⟩ := hg.select s.frame rays a.geom ha sel recs hrecs _ rfl
  subst ha'
  refine ⟨h1, h2, ?_⟩
  obtain ⟨e1, e2⟩ := hitRecs_ok hrecs
  have ht : Np.take rays sel = .ok (recs.map HitRec.ray) := take_recs _ e1 fun r hr => (e2 r hr).1
  have hz : ∀ recs : List (HitRec K E), zipRecs (recs.map HitRec.idx) (recs.map HitRec.ray)
      (recs.map HitRec.point) (recs.map HitRec.normal) = recs := by
    intro recs
    induction recs with
    | nil => rfl
    | cons r recs ih => simp only [List.map_cons, zipRecs, ih]
  have hz' := hz recs
  rw [e1] at hz'
  simp only [SurfObj.outgoing, SurfObj.select, SurfObj.register, mkSurf, hrecs, ht, h3, h4, h5, hz']

theorem done_ok {s : SurfObj σ K E} {s' : Surf σ K E} (h : s.Represents s')
    {a : SurfAttrs K E} (ha : s.gm.CanFinish a.geom) :
    (s.done a).1 = .ok () ∧ s.gm.CanFinish (s.done a).2.geom ∧ s.Released (s.done a).2 := by
  obtain ⟨g, hg, _, rfl⟩ := h
  exact ⟨ha.1, hg.done _ ha, rfl, ha.2⟩

/-! ### intersect_ray -/

/-- `done()` can be called on every surface. -/
def AllCanFinish : List (SurfObj σ K E) → List (SurfAttrs K E) → Prop :=
  List.Forall₂ fun s a => s.gm.CanFinish a.geom

/-- The surfaces with the attributes `as'` come from registering the rays they own. -/
inductive Registered (b : Bundle K E) :
    List (SurfObj σ K E) → List (List Bool) → List (SurfAttrs K E) → Prop
  | nil : Registered b [] [] []
  | cons {s owned a a' surfs owneds as'} : s.gm.CanFinish a.geom → s.gm.CanFinish a'.geom →
      (owned.any id = true → a' = (s.register (inRaysOf b owned) a).2) →
      Registered b surfs owneds as' → Registered b (s :: surfs) (owned :: owneds) (a' :: as')

theorem registerAll_ok {b : Bundle K E} {surfs : List (SurfObj σ K E)} {surfs' : List (Surf σ K E)}
    (h : List.Forall₂ SurfObj.Represents surfs surfs') {owneds : List (List Bool)} (hl : owneds.length = surfs.length)
    {as : List (SurfAttrs K E)} (ha : AllCanFinish surfs as) :
    ∃ as', registerAll b surfs owneds as = (.ok (List.zipWith (stackRow b) surfs' owneds), as') ∧
      Registered b surfs owneds as' := by
  induction h generalizing owneds as with
  | nil =>
    cases ha
    cases owneds with
    | nil => exact ⟨[], rfl, .nil⟩
    | cons o os => simp at hl
  | @cons s s' surfs surfs' h1 h2 ih =>
    cases ha with
    | @cons _ a _ as ha1 ha2 =>
      cases owneds with
      | nil => simp at hl
      | cons o os =>
        obtain ⟨as', e1, e2⟩ := ih (by simpa using hl) ha2
        by_cases ho : o.any id = true
        · obtain ⟨r1, r2⟩ := register_ok h1 (inRaysOf b o) ha1
          refine ⟨(s.register (inRaysOf b o) a).2 :: as', ?_, .cons ha1 r2 (fun _ => rfl) e2⟩
          unfold registerAll
          rw [if_pos ho]
          simp only
          change (match s.register (inRaysOf b o) a with | (.error e, a) => _ | (.ok prms, a) => _) = _
          rcases hreg : s.register (inRaysOf b o) a with ⟨x, y⟩
          rw [hreg] at r1
          simp only at r1
          subst r1
          simp only [e1, List.zipWith_cons_cons, Except.map, Prod.mk.injEq, and_true, Except.ok.injEq, List.cons.injEq]
          unfold stackRow
          rw [if_pos ho]
          rfl
        · refine ⟨a :: as', ?_, .cons ha1 ha1 (fun h => absurd h ho) e2⟩
          unfold registerAll
          rw [if_neg ho]
          simp only [e1, List.zipWith_cons_cons, Except.map, Prod.mk.injEq, and_true, Except.ok.injEq, List.cons.injEq]
          unfold stackRow
          rw [if_neg ho]

theorem Registered.canFinish {b : Bundle K E} {surfs : List (SurfObj σ K E)} {owneds as}
    (h : Registered b surfs owneds as) : AllCanFinish surfs as := by
  induction h with
  | nil => exact .nil
  | cons _ h2 _ _ ih => exact .cons h2 ih

theorem intersectRayA_ok {b : Bundle K E} {surfs : List (SurfObj σ K E)} {surfs' : List (Surf σ K E)}
    (h : List.Forall₂ SurfObj.Represents surfs surfs') {surfOwn : List Nat} {rayOwn : List (Option Nat)}
    {relev : List (List Bool)} (hs : IShape b.length surfs' surfOwn rayOwn relev)
    {as : List (SurfAttrs K E)} (ha : AllCanFinish surfs as) :
    ∃ as', intersectRayA b surfs surfOwn rayOwn relev as = (intersectRay b surfs' surfOwn rayOwn relev, as') ∧
      Registered b surfs (List.zipWith (ownedMask rayOwn) surfOwn relev) as' := by
  have hlen := h.length_eq
  obtain ⟨as', e1, e2⟩ := registerAll_ok (b := b) h (owneds := List.zipWith (ownedMask rayOwn) surfOwn relev)
    (by simp [hs.surf_len, hs.relev_len, hlen]) ha
  refine ⟨as', ?_, e2⟩
  unfold intersectRayA intersectRay
  simp only [e1]
  have he : surfs.isEmpty = surfs'.isEmpty := by
    cases h <;> rfl
  rw [he]
  split
  · rfl
  · split <;> rfl

/-- The engine only selects rays for which the surface gave a finite parameter. -/
theorem selected_finite {b : Bundle K E} {surfs : List (Surf σ K E)} {surfOwn : List Nat}
    {rayOwn : List (Option Nat)} {relev : List (List Bool)} (hs : IShape b.length surfs surfOwn rayOwn relev)
    (hlen : ∀ s ∈ surfs, s.LengthOk) {front owned : List (List Bool)}
    (hr : intersectRay b surfs surfOwn rayOwn relev = .ok (front, owned)) {k : Nat} {s : Surf σ K E}
    {f o : List Bool} (hk : surfs[k]? = some s) (hf : front[k]? = some f) (ho : owned[k]? = some o) :
    ∀ i ∈ Np.nonzero (Np.mask o f), ∃ t : K, (s.register (inRaysOf b o))[i]? = some (t : WithTop K) := by
  intro i hi
  obtain ⟨rfl, rfl⟩ := intersectRay_ok hr
  have hol : o.length = b.length := owned_row_length hs ho
  have hfl : f.length = b.length :=
    frontMask_row_length (dropSelfHits_row_length fun row hrow => rawStack_row_length hrow) f
      (List.mem_of_getElem? hf)
  obtain ⟨j, hj1, hj2⟩ := (Np.mem_mask_iff (by rw [hol, hfl])).1 hi
  obtain ⟨t, ⟨s2, i2, h1, h2, h3⟩, _, _⟩ := (front_iff hs hlen k j).1 ⟨f, hf, hj2⟩
  rw [hk] at h1
  cases h1
  rw [testedRays_eq hs ho] at h3
  rw [testedIdx_eq hs ho] at h2
  have hii : i = i2 := by
    have l1 := (List.getElem?_eq_some_iff.1 hj1)
    have l2 := (List.getElem?_eq_some_iff.1 h2)
    exact (Np.nonzero_nodup o).getElem_inj_iff.1 (l1.2.trans l2.2.symm)
  subst hii
  refine ⟨t, ?_⟩
  unfold inRaysOf
  rw [inRays_eq hol]
  exact h3

/-! ### the loop over surfaces -/

theorem perObjA_eq {objs : List (TracedObj σ K E)} {objs' : List (Obj σ K E)}
    (h : List.Forall₂ TracedObj.Represents objs objs') : perObjA objs = surfsPerObj objs' := by
  induction h with
  | nil => rfl
  | cons h1 _ ih =>
    simp only [perObjA, surfsPerObj, List.map_cons] at ih ⊢
    rw [h1.1.length_eq, ih]

theorem forall₂_get {α β : Type _} {R : α → β → Prop} {l : List α} {l' : List β} (h : List.Forall₂ R l l') (i : Nat) :
    (l[i]? = none ∧ l'[i]? = none) ∨ ∃ x y, l[i]? = some x ∧ l'[i]? = some y ∧ R x y := by
  induction h generalizing i with
  | nil => simp
  | cons h1 _ ih =>
    cases i with
    | zero => exact Or.inr ⟨_, _, rfl, rfl, h1⟩
    | succ i => simpa using ih i

theorem contributeA_ok {objs : List (TracedObj σ K E)} {objs' : List (Obj σ K E)}
    (hobj : List.Forall₂ TracedObj.Represents objs objs') {minE : K} {b : Bundle K E} (w : σ) (k : Nat)
    {s : SurfObj σ K E} {s' : Surf σ K E} (h : s.Represents s') {front owned : List Bool}
    {a : SurfAttrs K E} (ha : s.gm.CanFinish a.geom)
    (hsel : ∀ i ∈ Np.nonzero (Np.mask owned front), ∃ t : K, (s'.register (inRaysOf b owned))[i]? = some (t : WithTop K)) :
    ∃ a', contributeA objs minE w k s front owned (s.register (inRaysOf b owned) a).2 =
        (contribute objs' minE b w k s' front owned, a') ∧ s.gm.CanFinish a'.geom ∧
        (∀ c, contribute objs' minE b w k s' front owned = .ok c → s.Released a') := by
  obtain ⟨h1, h2, h3⟩ := outgoing_ok h (inRaysOf b owned) ha w hsel rfl
  unfold contributeA contribute
  simp only
  rcases hse : s.select (Np.nonzero (Np.mask owned front)) (s.register (inRaysOf b owned) a).2 with ⟨x, a1⟩
  rw [hse] at h1 h2 h3
  simp only at h1 h2 h3
  subst h1
  simp only
  have he : (if (owned.any fun x => !x) = true then Np.mask owned b else b) = inRaysOf b owned := rfl
  rw [h3, he]
  rcases s'.outgoing w (inRaysOf b owned) (Np.nonzero (Np.mask owned front)) with e | ⟨raw, w'⟩
  · exact ⟨a1, rfl, h2, fun c hc => by cases hc⟩
  · simp only
    rcases fixParents owned raw with e | rec
    · exact ⟨a1, rfl, h2, fun c hc => by cases hc⟩
    · simp only
      obtain ⟨d1, d2, d3⟩ := done_ok h h2
      rcases hd : s.done a1 with ⟨y, a2⟩
      rw [hd] at d1 d2 d3
      simp only at d1 d2 d3
      subst d1
      refine ⟨a2, ?_, d2, fun _ _ => d3⟩
      simp only [Prod.mk.injEq, and_true]
      unfold policyA
      simp only
      have hp := perObjA_eq hobj
      rw [hp]
      unfold surfOwnership surfsUntilObj
      cases (Np.repeatArange 0 (surfsPerObj objs'))[k]? with
      | none => rfl
      | some oi =>
        simp only
        rcases forall₂_get hobj oi with ⟨g1, g2⟩ | ⟨o, o', g1, g2, g3⟩
        · rw [g1, g2]
          cases (0 :: Np.accumulate 0 (surfsPerObj objs'))[oi]? <;> rfl
        · rw [g1, g2]
          cases (0 :: Np.accumulate 0 (surfsPerObj objs'))[oi]? with
          | none => rfl
          | some before =>
            simp only [Except.map, g3.2.1, g3.2.2]

theorem surfLoopA_ok {objs : List (TracedObj σ K E)} {objs' : List (Obj σ K E)}
    (hobj : List.Forall₂ TracedObj.Represents objs objs') {minE : K} {b : Bundle K E} (w : σ) (k : Nat)
    {surfs : List (SurfObj σ K E)} {surfs' : List (Surf σ K E)} (h : List.Forall₂ SurfObj.Represents surfs surfs')
    {fronts owneds : List (List Bool)} (hf : fronts.length = owneds.length) {as : List (SurfAttrs K E)}
    (hreg : Registered b surfs owneds as)
    (hsel : ∀ (i : Nat) (s' : Surf σ K E) (f o : List Bool), surfs'[i]? = some s' → fronts[i]? = some f →
      owneds[i]? = some o → ∀ j ∈ Np.nonzero (Np.mask o f), ∃ t : K, (s'.register (inRaysOf b o))[j]? = some (t : WithTop K)) :
    ∃ as', surfLoopA objs minE w k surfs fronts owneds as = (surfLoop objs' minE b w k surfs' fronts owneds, as') ∧
      AllCanFinish surfs as' ∧
      (∀ c, surfLoop objs' minE b w k surfs' fronts owneds = .ok c → List.Forall₂ SurfObj.Released surfs as') := by
  induction hreg generalizing surfs' fronts w k with
  | nil =>
    cases h
    cases fronts with
    | nil => exact ⟨[], rfl, .nil, fun _ _ => .nil⟩
    | cons f fs => simp at hf
  | @cons s o a a1 surfs owneds as h1 h2 h3 h4 ih =>
    cases h with
    | @cons _ s' _ surfs' g1 g2 =>
      cases fronts with
      | nil => simp at hf
      | cons f fronts =>
        have hf' : fronts.length = owneds.length := by simpa using hf
        have hsel' : ∀ (i : Nat) (s' : Surf σ K E) (f o : List Bool), surfs'[i]? = some s' → fronts[i]? = some f →
            owneds[i]? = some o → ∀ j ∈ Np.nonzero (Np.mask o f), ∃ t : K, (s'.register (inRaysOf b o))[j]? = some (t : WithTop K) :=
          fun i s' f o q1 q2 q3 => hsel (i + 1) s' f o (by simpa using q1) (by simpa using q2) (by simpa using q3)
        unfold surfLoopA surfLoop
        by_cases hm : (Np.mask o f).any id = true
        · simp only [hm, if_true]
          have ho : o.any id = true := by
            rw [List.any_eq_true] at hm ⊢
            obtain ⟨x, hx, hx'⟩ := hm
            clear ih h3 hsel hsel' hf h1 h2
            induction o generalizing f with
            | nil => simp [Np.mask] at hx
            | cons p o ihh =>
              cases p with
              | true => exact ⟨true, by simp, rfl⟩
              | false =>
                cases f with
                | nil => simp [Np.mask] at hx
                | cons q f =>
                  simp only [Np.mask] at hx
                  obtain ⟨y, hy, hy'⟩ := ihh f hx
                  exact ⟨y, by simp [hy], hy'⟩
          have := h3 ho
          subst this
          obtain ⟨a2, c1, c2, c3⟩ := contributeA_ok (minE := minE) hobj w k g1 (front := f) (owned := o) h1
            (hsel 0 s' f o rfl rfl rfl)
          rw [c1]
          rcases hc : contribute objs' minE b w k s' f o with e | ⟨c, w'⟩
          · exact ⟨a2 :: as, rfl, .cons c2 h4.canFinish, fun c hc => by cases hc⟩
          · simp only
            obtain ⟨as', d1, d2, d3⟩ := ih w' (k + 1) g2 hf' hsel'
            rw [d1]
            refine ⟨a2 :: as', ?_, .cons c2 d2, ?_⟩
            · simp only [Prod.mk.injEq, and_true]
              rcases surfLoop objs' minE b w' (k + 1) surfs' fronts owneds with e | ⟨cs, w''⟩ <;> rfl
            · intro c' hc'
              refine .cons (c3 _ hc) ?_
              rcases hl : surfLoop objs' minE b w' (k + 1) surfs' fronts owneds with e | x
              · rw [hl] at hc'
                cases hc'
              · exact d3 x hl
        · simp only [hm, Bool.false_eq_true, if_false]
          obtain ⟨d1, d2, d3⟩ := done_ok g1 h2
          rcases hd : s.done a1 with ⟨y, a2⟩
          rw [hd] at d1 d2 d3
          simp only at d1 d2 d3
          subst d1
          obtain ⟨as', e1, e2, e3⟩ := ih w (k + 1) g2 hf' hsel'
          simp only [e1]
          exact ⟨a2 :: as', rfl, .cons d2 e2, fun c hc => .cons d3 (e3 c hc)⟩

/-! ### whole traces -/

theorem surfs_represents {objs : List (TracedObj σ K E)} {objs' : List (Obj σ K E)}
    (hobj : List.Forall₂ TracedObj.Represents objs objs') :
    List.Forall₂ SurfObj.Represents (objs.flatMap TracedObj.surfs) (objs'.flatMap Obj.surfs) := by
  induction hobj with
  | nil => exact .nil
  | cons h1 _ ih =>
    simp only [List.flatMap_cons]
    exact List.rel_append h1.1 ih

theorem represents_lengthOk {surfs : List (SurfObj σ K E)} {surfs' : List (Surf σ K E)}
    (h : List.Forall₂ SurfObj.Represents surfs surfs') : ∀ s ∈ surfs', s.LengthOk := by
  induction h with
  | nil => simp
  | cons h1 _ ih =>
    intro s hs
    rcases List.mem_cons.1 hs with rfl | hs
    · obtain ⟨g, _, hl, rfl⟩ := h1
      exact mkSurf_lengthOk hl _ _
    · exact ih s hs

theorem iterateA_ok {objs : List (TracedObj σ K E)} {objs' : List (Obj σ K E)}
    (hobj : List.Forall₂ TracedObj.Represents objs objs') {minE : K} {st : TraceState σ K E}
    (hs : st.Shape objs') {as : List (SurfAttrs K E)} (ha : AllCanFinish (objs.flatMap TracedObj.surfs) as) :
    ∃ as', iterateA objs (objs.flatMap TracedObj.surfs) minE st as =
        (iterate objs' (objs'.flatMap Obj.surfs) minE st, as') ∧
      AllCanFinish (objs.flatMap TracedObj.surfs) as' ∧
      (∀ x, iterate objs' (objs'.flatMap Obj.surfs) minE st = .ok x →
        List.Forall₂ SurfObj.Released (objs.flatMap TracedObj.surfs) as') := by
  have hsurf := surfs_represents hobj
  obtain ⟨as1, h1, h2⟩ := intersectRayA_ok hsurf hs ha
  unfold iterateA iterate
  rw [perObjA_eq hobj]
  have he : Np.repeatArange 0 (surfsPerObj objs') = surfOwnership objs' := rfl
  rw [he, h1]
  rcases hi : intersectRay st.bund (objs'.flatMap Obj.surfs) (surfOwnership objs') st.rayOwn st.relev with e | ⟨front, owned⟩
  · exact ⟨as1, rfl, h2.canFinish, fun x hx => by cases hx⟩
  · simp only
    obtain ⟨rfl, hfront⟩ := intersectRay_ok hi
    have hfl : front.length = (List.zipWith (ownedMask st.rayOwn) (surfOwnership objs') st.relev).length := by
      rw [hfront]
      unfold frontMask
      rw [List.length_map, dropSelfHits_length]
      unfold rawStack
      simp [hs.surf_len, hs.relev_len]
    obtain ⟨as2, c1, c2, c3⟩ := surfLoopA_ok (minE := minE) hobj st.world 0 hsurf hfl h2
      (fun i s' f o q1 q2 q3 => selected_finite hs (represents_lengthOk hsurf) hi q1 q2 q3)
    rw [c1]
    rcases hl : surfLoop objs' minE st.bund st.world 0 (objs'.flatMap Obj.surfs) front
        (List.zipWith (ownedMask st.rayOwn) (surfOwnership objs') st.relev) with e | ⟨cs, w⟩
    · exact ⟨as2, rfl, c2, fun x hx => by cases hx⟩
    · simp only [hsurf.length_eq]
      have hrel := c3 _ hl
      rcases Np.take (cs.flatMap Contribution.record) (Np.nonzero (cs.flatMap Contribution.weak)) with e | weakRays
      · exact ⟨as2, rfl, c2, fun _ _ => hrel⟩
      · exact ⟨as2, rfl, c2, fun _ _ => hrel⟩

theorem traceLoopA_ok {objs : List (TracedObj σ K E)} {objs' : List (Obj σ K E)}
    (hobj : List.Forall₂ TracedObj.Represents objs objs') (hshape : ∀ o ∈ objs', o.ShapeOk) {minE : K} (keep : Bool)
    (reps : Nat) {st : TraceState σ K E} (hs : st.Shape objs') (tree : List (Bundle K E)) (last : Option (Bundle K E))
    {as : List (SurfAttrs K E)} (ha : AllCanFinish (objs.flatMap TracedObj.surfs) as) :
    ∃ as', traceLoopA objs (objs.flatMap TracedObj.surfs) minE keep reps st tree last as =
        (traceLoop objs' (objs'.flatMap Obj.surfs) minE keep reps st tree last, as') ∧
      AllCanFinish (objs.flatMap TracedObj.surfs) as' ∧
      (∀ x, traceLoop objs' (objs'.flatMap Obj.surfs) minE keep reps st tree last = .ok x →
        0 < reps ∨ List.Forall₂ SurfObj.Released (objs.flatMap TracedObj.surfs) as →
        List.Forall₂ SurfObj.Released (objs.flatMap TracedObj.surfs) as') := by
  induction reps generalizing st tree last as with
  | zero => exact ⟨as, rfl, ha, fun x hx h => h.resolve_left (by simp)⟩
  | succ reps ih =>
    obtain ⟨as1, h1, h2, h3⟩ := iterateA_ok (minE := minE) hobj hs ha
    unfold traceLoopA traceLoop
    rw [h1]
    rcases hi : iterate objs' (objs'.flatMap Obj.surfs) minE st with e | ⟨st', gen, recd⟩
    · exact ⟨as1, rfl, h2, fun x hx => by cases hx⟩
    · simp only
      have hrel := h3 _ hi
      by_cases he : st'.bund.isEmpty = true
      · simp only [he, if_true]
        exact ⟨as1, rfl, h2, fun _ _ _ => hrel⟩
      · simp only [he]
        obtain ⟨as2, e1, e2, e3⟩ := ih (iterate_shape hshape hs hi)
          (if keep && ! gen.isEmpty then tree ++ [recd] else tree) (some gen) h2
        exact ⟨as2, e1, e2, fun x hx _ => e3 x hx (Or.inr hrel)⟩

end Tracer
