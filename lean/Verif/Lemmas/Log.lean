import Verif.Lemmas.Balance

/-! Helper lemmas about what surfaces write down during a trace. -/

set_option linter.unusedSectionVars false
set_option linter.unusedSimpArgs false

namespace Tracer

variable {K E σ α : Type _} [Field K] [LinearOrder K] [IsStrictOrderedRing K]

/-- Entries of the selected rays. -/
def selEntries (e : Ray K E → K → List α) (rays : Bundle K E) (ans : List (WithTop K)) (sel : List Nat) : List α :=
  sel.flatMap fun i =>
    match rays[i]?, ans[i]? with
    | some p, some (some t) => e p t
    | _, _ => []

theorem surfLoop_log {objs : List (Obj σ K E)} {minE : K} {b : Bundle K E} {log : σ → List α}
    {e : Nat → Ray K E → K → List α}
    {surfs : List (Surf σ K E)} {fronts owneds : List (List Bool)} {w w' : σ} {k : Nat}
    {cs : List (Contribution K E)}
    (h : surfLoop objs minE b w k surfs fronts owneds = .ok (cs, w'))
    (hol : ∀ o ∈ owneds, o.length = b.length ∧ ∀ x ∈ o, x = true) (hfl : ∀ f ∈ fronts, f.length = b.length)
    (hlen : fronts.length = surfs.length) (hlen' : owneds.length = surfs.length)
    (hlog : ∀ (i : Nat) s, surfs[i]? = some s → s.Logs log (e (k + i))) :
    log w' = log w ++ ((surfs.zip fronts).zipIdx k).flatMap fun x =>
      selEntries (e x.2) b (x.1.1.register b) (Np.nonzero x.1.2) := by
  induction surfs generalizing fronts owneds w k cs with
  | nil =>
    unfold surfLoop at h
    simp only [Except.ok.injEq, Prod.mk.injEq] at h
    rw [← h.2]
    simp
  | cons s surfs ih =>
    cases fronts with
    | nil => simp at hlen
    | cons f fronts =>
      cases owneds with
      | nil => simp at hlen'
      | cons o owneds =>
        unfold surfLoop at h
        have hf := hfl f (by simp)
        obtain ⟨ho, hot⟩ := hol o (by simp)
        have ih' := fun {w cs} (h : surfLoop objs minE b w (k+1) surfs fronts owneds = .ok (cs, w')) =>
          ih h (fun o ho => hol o (List.mem_cons_of_mem _ ho)) (fun f hf => hfl f (List.mem_cons_of_mem _ hf))
            (by simpa using hlen) (by simpa using hlen') (fun i s hi => by
              have := hlog (i + 1) s (by simpa using hi)
              rwa [show k + 1 + i = k + (i + 1) by omega])
        have hmb : Np.mask o b = b := Np.mask_all_true ho (by
          rw [List.any_eq_false]; exact fun x hx => by simp [hot x hx])
        have hmf : Np.mask o f = f := Np.mask_all_true (ho.trans hf.symm) (by
          rw [List.any_eq_false]; exact fun x hx => by simp [hot x hx])
        rw [List.zip_cons_cons, List.zipIdx_cons, List.flatMap_cons]
        split at h
        · split at h
          · simp at h
          · rename_i c w1 hc
            split at h
            · simp at h
            · rename_i cs' w2 hcs
              simp only [Except.ok.injEq, Prod.mk.injEq] at h
              obtain ⟨rfl, rfl⟩ := h
              obtain ⟨raw, hraw, hfix⟩ := (contribute_ok ho hc).raw
              rw [hmb, hmf] at hraw
              have h1 := hlog 0 s (by simp) _ _ _ _ _ hraw
              rw [ih' hcs, h1, List.append_assoc]
              rfl
        · rename_i hno
          rw [hmf] at hno
          rw [ih' h, mask_any_false hno]
          rfl

theorem nearest_front {objs : List (Obj σ K E)} {st : TraceState σ K E} (hs : st.Shape objs)
    (hfree : AllFree st.rayOwn st.relev) {per : Surf σ K E → Ray K E → WithTop K}
    (hper : ∀ s ∈ objs.flatMap Obj.surfs, s.PerRay (per s)) {front owned : List (List Bool)}
    (hint : intersectRay st.bund (objs.flatMap Obj.surfs) (surfOwnership objs) st.rayOwn st.relev
      = .ok (front, owned)) :
    front = (objs.flatMap Obj.surfs).map fun s => st.bund.map fun p =>
      (nearestParam (cutoff per (objs.flatMap Obj.surfs) st.bund) per (objs.flatMap Obj.surfs) s p).isSome := by
  obtain ⟨hO, hF⟩ := intersectRay_ok hint
  have hlen : ∀ s ∈ objs.flatMap Obj.surfs, s.LengthOk := fun s hs rays => by
    rw [hper s hs]; simp
  have hfl : ∀ f ∈ front, f.length = st.bund.length := by
    intro f hf
    exact frontMask_row_length (dropSelfHits_row_length (fun row hr => rawStack_row_length hr)) f
      (hF ▸ hf)
  have hfrontlen : front.length = (objs.flatMap Obj.surfs).length := by
    rw [hF]
    simp [frontMask, dropSelfHits_length, rawStack, hs.surf_len, hs.relev_len]
  apply List.ext_getElem?
  intro k
  rcases Nat.lt_or_ge k front.length with hk | hk
  · have hks : k < (objs.flatMap Obj.surfs).length := by omega
    have hrow : front[k]? = some front[k] := List.getElem?_eq_getElem hk
    rw [hrow, List.getElem?_map, List.getElem?_eq_getElem hks]
    simp only [Option.map_some, Option.some.injEq]
    apply List.ext_getElem?
    intro j
    have hrl := hfl _ (List.getElem_mem hk)
    rcases Nat.lt_or_ge j st.bund.length with hj | hj
    · have hjf : j < (front[k]).length := by omega
      rw [List.getElem?_eq_getElem hjf, List.getElem?_map, List.getElem?_eq_getElem hj]
      simp only [Option.map_some, Option.some.injEq]
      have hm2 : Marked front k j ↔ (front[k])[j] = true := by
        unfold Marked
        rw [hrow]
        simp [List.getElem?_eq_getElem hjf]
      rw [Bool.eq_iff_iff, ← hm2, hF, front_iff hs hlen k j, hfree.threshold hs hper]
      constructor
      · rintro ⟨t, ha, hthr, hmin⟩
        rw [hfree.answer_perRay hs hper] at ha
        obtain ⟨s, r, e1, e2, e3⟩ := ha
        rw [List.getElem?_eq_getElem hks] at e1; cases e1
        rw [List.getElem?_eq_getElem hj] at e2; cases e2
        have hn : NearestBeyond (cutoff per (objs.flatMap Obj.surfs) st.bund) per (objs.flatMap Obj.surfs)
            (objs.flatMap Obj.surfs)[k] st.bund[j] t := by
          refine ⟨e3, hthr, ?_⟩
          intro s' hs' t' ht' hlt
          obtain ⟨k', hk'⟩ := List.getElem?_of_mem hs'
          exact hmin k' t' ((hfree.answer_perRay hs hper _ _ _).2
            ⟨s', _, hk', List.getElem?_eq_getElem hj, ht'⟩) hlt
        unfold nearestParam
        rw [e3]
        simp only
        rw [if_pos hn]
        rfl
      · intro hsome
        unfold nearestParam at hsome
        split at hsome
        · simp at hsome
        · rename_i t ht
          split at hsome
          · rename_i hn
            obtain ⟨h1, h2, h3⟩ := hn
            refine ⟨t, (hfree.answer_perRay hs hper _ _ _).2
              ⟨_, _, List.getElem?_eq_getElem hks, List.getElem?_eq_getElem hj, h1⟩, h2, ?_⟩
            intro k' t' ha hthr
            rw [hfree.answer_perRay hs hper] at ha
            obtain ⟨s, r, e1, e2, e3⟩ := ha
            rw [List.getElem?_eq_getElem hj] at e2; cases e2
            exact h3 s (List.mem_of_getElem? e1) t' e3 hthr
          · simp at hsome
    · rw [List.getElem?_eq_none (by omega), List.getElem?_eq_none (by simpa using hj)]
  · rw [List.getElem?_eq_none hk, List.getElem?_eq_none (by rw [List.length_map]; omega)]

theorem selEntries_map (f : Ray K E → WithTop K) (e : Ray K E → K → List α) (b : Bundle K E) (sel : List Nat) :
    selEntries e b (b.map f) sel = sel.flatMap fun i => (b[i]?).toList.flatMap fun p =>
      match f p with
      | some t => e p t
      | none => [] := by
  unfold selEntries
  congr 1
  funext i
  have hm : (b.map f)[i]? = (b[i]?).map f := List.getElem?_map
  cases hb : b[i]? with
  | none => rfl
  | some p =>
    rw [hb, Option.map_some] at hm
    simp only [Option.toList_some, List.flatMap_cons, List.flatMap_nil, List.append_nil]
    split
    · rename_i p' t h1 h2
      cases h1
      have : f p = some t := Option.some.inj (hm.symm.trans h2)
      rw [this]
    · rename_i h1
      cases hp : f p with
      | top => rfl
      | coe t => exact absurd (hm.trans (congrArg some hp)) (h1 p t rfl)

theorem selEntries_hits {surfs : List (Surf σ K E)} {per : Surf σ K E → Ray K E → WithTop K} (cut : K)
    (s : Surf σ K E) (e : Ray K E → K → List α) (b : Bundle K E) :
    selEntries e b (b.map (per s)) (Np.nonzero (b.map fun p => (nearestParam cut per surfs s p).isSome)) =
      (b.filterMap fun p => (nearestParam cut per surfs s p).map fun t => (p, t)).flatMap fun x => e x.1 x.2 := by
  rw [selEntries_map, nonzero_flatMap _ b _ (by simp)]
  induction b with
  | nil => rfl
  | cons p b ih =>
    simp only [List.map_cons, List.zip_cons_cons, List.flatMap_cons, List.filterMap_cons]
    rw [ih]
    cases hn : nearestParam cut per surfs s p with
    | none => simp
    | some t =>
      have : per s p = some t := by
        unfold nearestParam at hn
        split at hn
        · simp at hn
        · rename_i t' ht'
          split at hn
          · rw [ht']; exact hn
          · simp at hn
      simp [this]

/-- One iteration over free rays: each surface writes down its hits, in the order of the bundle. -/
theorem iterate_log {objs : List (Obj σ K E)} {minE : K}
    {st st' : TraceState σ K E} {gen rec : Bundle K E} (hs : st.Shape objs)
    (hfree : AllFree st.rayOwn st.relev)
    {per : Surf σ K E → Ray K E → WithTop K} {log : σ → List α} {e : Nat → Ray K E → K → List α}
    (hper : ∀ s ∈ objs.flatMap Obj.surfs, s.PerRay (per s))
    (hlog : ∀ (i : Nat) s, (objs.flatMap Obj.surfs)[i]? = some s → s.Logs log (e i))
    (h : iterate objs (objs.flatMap Obj.surfs) minE st = .ok (st', gen, rec)) :
    log st'.world = log st.world ++ (objs.flatMap Obj.surfs).zipIdx.flatMap fun x =>
      (hitsIn per (objs.flatMap Obj.surfs) x.1 st.bund).flatMap fun y => e x.2 y.1 y.2 := by
  obtain ⟨⟨front, owned, cs, hint, hcs, hgen, _, _, _, hf⟩, _, _⟩ := iterate_ok hs h
  obtain ⟨hO, hF⟩ := intersectRay_ok hint
  have hol : ∀ o ∈ owned, o.length = st.bund.length ∧ ∀ x ∈ o, x = true := by
    intro o ho
    obtain ⟨k, hk⟩ := List.getElem?_of_mem ho
    rw [hO] at hk
    refine ⟨owned_row_length hs hk, ?_⟩
    intro x hx
    obtain ⟨j, hj⟩ := List.getElem?_of_mem hx
    have hkl : k < (objs.flatMap Obj.surfs).length := by
      have := (List.getElem?_eq_some_iff.1 hk).1
      rw [List.length_zipWith] at this
      have e := hs.surf_len
      omega
    have hjl : j < st.bund.length := by
      have := (List.getElem?_eq_some_iff.1 hj).1
      rw [owned_row_length hs hk] at this
      exact this
    obtain ⟨row, hrow, ht⟩ := (owned_getElem k j).2 (hfree.tested hs hkl hjl)
    rw [hk] at hrow; cases hrow
    rw [hj] at ht
    simpa using ht
  have hfront := nearest_front hs hfree hper hint
  have hfl : ∀ f ∈ front, f.length = st.bund.length := by
    intro f hf
    rw [hfront] at hf
    obtain ⟨_, _, rfl⟩ := List.mem_map.1 hf
    simp
  have hfrontlen : front.length = (objs.flatMap Obj.surfs).length := by rw [hfront]; simp
  have hownlen : owned.length = (objs.flatMap Obj.surfs).length := by
    rw [hO]
    simp [hs.surf_len, hs.relev_len]
  rw [surfLoop_log (log := log) (e := e) hcs hol hfl hfrontlen hownlen (fun i s hi => by rw [Nat.zero_add]; exact hlog i s hi)]
  congr 1
  rw [hfront]
  generalize hss : objs.flatMap Obj.surfs = surfs
  rw [hss] at hper
  have key : ∀ (l : List (Surf σ K E)) (k : Nat), (∀ s ∈ l, s ∈ surfs) →
      ((l.zip (l.map fun s => st.bund.map fun p =>
        (nearestParam (cutoff per surfs st.bund) per surfs s p).isSome)).zipIdx k).flatMap (fun x =>
          selEntries (e x.2) st.bund (x.1.1.register st.bund) (Np.nonzero x.1.2)) =
      (l.zipIdx k).flatMap fun x => (hitsIn per surfs x.1 st.bund).flatMap fun y => e x.2 y.1 y.2 := by
    intro l
    induction l with
    | nil => intro k _; rfl
    | cons s l ih =>
      intro k hl
      simp only [List.map_cons, List.zip_cons_cons, List.zipIdx_cons, List.flatMap_cons]
      rw [ih (k+1) (fun s hs => hl s (List.mem_cons_of_mem _ hs)), hper s (hl s (by simp)), selEntries_hits]
      rfl
  exact key surfs 0 (fun _ h => h)

/-- What the surfaces write down about one level. -/
noncomputable def levelEntries (per : Surf σ K E → Ray K E → WithTop K) (surfs : List (Surf σ K E)) (minE : K)
    (e : Nat → Ray K E → K → List α) (x : Bundle K E × Nat) : List α :=
  surfs.zipIdx.flatMap fun y => (hitsIn per surfs y.1 (propagated minE x.2 x.1)).flatMap fun z => e y.2 z.1 z.2

theorem levelEntries_nil (per : Surf σ K E → Ray K E → WithTop K) (surfs : List (Surf σ K E)) (minE : K)
    (e : Nat → Ray K E → K → List α) (x : Bundle K E × Nat) (h : propagated minE x.2 x.1 = []) :
    levelEntries per surfs minE e x = [] := by
  unfold levelEntries
  rw [h]
  simp [hitsIn]

theorem Run.log {objs : List (Obj σ K E)} (hdef : ∀ o ∈ objs, o.Default) {minE : K}
    {per : Surf σ K E → Ray K E → WithTop K} {log : σ → List α} {e : Nat → Ray K E → K → List α}
    (hper : ∀ s ∈ objs.flatMap Obj.surfs, s.PerRay (per s))
    (hlog : ∀ (i : Nat) s, (objs.flatMap Obj.surfs)[i]? = some s → s.Logs log (e i))
    {st st' : TraceState σ K E} {steps} (hrun : Run objs minE st steps st') (hs : st.Shape objs)
    (hfree : AllFree st.rayOwn st.relev) {L : Bundle K E} {k : Nat} (hL : propagated minE k L = st.bund) :
    log st'.world = log st.world ++ (((L :: steps.map fun s => s.2.1).take steps.length).zipIdx k).flatMap
      (levelEntries per (objs.flatMap Obj.surfs) minE e) ∧
    (∀ last, (L :: steps.map fun s => s.2.1)[steps.length]? = some last →
      propagated minE (k + steps.length) last = st'.bund) := by
  induction hrun generalizing L k with
  | nil =>
    refine ⟨by simp, ?_⟩
    intro last hl
    simp at hl
    subst hl
    exact hL
  | @cons st st1 st2 gen rec steps hi hr ih =>
    have hf := iterate_ok hs hi
    have hob : ∀ o ∈ objs, o.ShapeOk := fun o ho => (hdef o ho).shapeOk
    have hp : propagated minE (k + 1) rec = st1.bund := by
      rw [hf.recorded, propagated_append (by omega)]
      · rw [hf.strong]
        intro r hr
        simpa using (List.mem_filter.1 hr).2
      · intro r hr
        simpa using (List.mem_filter.1 hr).2
    have hfree1 := (Run.cons hi (Run.nil st1)).free hdef hs hfree
    obtain ⟨i1, i2⟩ := ih (iterate_shape hob hs hi) hfree1 hp
    refine ⟨?_, ?_⟩
    · rw [i1, iterate_log hs hfree hper hlog hi]
      simp only [List.map_cons, List.length_cons, List.take_succ_cons, List.zipIdx_cons, List.flatMap_cons,
        List.append_assoc]
      rw [← hL]
      rfl
    · intro last hl
      simp only [List.map_cons, List.length_cons, List.getElem?_cons_succ] at hl
      have := i2 last (by simpa using hl)
      rw [← this]
      simp only [List.length_cons]
      rw [show k + (steps.length + 1) = k + 1 + steps.length by omega]

end Tracer
