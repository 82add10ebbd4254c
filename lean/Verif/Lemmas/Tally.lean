import Verif.Spec.Tally
import Verif.Props.EnergyLibrary
import Verif.Lemmas.Ties

/-! Helper lemmas: receivers never report more than the source carried. -/

set_option linter.unusedSectionVars false

namespace Tracer

variable {K E σ : Type _} [Field K] [LinearOrder K] [IsStrictOrderedRing K]

theorem surfLoop_tally {objs : List (Obj σ K E)} {minE : K} {b : Bundle K E}
    {absorbed : σ → K} {Q : Ray K E → Prop}
    {surfs : List (Surf σ K E)} {fronts owneds : List (List Bool)} {w w' : σ} {k : Nat}
    {cs : List (Contribution K E)}
    (h : surfLoop objs minE b w k surfs fronts owneds = .ok (cs, w'))
    (hol : ∀ o ∈ owneds, o.length = b.length) (hfl : ∀ f ∈ fronts, f.length = b.length)
    (hlen : fronts.length = surfs.length) (hQ : ∀ p ∈ b, 0 ≤ p.energy ∧ Q p)
    (hbal : ∀ s ∈ surfs, s.Creditable absorbed Q) :
    absorbed w' + totalEnergy (cs.flatMap Contribution.record) ≤ absorbed w + received b fronts owneds := by
  induction surfs generalizing fronts owneds w k cs with
  | nil =>
    have : fronts = [] := by simpa using hlen
    subst this
    unfold surfLoop at h
    simp only [Except.ok.injEq, Prod.mk.injEq] at h
    rw [← h.1, ← h.2]
    simp [received, totalEnergy]
  | cons s surfs ih =>
    cases fronts with
    | nil => simp at hlen
    | cons f fronts =>
      cases owneds with
      | nil =>
        unfold surfLoop at h
        simp only [Except.ok.injEq, Prod.mk.injEq] at h
        rw [← h.1, ← h.2]
        simp [received, totalEnergy]
      | cons o owneds =>
        unfold surfLoop at h
        have hf := hfl f (by simp)
        have ho := hol o (by simp)
        have ih' := fun {w k cs} (h : surfLoop objs minE b w k surfs fronts owneds = .ok (cs, w')) =>
          ih h (fun o ho => hol o (List.mem_cons_of_mem _ ho)) (fun f hf => hfl f (List.mem_cons_of_mem _ hf))
            (by simpa using hlen) (fun s hs => hbal s (List.mem_cons_of_mem _ hs))
        have hrec : received b (f :: fronts) (o :: owneds) =
            energyWhere (fun j => decide (f[j]? = some true) && decide (o[j]? = some true)) b +
              received b fronts owneds := by
          simp [received]
        rw [hrec]
        split at h
        · split at h
          · simp at h
          · rename_i c w1 hc
            split at h
            · simp at h
            · rename_i cs' w2 hcs
              simp only [Except.ok.injEq, Prod.mk.injEq] at h
              obtain ⟨rfl, rfl⟩ := h
              have i1 := ih' hcs
              obtain ⟨raw, hraw, hfix⟩ := (contribute_ok ho hc).raw
              have hb := hbal s (by simp) _ _ _ _ _ (fun p hp => hQ p ((Np.mask_sublist o b).subset hp)) hraw
              rw [selected_energy ho hf] at hb
              have he : totalEnergy c.record = totalEnergy raw := by
                rw [← totalEnergy_strip c.record, strip_fixParents hfix, totalEnergy_strip]
              rw [List.flatMap_cons, totalEnergy_append, he]
              linarith
        · rename_i hno
          have hz : energyWhere (fun j => decide (f[j]? = some true) && decide (o[j]? = some true)) b = 0 := by
            rw [← selected_energy ho hf, mask_any_false hno]
            simp [totalEnergy]
          have := ih' h
          rw [hz]; linarith

/-- One iteration, when no two surfaces tie: what is written down and what goes on sum to no more than the energy of
the rays that have children. -/
theorem iterate_tally {objs : List (Obj σ K E)} {minE : K} {absorbed : σ → K} {Q : Ray K E → Prop}
    {st st' : TraceState σ K E} {gen rec : Bundle K E} (hs : st.Shape objs)
    (hlen : AllSurfs Surf.LengthOk objs)
    (hpar : AllSurfs Surf.ParentsOk objs) (htot : AllSurfs Surf.Total objs)
    (hbal : AllSurfs (Surf.Creditable absorbed Q) objs)
    (hQ : ∀ p ∈ st.bund, 0 ≤ p.energy ∧ Q p)
    (hnt : ∀ p ∈ st.bund, NeverTie (objs.flatMap Obj.surfs) p)
    (h : iterate objs (objs.flatMap Obj.surfs) minE st = .ok (st', gen, rec)) :
    absorbed st'.world + totalEnergy gen ≤
      absorbed st.world + energyWhere (fun j => gen.any fun r => r.parent == j) st.bund := by
  have hlen' : ∀ s ∈ objs.flatMap Obj.surfs, s.LengthOk := fun s hs => mem_allSurfs hlen hs
  have hit := h
  obtain ⟨⟨front, owned, cs, hint, hcs, hgen, _, _, _, hf⟩, _, _⟩ := iterate_ok hs h
  obtain ⟨hO, hF⟩ := intersectRay_ok hint
  have hol : ∀ o ∈ owned, o.length = st.bund.length := by
    intro o ho
    obtain ⟨k, hk⟩ := List.getElem?_of_mem ho
    rw [hO] at hk
    exact owned_row_length hs hk
  have hfl : ∀ f ∈ front, f.length = st.bund.length := by
    intro f hf
    exact frontMask_row_length (dropSelfHits_row_length (fun row hr => rawStack_row_length hr)) f
      (hF ▸ hf)
  have hfrontlen : front.length = (objs.flatMap Obj.surfs).length := by
    rw [hF]
    simp [frontMask, dropSelfHits_length, rawStack, hs.surf_len, hs.relev_len]
  have hownlen : owned.length = front.length := by
    rw [hfrontlen, hO]
    simp [hs.surf_len, hs.relev_len]
  have hb := surfLoop_tally hcs hol hfl hfrontlen hQ (fun s hs => mem_allSurfs hbal hs)
  rw [← hgen] at hb
  refine hb.trans (le_of_eq ?_)
  congr 1
  unfold received
  refine energyWhere_sum_count _ (fun (x : List Bool × List Bool) j => decide (x.1[j]? = some true) && decide (x.2[j]? = some true)) _ _ ?_
  intro j hj
  set cnt := (front.zip owned).countP fun x => decide (x.1[j]? = some true) && decide (x.2[j]? = some true) with hcnt
  have hle : cnt ≤ 1 := by
    apply countP_le_one
    intro i i' x x' hi hi' hx hx'
    simp only [Bool.and_eq_true, decide_eq_true_eq] at hx hx'
    rw [List.getElem?_zip_eq_some] at hi hi'
    refine C09_one_surface_partial hs hlen' hint j ?_ ⟨x.1, hi.1, hx.1⟩ ⟨x'.1, hi'.1, hx'.1⟩
    intro k k' t ha ha' _
    obtain ⟨s, rays, i, e1, e2, e3⟩ := answer_place ha
    obtain ⟨s', rays', i', e1', e2', e3'⟩ := answer_place ha'
    have hpj : st.bund[j]? = some st.bund[j] := List.getElem?_eq_getElem hj
    exact hnt _ (List.mem_of_getElem? hpj) k k' s s' t rays rays' i i' e1 e1' (e2.trans hpj) (e2'.trans hpj) e3 e3'
  have hpos : 0 < cnt ↔ gen.any (fun r => r.parent == j) = true := by
    rw [hcnt, List.countP_pos_iff, List.any_eq_true]
    constructor
    · rintro ⟨x, hx, hxx⟩
      simp only [Bool.and_eq_true, decide_eq_true_eq] at hxx
      obtain ⟨k, hk⟩ := List.getElem?_of_mem hx
      rw [List.getElem?_zip_eq_some] at hk
      have hm : Marked front k j := ⟨x.1, hk.1, hxx.1⟩
      rw [hF, front_iff hs hlen' k j] at hm
      obtain ⟨t, ha, hthr, _⟩ := hm
      obtain ⟨r, hr, hrj⟩ := hit_has_child hs hlen htot hit ha hthr
      exact ⟨r, hr, by simpa using hrj⟩
    · rintro ⟨r, hr, hrj⟩
      have hrj : r.parent = j := by simpa using hrj
      obtain ⟨k, s, p, hc⟩ := generated_child hs hlen hpar hit hr
      obtain ⟨_, _, _, _, _, _, t, _, _, _, _, _, _, _, _, hthr, ha, hmin⟩ := hc.raw
      have hm := (front_iff hs hlen' k r.parent).2 ⟨t, ha, hthr, hmin⟩
      rw [← hF] at hm
      have htest := (answer_lt hs ha).2.2
      rw [← owned_getElem, ← hO] at htest
      obtain ⟨f, hf1, hf2⟩ := hm
      obtain ⟨o, ho1, ho2⟩ := htest
      refine ⟨(f, o), List.mem_of_getElem? (i := k) (List.getElem?_zip_eq_some.2 ⟨hf1, ho1⟩), ?_⟩
      rw [hrj] at hf2 ho2
      simp [hf2, ho2]
  by_cases hg : gen.any (fun r => r.parent == j) = true
  · have := hpos.2 hg
    rw [if_pos hg]; omega
  · have : ¬ 0 < cnt := fun hc => hg (hpos.1 hc)
    rw [if_neg hg]; omega

theorem Run.tally {objs : List (Obj σ K E)} (hobj : ∀ o ∈ objs, o.ShapeOk) {minE : K}
    {absorbed : σ → K} {Q : Ray K E → Prop}
    (hlen : AllSurfs Surf.LengthOk objs)
    (hpar : AllSurfs Surf.ParentsOk objs) (htot : AllSurfs Surf.Total objs)
    (hbal : AllSurfs (Surf.Creditable absorbed Q) objs)
    {st st' : TraceState σ K E} {steps} (hrun : Run objs minE st steps st') (hs : st.Shape objs)
    {L weak : Bundle K E} (hL : L = st.bund ++ weak)
    (hgood : ∀ lvl ∈ L :: steps.map (fun s => s.2.1), ∀ p ∈ lvl,
      (0 ≤ p.energy ∧ Q p) ∧ NeverTie (objs.flatMap Obj.surfs) p) :
    absorbed st'.world + totalEnergy (treeLeaves (L :: steps.map fun s => s.2.1)) ≤
      absorbed st.world + totalEnergy L := by
  induction hrun generalizing L weak with
  | nil => simp [treeLeaves]
  | @cons st st1 st2 gen rec steps hi _ ih =>
    have hsub : ∀ p ∈ st.bund, p ∈ L := fun p hp => by rw [hL]; exact List.mem_append_left _ hp
    have hb := iterate_tally hs hlen hpar htot hbal (fun r hr => (hgood L (by simp) r (hsub r hr)).1)
      (fun r hr => (hgood L (by simp) r (hsub r hr)).2) hi
    have hperm := recorded_perm hs hi
    have ih' := ih (iterate_shape hobj hs hi) (iterate_ok hs hi).recorded (by
      intro lvl hl
      exact hgood lvl (by simp only [List.map_cons]; exact List.mem_cons_of_mem _ hl))
    simp only [List.map_cons, treeLeaves]
    rw [totalEnergy_append, childless_energy]
    have h1 := energyWhere_not (fun j => rec.any fun r => r.parent == j) L
    have hany : ∀ j, (rec.any fun r => r.parent == j) = gen.any fun r => r.parent == j := by
      intro j
      rw [Bool.eq_iff_iff, List.any_eq_true, List.any_eq_true]
      exact ⟨fun ⟨r, hr, h⟩ => ⟨r, hperm.subset hr, h⟩, fun ⟨r, hr, h⟩ => ⟨r, hperm.symm.subset hr, h⟩⟩
    have h2 : energyWhere (fun j => rec.any fun r => r.parent == j) L =
        energyWhere (fun j => gen.any fun r => r.parent == j) st.bund := by
      simp only [hany]
      rw [hL, energyWhere_append, energyWhere_false (b := weak), add_zero]
      intro j _
      rw [List.any_eq_false]
      intro r hr hrj
      obtain ⟨_, _, q, hc⟩ := generated_child hs hlen hpar hi hr
      have := (List.getElem?_eq_some_iff.1 hc.parent).1
      rw [show r.parent = j + st.bund.length by simpa using hrj] at this
      omega
    have h3 := totalEnergy_perm hperm
    linarith

/-- One iteration over free rays: what is written down and what goes on sum to no more than the energy of the rays that have
children and of the duplicates made at ties. -/
theorem iterate_tally_ties {objs : List (Obj σ K E)} {minE : K} {absorbed : σ → K} {Q : Ray K E → Prop}
    {st st' : TraceState σ K E} {gen rec : Bundle K E} (hs : st.Shape objs) (hfree : AllFree st.rayOwn st.relev)
    {per : Surf σ K E → Ray K E → WithTop K}
    (hper : AllSurfs (fun s => s.PerRay (per s)) objs)
    (hpar : AllSurfs Surf.ParentsOk objs) (htot : AllSurfs Surf.Total objs)
    (hbal : AllSurfs (Surf.Creditable absorbed Q) objs)
    (hQ : ∀ p ∈ st.bund, 0 ≤ p.energy ∧ Q p)
    (h : iterate objs (objs.flatMap Obj.surfs) minE st = .ok (st', gen, rec)) :
    absorbed st'.world + totalEnergy gen ≤
      absorbed st.world + energyWhere (fun j => gen.any fun r => r.parent == j) st.bund +
        (duplicates per (objs.flatMap Obj.surfs) st.bund).sum := by
  have hper' : ∀ s ∈ objs.flatMap Obj.surfs, s.PerRay (per s) := fun s hs => mem_allSurfs hper hs
  have hlen : AllSurfs Surf.LengthOk objs := fun o ho s hs rays => by
    rw [hper o ho s hs]; simp
  have hlen' : ∀ s ∈ objs.flatMap Obj.surfs, s.LengthOk := fun s hs => mem_allSurfs hlen hs
  have hit := h
  obtain ⟨⟨front, owned, cs, hint, hcs, hgen, _, _, _, hf⟩, _, _⟩ := iterate_ok hs h
  obtain ⟨hO, hF⟩ := intersectRay_ok hint
  have hol : ∀ o ∈ owned, o.length = st.bund.length ∧ ∀ x ∈ o, x = true := by
    intro o ho
    obtain ⟨k, hk⟩ := List.getElem?_of_mem ho
    rw [hO] at hk
    refine ⟨owned_row_length hs hk, ?_⟩
    intro x hx
    obtain ⟨j, hj⟩ := List.getElem?_of_mem hx
    have hkl : k < (objs.flatMap Obj.surfs).length := by
      have := (List.getElem?_eq_some_iff.1 hk).1
      rw [List.length_zipWith] at this
      have e := hs.surf_len
      omega
    have hjl : j < st.bund.length := by
      have := (List.getElem?_eq_some_iff.1 hj).1
      rw [owned_row_length hs hk] at this
      exact this
    obtain ⟨row, hrow, ht⟩ := (owned_getElem k j).2 (hfree.tested hs hkl hjl)
    rw [hk] at hrow; cases hrow
    rw [hj] at ht
    simpa using ht
  have hfront := nearest_front hs hfree hper' hint
  have hfl : ∀ f ∈ front, f.length = st.bund.length := by
    intro f hf
    rw [hfront] at hf
    obtain ⟨_, _, rfl⟩ := List.mem_map.1 hf
    simp
  have hfrontlen : front.length = (objs.flatMap Obj.surfs).length := by rw [hfront]; simp
  have hownlen : owned.length = (objs.flatMap Obj.surfs).length := by
    rw [hO]
    simp [hs.surf_len, hs.relev_len]
  have hb := surfLoop_tally hcs (fun o ho => (hol o ho).1) hfl hfrontlen hQ (fun s hs => mem_allSurfs hbal hs)
  rw [← hgen] at hb
  have hrec := received_rows (objs.flatMap Obj.surfs) (fun s p =>
    (nearestParam (cutoff per (objs.flatMap Obj.surfs) st.bund) per (objs.flatMap Obj.surfs) s p).isSome) st.bund owned hownlen hol
  rw [← hfront] at hrec
  refine hb.trans (le_of_eq ?_)
  rw [hrec, add_assoc]
  congr 1
  have hchild : ∀ (j : Nat) p, st.bund[j]? = some p → (gen.any fun r => r.parent == j) =
      decide (0 < timesHit (cutoff per (objs.flatMap Obj.surfs) st.bund) per (objs.flatMap Obj.surfs) p) := by
    intro j p hj
    rw [Bool.eq_iff_iff, decide_eq_true_eq]
    unfold timesHit
    rw [List.countP_pos_iff, List.any_eq_true]
    constructor
    · rintro ⟨r, hr, hrj⟩
      have hrj : r.parent = j := by simpa using hrj
      obtain ⟨k, s, q, hc⟩ := generated_child hs hlen hpar hit hr
      obtain ⟨_, _, _, _, _, _, t, _, _, _, _, _, _, _, _, hthr, ha, hmin⟩ := hc.raw
      have hm := (front_iff hs hlen' k r.parent).2 ⟨t, ha, hthr, hmin⟩
      rw [← hF, hfront] at hm
      obtain ⟨row, hrow, ht⟩ := hm
      rw [List.getElem?_map] at hrow
      cases hsk : (objs.flatMap Obj.surfs)[k]? with
      | none => rw [hsk] at hrow; simp at hrow
      | some s' =>
        rw [hsk] at hrow
        simp only [Option.map_some, Option.some.injEq] at hrow
        subst hrow
        rw [hrj, List.getElem?_map, hj] at ht
        exact ⟨s', List.mem_of_getElem? hsk, by simpa using ht⟩
    · rintro ⟨s, hsm, hsome⟩
      obtain ⟨k, hk⟩ := List.getElem?_of_mem hsm
      have hm : Marked front k j := by
        rw [hfront]
        refine ⟨_, by rw [List.getElem?_map, hk]; rfl, ?_⟩
        rw [List.getElem?_map, hj]
        simpa using hsome
      rw [hF, front_iff hs hlen' k j] at hm
      obtain ⟨t, ha, hthr, _⟩ := hm
      obtain ⟨r, hr, hrj⟩ := hit_has_child hs hlen htot hit ha hthr
      exact ⟨r, hr, by simpa using hrj⟩
  rw [energyWhere_get _ (fun p => decide (0 < timesHit (cutoff per (objs.flatMap Obj.surfs) st.bund) per (objs.flatMap Obj.surfs) p)) _ hchild]
  unfold duplicates
  rw [← List.sum_map_add]
  congr 1
  refine List.map_congr_left fun p _ => ?_
  change (timesHit (cutoff per (objs.flatMap Obj.surfs) st.bund) per (objs.flatMap Obj.surfs) p : K) * p.energy = _
  generalize timesHit (cutoff per (objs.flatMap Obj.surfs) st.bund) per (objs.flatMap Obj.surfs) p = c
  cases c with
  | zero => simp
  | succ c => simp; ring

theorem Run.tally_ties {objs : List (Obj σ K E)} (hdef : ∀ o ∈ objs, o.Default) {minE : K}
    {absorbed : σ → K} {Q : Ray K E → Prop} {per : Surf σ K E → Ray K E → WithTop K}
    (hper : AllSurfs (fun s => s.PerRay (per s)) objs)
    (hpar : AllSurfs Surf.ParentsOk objs) (htot : AllSurfs Surf.Total objs)
    (hbal : AllSurfs (Surf.Creditable absorbed Q) objs)
    {st st' : TraceState σ K E} {steps} (hrun : Run objs minE st steps st') (hs : st.Shape objs)
    (hfree : AllFree st.rayOwn st.relev)
    {L weak : Bundle K E} (hL : L = st.bund ++ weak) {k : Nat} (hLk : propagated minE k L = st.bund)
    (hgood : ∀ lvl ∈ L :: steps.map (fun s => s.2.1), ∀ p ∈ lvl, 0 ≤ p.energy ∧ Q p) :
    absorbed st'.world + totalEnergy (treeLeaves (L :: steps.map fun s => s.2.1)) ≤
      absorbed st.world + totalEnergy L +
        ((((L :: steps.map fun s => s.2.1).take steps.length).zipIdx k).flatMap fun x =>
          duplicates per (objs.flatMap Obj.surfs) (propagated minE x.2 x.1)).sum := by
  have hobj : ∀ o ∈ objs, o.ShapeOk := fun o ho => (hdef o ho).shapeOk
  induction hrun generalizing L weak k with
  | nil => simp [treeLeaves]
  | @cons st st1 st2 gen rec steps hi _ ih =>
    have hb := iterate_tally_ties hs hfree hper hpar htot hbal (fun r hr => hgood L (by simp) r (by
      rw [hL]; exact List.mem_append_left _ hr)) hi
    have hperm := recorded_perm hs hi
    have hf := iterate_ok hs hi
    have hp : propagated minE (k + 1) rec = st1.bund := by
      rw [hf.recorded, propagated_append (by omega)]
      · rw [hf.strong]
        intro r hr
        simpa using (List.mem_filter.1 hr).2
      · intro r hr
        simpa using (List.mem_filter.1 hr).2
    have hfree1 := (Run.cons hi (Run.nil st1)).free hdef hs hfree
    have ih' := ih (iterate_shape hobj hs hi) hfree1 (iterate_ok hs hi).recorded hp (by
      intro lvl hl
      exact hgood lvl (by simp only [List.map_cons]; exact List.mem_cons_of_mem _ hl))
    simp only [List.map_cons, treeLeaves, List.length_cons, List.take_succ_cons, List.zipIdx_cons, List.flatMap_cons,
      List.sum_append]
    rw [totalEnergy_append, childless_energy, hLk]
    have h1 := energyWhere_not (fun j => rec.any fun r => r.parent == j) L
    have hany : ∀ j, (rec.any fun r => r.parent == j) = gen.any fun r => r.parent == j := by
      intro j
      rw [Bool.eq_iff_iff, List.any_eq_true, List.any_eq_true]
      exact ⟨fun ⟨r, hr, h⟩ => ⟨r, hperm.subset hr, h⟩, fun ⟨r, hr, h⟩ => ⟨r, hperm.symm.subset hr, h⟩⟩
    have h2 : energyWhere (fun j => rec.any fun r => r.parent == j) L =
        energyWhere (fun j => gen.any fun r => r.parent == j) st.bund := by
      simp only [hany]
      rw [hL, energyWhere_append, energyWhere_false (b := weak), add_zero]
      intro j _
      rw [List.any_eq_false]
      intro r hr hrj
      have hlen : AllSurfs Surf.LengthOk objs := fun o ho s hs rays => by
        rw [hper o ho s hs]; simp
      obtain ⟨_, _, q, hc⟩ := generated_child hs hlen hpar hi hr
      have := (List.getElem?_eq_some_iff.1 hc.parent).1
      rw [show r.parent = j + st.bund.length by simpa using hrj] at this
      omega
    have h3 := totalEnergy_perm hperm
    linarith

/-- The bundles a run records are those of the tree, and perhaps an empty one. -/
theorem recorded_levels {objs : List (Obj σ K E)} (hobj : ∀ o ∈ objs, o.ShapeOk) {w : σ} {b : Bundle K E} {reps : Nat} {minE : K}
    {res : TraceResult σ K E} (h : rayTracer objs w b reps minE true = .ok res) :
    ∃ steps stf l, Run objs minE (initState objs b w) steps stf ∧ res.world = stf.world ∧
      (b :: steps.map fun s => s.2.1) = res.tree ++ l ∧ (l = [] ∨ l = [[]]) := by
  obtain ⟨_, steps, stf, hrun, _, htree, _, _, hw, hdl, _⟩ := rayTracer_run h
  have hsh := initState_shape objs b w
  have hgen : ∀ s ∈ steps.dropLast, (fun s : Bundle K E × Bundle K E × TraceState σ K E => ! s.1.isEmpty) s = true := by
    intro s hs
    have := Run.gen_ne_nil hobj hrun hsh (gen := s.1) (rec := s.2.1) (st1 := s.2.2)
      (List.dropLast_subset _ hs) (hdl s hs)
    simpa using this
  obtain ⟨rest, hrest, hrl⟩ := filter_steps hgen
  have hempty : ∀ s ∈ rest, s.2.1 = [] := by
    intro s hs
    have hmem : s ∈ steps := by rw [hrest]; exact List.mem_append_right _ hs
    have hg : s.1 = [] := by
      by_contra hne
      have h1 : rest.filter (fun s => ! s.1.isEmpty) = [] := by
        have := congrArg (List.filter fun s => ! s.1.isEmpty) hrest
        rw [List.filter_append, List.filter_filter] at this
        simpa using this
      rw [List.filter_eq_nil_iff] at h1
      exact h1 s hs (by simpa using hne)
    obtain ⟨l1, l2, hl⟩ := List.append_of_mem hmem
    have hrun' := hrun
    rw [hl] at hrun'
    obtain ⟨m, hm1, hm2⟩ := hrun'.append_inv
    obtain ⟨gen, rec, st1⟩ := s
    cases hm2 with
    | cons hi _ =>
      have := (recorded_perm (hm1.shape hobj hsh) hi).length_eq
      simp only at hg
      rw [hg] at this
      simpa using this
  refine ⟨steps, stf, rest.map fun s => s.2.1, hrun, hw, ?_, ?_⟩
  · rw [htree, List.cons_append, ← List.map_append, ← hrest]
  · rcases rest with _ | ⟨s, _ | ⟨s', rest⟩⟩
    · left; rfl
    · right; simp [hempty s (by simp)]
    · simp at hrl

/-! ### The callables -/

variable {τ : Type _}

theorem lambertian_total {a : ℝ} {draw : Nat → σ → List (ℝ × ℝ) × σ} (hd : FairDraw draw) :
    Optics.Total (lambertian a draw : Optics σ ℝ E) := by
  intro w up hits out w' h q hq
  simp only [lambertian, Except.ok.injEq, Prod.mk.injEq] at h
  obtain ⟨i, hi⟩ := List.getElem?_of_mem hq
  have hlen : (pillbox (Real.pi / 2) (draw hits.length w).1).length = hits.length := by
    unfold pillbox
    rw [List.length_map, (hd _ _).1]
  have hlt := (List.getElem?_eq_some_iff.1 hi).1
  rw [← h.1]
  refine ⟨_, List.mem_of_getElem? (i := i) (by
    rw [List.getElem?_zipWith, hi, List.getElem?_eq_getElem (by omega)]), rfl⟩

theorem refractive_total (n1 n2 : ℝ) : Optics.Total (refractiveHomogenous n1 n2 : Optics σ ℝ E) := by
  intro w up hits out w' h q hq
  obtain ⟨_, _, _, _, hout⟩ := refractive_ok h
  refine ⟨hitReflected n1 n2 q, ?_, rfl⟩
  rw [hout]
  exact List.mem_append_left _ (List.mem_map.2 ⟨q, hq, rfl⟩)

/-- A callable that, given rays of non-negative energy that satisfy `Q`, does not give out and write down more than it got. -/
def Optics.Creditable (absorbed : σ → K) (Q : Ray K E → Prop) (opt : Optics σ K E) : Prop :=
  ∀ w up hits out w', (∀ h ∈ hits, 0 ≤ h.ray.energy ∧ Q h.ray) → opt w up hits = .ok (out, w') →
    absorbed w' + totalEnergy out ≤ absorbed w + totalEnergy (hits.map HitRec.ray)

theorem mkSurf_creditable (g : Geometry K E) {opt : Optics σ K E} {absorbed : σ → K} {Q : Ray K E → Prop}
    (ho : opt.Creditable absorbed Q) (frame : Tf K) : (mkSurf g opt frame).Creditable absorbed Q := by
  intro w rays sel out w' hQ h
  obtain ⟨recs, h1, h2⟩ := mkSurf_ok h
  rw [hitRecs_rays h1]
  exact ho _ _ _ _ _ (fun q hq => hQ q.ray (List.mem_of_getElem? ((hitRecs_ok h1).2 q hq).1)) h2

theorem OpaqueClass.share {cls : ℝ → Optics (Receivers ℝ × τ) ℝ E} (hc : OpaqueClass cls) {a : ℝ} (h1 : a ≤ 1)
    {w w' : Receivers ℝ × τ} {up : V3 ℝ} {hits : List (HitRec ℝ E)} {out : Bundle ℝ E}
    (hpos : ∀ h ∈ hits, 0 ≤ h.ray.energy) (h : cls a w up hits = .ok (out, w')) :
    w'.1 = w.1 ∧ totalEnergy out ≤ totalEnergy (hits.map HitRec.ray) * (1 - a) := by
  have key : ∀ l : List (HitRec ℝ E), (∀ h ∈ l, 0 ≤ h.ray.energy) → ∀ f : HitRec ℝ E → Ray ℝ E,
      (∀ h ∈ l, (f h).energy ≤ h.ray.energy * (1 - a)) →
      totalEnergy (l.map f) ≤ totalEnergy (l.map HitRec.ray) * (1 - a) := by
    intro l hl f hf
    induction l with
    | nil => simp [totalEnergy]
    | cons q l ih =>
      have h2 := ih (fun h hh => hl h (List.mem_cons_of_mem _ hh)) (fun h hh => hf h (List.mem_cons_of_mem _ hh))
      have h3 := hf q (by simp)
      simp only [totalEnergy, List.map_cons, List.sum_cons] at h2 ⊢
      linarith
  cases hc with
  | mirror =>
    simp only [reflective, Except.ok.injEq, Prod.mk.injEq] at h
    obtain ⟨rfl, rfl⟩ := h
    exact ⟨rfl, key hits hpos _ fun q _ => le_refl (q.ray.energy * (1 - a))⟩
  | oneSided =>
    simp only [absorberReflector, Except.ok.injEq, Prod.mk.injEq] at h
    obtain ⟨rfl, rfl⟩ := h
    refine ⟨rfl, key hits hpos _ fun q hq => ?_⟩
    split
    · exact mul_nonneg (hpos q hq) (by linarith)
    · exact le_refl (q.ray.energy * (1 - a))
  | diffuse draw hd hm =>
    simp only [lambertian, Except.ok.injEq, Prod.mk.injEq] at h
    obtain ⟨rfl, rfl⟩ := h
    refine ⟨hm _ _, ?_⟩
    generalize pillbox (Real.pi / 2) (draw hits.length w).1 = ds
    clear hm hd
    induction hits generalizing ds with
    | nil => simp [totalEnergy]
    | cons q l ih =>
      have hq := hpos q (by simp)
      have hl : ∀ h ∈ l, 0 ≤ h.ray.energy := fun h hh => hpos h (List.mem_cons_of_mem _ hh)
      cases ds with
      | nil =>
        simp only [List.zipWith_nil_right, totalEnergy, List.map_nil, List.sum_nil]
        refine mul_nonneg (List.sum_nonneg ?_) (by linarith)
        intro x hx
        obtain ⟨r, hr, rfl⟩ := List.mem_map.1 hx
        obtain ⟨q', hq', rfl⟩ := List.mem_map.1 hr
        exact hpos q' hq'
      | cons d ds =>
        have h2 := ih hl ds
        simp only [totalEnergy, List.zipWith_cons_cons, List.map_cons, List.sum_cons] at h2 ⊢
        linarith

theorem hits_share (a : ℝ) (hits : List (HitRec ℝ E)) :
    (hits.map fun h => h.ray.energy * a).sum = totalEnergy (hits.map HitRec.ray) * a := by
  induction hits with
  | nil => simp [totalEnergy]
  | cons q l ih =>
    simp only [totalEnergy, List.map_cons, List.sum_cons] at ih ⊢
    rw [ih]; ring

theorem reported_update (S : Finset Nat) (w : Receivers ℝ) (i : Nat) (acc : Account ℝ) :
    reported S (Function.update w i acc) = reported S w +
      (if i ∈ S then acc.absorbed.flatten.sum - (w i).absorbed.flatten.sum else 0) := by
  unfold reported
  rw [← sub_eq_iff_eq_add', ← Finset.sum_sub_distrib]
  rw [← Finset.sum_ite_eq S i fun _ => acc.absorbed.flatten.sum - (w i).absorbed.flatten.sum]
  refine Finset.sum_congr rfl fun j _ => ?_
  by_cases hj : i = j
  · subst hj; simp
  · rw [if_neg hj, Function.update_of_ne (fun h => hj h.symm)]; ring

theorem TallyOptics.creditable {M : ℝ → Prop} {opt : Optics (Receivers ℝ × τ) ℝ E} (h : TallyOptics M opt) (S : Finset Nat)
    (Q : Ray ℝ E → Prop) : opt.Creditable (fun w => reported S w.1) Q := by
  intro w up hits out w' hQ ho
  have hpos : ∀ h ∈ hits, 0 ≤ h.ray.energy := fun h hh => (hQ h hh).1
  have hE : 0 ≤ totalEnergy (hits.map HitRec.ray) := by
    refine List.sum_nonneg ?_
    intro x hx
    obtain ⟨r, hr, rfl⟩ := List.mem_map.1 hx
    obtain ⟨q, hq, rfl⟩ := List.mem_map.1 hr
    exact hpos q hq
  cases h with
  | solid cls a hc h0 h1 =>
    obtain ⟨e1, e2⟩ := hc.share h1 hpos ho
    simp only [e1]
    nlinarith
  | refractive a b _ _ _ => exact le_of_eq (C66_refractive a b (fun w => reported S w.1) w up hits out w' ho)
  | receiver i cls a hc h0 h1 =>
    unfold accountant at ho
    obtain ⟨e1, e2⟩ := hc.share h1 hpos ho
    simp only at e1
    simp only [e1, reported_update, List.flatten_append, List.sum_append, List.flatten_cons, List.flatten_nil, List.append_nil,
      hits_share]
    split <;> nlinarith

theorem OpaqueClass.physical {cls : ℝ → Optics (Receivers ℝ × τ) ℝ E} (hc : OpaqueClass cls) {a : ℝ} (h0 : 0 ≤ a) (h1 : a ≤ 1) :
    PhysicalOpaque (cls a) := by
  cases hc with
  | mirror => exact .mirror a h0 h1
  | oneSided => exact .oneSided a h0 h1
  | diffuse draw hd _ => exact .diffuse a draw h0 h1 hd

theorem TallyOptics.physical {M : ℝ → Prop} {opt : Optics (Receivers ℝ × τ) ℝ E} (h : TallyOptics M opt) : PhysicalOptics M opt := by
  cases h with
  | solid cls a hc h0 h1 => exact .solid _ (hc.physical h0 h1)
  | refractive a b ha hb _ => exact .refractive a b ha hb
  | receiver i cls a hc h0 h1 => exact .receiver _ _ _ _ (.solid _ (hc.physical h0 h1))

theorem OpaqueClass.total {cls : ℝ → Optics (Receivers ℝ × τ) ℝ E} (hc : OpaqueClass cls) (a : ℝ) : Optics.Total (cls a) := by
  cases hc with
  | mirror => exact reflective_total a
  | oneSided => exact absorberReflector_total a
  | diffuse draw hd _ => exact lambertian_total hd

theorem TallyOptics.total {M : ℝ → Prop} {opt : Optics (Receivers ℝ × τ) ℝ E} (h : TallyOptics M opt) : Optics.Total opt := by
  cases h with
  | solid cls a hc h0 h1 => exact hc.total a
  | refractive a b _ _ _ => exact refractive_total a b
  | receiver i cls a hc h0 h1 => exact accountant_total (hc.total a)

theorem OpaqueClass.media {M : ℝ → Prop} {cls : ℝ → Optics (Receivers ℝ × τ) ℝ E} (hc : OpaqueClass cls) (a : ℝ) :
    MediaOptics M (cls a) := by
  cases hc with
  | mirror => exact .mirror a
  | oneSided => exact .oneSided a
  | diffuse draw hd _ => exact .diffuse a draw hd

theorem TallyOptics.media {M : ℝ → Prop} {opt : Optics (Receivers ℝ × τ) ℝ E} (h : TallyOptics M opt) : MediaOptics M opt := by
  cases h with
  | solid cls a hc _ _ => exact hc.media a
  | refractive a b ha hb hne => exact .refractive a b ha hb hne
  | receiver i cls a hc _ _ => exact .receiver _ _ _ _ (hc.media a)

end Tracer
