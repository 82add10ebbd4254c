import Verif.Spec.Ties
import Verif.Props.Balance

/-! Helper lemmas for the energy balance of traces with ties. -/

set_option linter.unusedSectionVars false

namespace Tracer

variable {K E σ α : Type _} [Field K] [LinearOrder K] [IsStrictOrderedRing K]

theorem energyWhere_row (q : Ray K E → Bool) (b : Bundle K E) (o : List Bool) (ho : o.length = b.length)
    (hot : ∀ x ∈ o, x = true) :
    energyWhere (fun j => decide ((b.map q)[j]? = some true) && decide (o[j]? = some true)) b =
      (b.map fun p => if q p then p.energy else 0).sum := by
  induction b generalizing o with
  | nil => rfl
  | cons p b ih =>
    cases o with
    | nil => simp at ho
    | cons x o =>
      have hx := hot x (by simp)
      subst hx
      rw [energyWhere_cons, List.map_cons, List.map_cons, List.sum_cons,
        ← ih o (by simpa using ho) (fun x hx => hot x (List.mem_cons_of_mem _ hx))]
      simp

theorem received_rows {ι : Type _} (l : List ι) (q : ι → Ray K E → Bool) (b : Bundle K E) (owneds : List (List Bool))
    (hlen : owneds.length = l.length) (hol : ∀ o ∈ owneds, o.length = b.length ∧ ∀ x ∈ o, x = true) :
    received b (l.map fun s => b.map (q s)) owneds = (b.map fun p => (l.countP (fun s => q s p) : K) * p.energy).sum := by
  induction l generalizing owneds with
  | nil => simp [received]
  | cons s l ih =>
    cases owneds with
    | nil => simp at hlen
    | cons o owneds =>
      have h1 := ih owneds (by simpa using hlen) (fun o ho => hol o (List.mem_cons_of_mem _ ho))
      unfold received at h1 ⊢
      rw [List.map_cons, List.zip_cons_cons, List.map_cons, List.sum_cons, h1,
        energyWhere_row (q s) b o (hol o (by simp)).1 (hol o (by simp)).2, ← List.sum_map_add]
      congr 1
      refine List.map_congr_left fun p _ => ?_
      rw [List.countP_cons]
      cases q s p <;> simp
      ring

theorem energyWhere_get (P : Nat → Bool) (q : Ray K E → Bool) (b : Bundle K E)
    (h : ∀ (j : Nat) p, b[j]? = some p → P j = q p) :
    energyWhere P b = (b.map fun p => if q p then p.energy else 0).sum := by
  induction b generalizing P with
  | nil => rfl
  | cons p b ih =>
    rw [energyWhere_cons, List.map_cons, List.sum_cons, ih (fun j => P (j + 1)) (fun j p hj => h (j + 1) p (by simpa using hj)),
      h 0 p rfl]

/-- One iteration over free rays: what is written down and what goes on sums to the energy of the rays that have
children and of the duplicates made at ties. -/
theorem iterate_ties {objs : List (Obj σ K E)} {minE : K} {absorbed : σ → K}
    {st st' : TraceState σ K E} {gen rec : Bundle K E} (hs : st.Shape objs) (hfree : AllFree st.rayOwn st.relev)
    {per : Surf σ K E → Ray K E → WithTop K}
    (hper : AllSurfs (fun s => s.PerRay (per s)) objs)
    (hpar : AllSurfs Surf.ParentsOk objs) (htot : AllSurfs Surf.Total objs)
    (hbal : AllSurfs (Surf.Balanced absorbed) objs)
    (h : iterate objs (objs.flatMap Obj.surfs) minE st = .ok (st', gen, rec)) :
    absorbed st'.world + totalEnergy gen =
      absorbed st.world + energyWhere (fun j => gen.any fun r => r.parent == j) st.bund +
        (duplicates per (objs.flatMap Obj.surfs) st.bund).sum := by
  have hper' : ∀ s ∈ objs.flatMap Obj.surfs, s.PerRay (per s) := fun s hs => mem_allSurfs hper hs
  have hlen : AllSurfs Surf.LengthOk objs := fun o ho s hs rays => by
    rw [hper o ho s hs]; simp
  have hlen' : ∀ s ∈ objs.flatMap Obj.surfs, s.LengthOk := fun s hs => mem_allSurfs hlen hs
  have hit := h
  obtain ⟨⟨front, owned, cs, hint, hcs, hgen, _, _, _, hf⟩, _, _⟩ := iterate_ok hs h
  obtain ⟨hO, hF⟩ := intersectRay_ok hint
  have hol : ∀ o ∈ owned, o.length = st.bund.length ∧ ∀ x ∈ o, x = true := by
    intro o ho
    obtain ⟨k, hk⟩ := List.getElem?_of_mem ho
    rw [hO] at hk
    refine ⟨owned_row_length hs hk, ?_⟩
    intro x hx
    obtain ⟨j, hj⟩ := List.getElem?_of_mem hx
    have hkl : k < (objs.flatMap Obj.surfs).length := by
      have := (List.getElem?_eq_some_iff.1 hk).1
      rw [List.length_zipWith] at this
      have e := hs.surf_len
      omega
    have hjl : j < st.bund.length := by
      have := (List.getElem?_eq_some_iff.1 hj).1
      rw [owned_row_length hs hk] at this
      exact this
    obtain ⟨row, hrow, ht⟩ := (owned_getElem k j).2 (hfree.tested hs hkl hjl)
    rw [hk] at hrow; cases hrow
    rw [hj] at ht
    simpa using ht
  have hfront := nearest_front hs hfree hper' hint
  have hfl : ∀ f ∈ front, f.length = st.bund.length := by
    intro f hf
    rw [hfront] at hf
    obtain ⟨_, _, rfl⟩ := List.mem_map.1 hf
    simp
  have hfrontlen : front.length = (objs.flatMap Obj.surfs).length := by rw [hfront]; simp
  have hownlen : owned.length = (objs.flatMap Obj.surfs).length := by
    rw [hO]
    simp [hs.surf_len, hs.relev_len]
  have hb := surfLoop_balance hcs (fun o ho => (hol o ho).1) hfl hfrontlen (fun s hs => mem_allSurfs hbal hs)
  rw [← hgen] at hb
  have hrec := received_rows (objs.flatMap Obj.surfs) (fun s p =>
    (nearestParam (cutoff per (objs.flatMap Obj.surfs) st.bund) per (objs.flatMap Obj.surfs) s p).isSome) st.bund owned hownlen hol
  rw [← hfront] at hrec
  rw [hb, hrec, add_assoc]
  congr 1
  have hchild : ∀ (j : Nat) p, st.bund[j]? = some p → (gen.any fun r => r.parent == j) =
      decide (0 < timesHit (cutoff per (objs.flatMap Obj.surfs) st.bund) per (objs.flatMap Obj.surfs) p) := by
    intro j p hj
    rw [Bool.eq_iff_iff, decide_eq_true_eq]
    unfold timesHit
    rw [List.countP_pos_iff, List.any_eq_true]
    constructor
    · rintro ⟨r, hr, hrj⟩
      have hrj : r.parent = j := by simpa using hrj
      obtain ⟨k, s, q, hc⟩ := generated_child hs hlen hpar hit hr
      obtain ⟨_, _, _, _, _, _, t, _, _, _, _, _, _, _, _, hthr, ha, hmin⟩ := hc.raw
      have hm := (front_iff hs hlen' k r.parent).2 ⟨t, ha, hthr, hmin⟩
      rw [← hF, hfront] at hm
      obtain ⟨row, hrow, ht⟩ := hm
      rw [List.getElem?_map] at hrow
      cases hsk : (objs.flatMap Obj.surfs)[k]? with
      | none => rw [hsk] at hrow; simp at hrow
      | some s' =>
        rw [hsk] at hrow
        simp only [Option.map_some, Option.some.injEq] at hrow
        subst hrow
        rw [hrj, List.getElem?_map, hj] at ht
        exact ⟨s', List.mem_of_getElem? hsk, by simpa using ht⟩
    · rintro ⟨s, hsm, hsome⟩
      obtain ⟨k, hk⟩ := List.getElem?_of_mem hsm
      have hm : Marked front k j := by
        rw [hfront]
        refine ⟨_, by rw [List.getElem?_map, hk]; rfl, ?_⟩
        rw [List.getElem?_map, hj]
        simpa using hsome
      rw [hF, front_iff hs hlen' k j] at hm
      obtain ⟨t, ha, hthr, _⟩ := hm
      obtain ⟨r, hr, hrj⟩ := hit_has_child hs hlen htot hit ha hthr
      exact ⟨r, hr, by simpa using hrj⟩
  rw [energyWhere_get _ (fun p => decide (0 < timesHit (cutoff per (objs.flatMap Obj.surfs) st.bund) per (objs.flatMap Obj.surfs) p)) _ hchild]
  unfold duplicates
  rw [← List.sum_map_add]
  congr 1
  refine List.map_congr_left fun p _ => ?_
  change (timesHit (cutoff per (objs.flatMap Obj.surfs) st.bund) per (objs.flatMap Obj.surfs) p : K) * p.energy = _
  generalize timesHit (cutoff per (objs.flatMap Obj.surfs) st.bund) per (objs.flatMap Obj.surfs) p = c
  cases c with
  | zero => simp
  | succ c => simp; ring

theorem Run.ties {objs : List (Obj σ K E)} (hdef : ∀ o ∈ objs, o.Default) {minE : K}
    {absorbed : σ → K} {per : Surf σ K E → Ray K E → WithTop K}
    (hper : AllSurfs (fun s => s.PerRay (per s)) objs)
    (hpar : AllSurfs Surf.ParentsOk objs) (htot : AllSurfs Surf.Total objs)
    (hbal : AllSurfs (Surf.Balanced absorbed) objs)
    {st st' : TraceState σ K E} {steps} (hrun : Run objs minE st steps st') (hs : st.Shape objs)
    (hfree : AllFree st.rayOwn st.relev)
    {L weak : Bundle K E} (hL : L = st.bund ++ weak) {k : Nat} (hLk : propagated minE k L = st.bund) :
    absorbed st'.world + totalEnergy (treeLeaves (L :: steps.map fun s => s.2.1)) =
      absorbed st.world + totalEnergy L +
        ((((L :: steps.map fun s => s.2.1).take steps.length).zipIdx k).flatMap fun x =>
          duplicates per (objs.flatMap Obj.surfs) (propagated minE x.2 x.1)).sum := by
  have hobj : ∀ o ∈ objs, o.ShapeOk := fun o ho => (hdef o ho).shapeOk
  induction hrun generalizing L weak k with
  | nil => simp [treeLeaves]
  | @cons st st1 st2 gen rec steps hi _ ih =>
    have hb := iterate_ties hs hfree hper hpar htot hbal hi
    have hperm := recorded_perm hs hi
    have hf := iterate_ok hs hi
    have hp : propagated minE (k + 1) rec = st1.bund := by
      rw [hf.recorded, propagated_append (by omega)]
      · rw [hf.strong]
        intro r hr
        simpa using (List.mem_filter.1 hr).2
      · intro r hr
        simpa using (List.mem_filter.1 hr).2
    have hfree1 := (Run.cons hi (Run.nil st1)).free hdef hs hfree
    have ih' := ih (iterate_shape hobj hs hi) hfree1 (iterate_ok hs hi).recorded hp
    simp only [List.map_cons, treeLeaves, List.length_cons, List.take_succ_cons, List.zipIdx_cons, List.flatMap_cons,
      List.sum_append]
    rw [totalEnergy_append, childless_energy, hLk]
    have h1 := energyWhere_not (fun j => rec.any fun r => r.parent == j) L
    have hany : ∀ j, (rec.any fun r => r.parent == j) = gen.any fun r => r.parent == j := by
      intro j
      rw [Bool.eq_iff_iff, List.any_eq_true, List.any_eq_true]
      exact ⟨fun ⟨r, hr, h⟩ => ⟨r, hperm.subset hr, h⟩, fun ⟨r, hr, h⟩ => ⟨r, hperm.symm.subset hr, h⟩⟩
    have h2 : energyWhere (fun j => rec.any fun r => r.parent == j) L =
        energyWhere (fun j => gen.any fun r => r.parent == j) st.bund := by
      simp only [hany]
      rw [hL, energyWhere_append, energyWhere_false (b := weak), add_zero]
      intro j _
      rw [List.any_eq_false]
      intro r hr hrj
      have hlen : AllSurfs Surf.LengthOk objs := fun o ho s hs rays => by
        rw [hper o ho s hs]; simp
      obtain ⟨_, _, q, hc⟩ := generated_child hs hlen hpar hi hr
      have := (List.getElem?_eq_some_iff.1 hc.parent).1
      rw [show r.parent = j + st.bund.length by simpa using hrj] at this
      omega
    have h3 := totalEnergy_perm hperm
    linarith

/-- The levels of a trace that were traced further. -/
theorem traced_levels_all {objs : List (Obj σ K E)} {w : σ} {b : Bundle K E} {reps : Nat} {minE : K}
    {res : TraceResult σ K E} {per : Surf σ K E → Ray K E → WithTop K} (hdef : ∀ o ∈ objs, o.Default)
    (hper : AllSurfs (fun s => s.PerRay (per s)) objs) (h : rayTracer objs w b reps minE true = .ok res)
    (f : Bundle K E × Nat → List α) (hf : ∀ x, propagated minE x.2 x.1 = [] → f x = []) :
    ∃ steps stf, Run objs minE (initState objs b w) steps stf ∧ res.world = stf.world ∧
      (∀ lvl ∈ b :: steps.map fun s => s.2.1, lvl ∈ res.tree ∨ lvl = []) ∧
      treeLeaves (b :: steps.map fun s => s.2.1) = treeLeaves res.tree ∧
      ((b :: steps.map fun s => s.2.1).take steps.length).zipIdx.flatMap f = (res.tree.take reps).zipIdx.flatMap f := by
  have hobj : ∀ o ∈ objs, o.ShapeOk := fun o ho => (hdef o ho).shapeOk
  obtain ⟨_, steps, stf, hrun, hlen, htree, _, _, hw, hdl, hend⟩ := rayTracer_run h
  have hsh := initState_shape objs b w
  obtain ⟨-, h2⟩ := hrun.log (α := Unit) (log := fun _ => []) (e := fun _ _ _ => []) hdef (fun s hs => mem_allSurfs hper hs)
    (fun i s _ w rays sel out w' _ => by
      symm
      rw [List.nil_append, List.flatMap_eq_nil_iff]
      intro i _
      split <;> rfl) hsh (initState_free objs b w)
    (L := b) (k := 0) (by simp [propagated, initState])
  have hgen : ∀ s ∈ steps.dropLast, (fun s : Bundle K E × Bundle K E × TraceState σ K E => ! s.1.isEmpty) s = true := by
    intro s hs
    have := Run.gen_ne_nil hobj hrun hsh (gen := s.1) (rec := s.2.1) (st1 := s.2.2)
      (List.dropLast_subset _ hs) (hdl s hs)
    simpa using this
  obtain ⟨rest, hrest, hrl⟩ := filter_steps hgen
  have hempty : ∀ s ∈ rest, s.2.1 = [] := by
    intro s hs
    have hmem : s ∈ steps := by rw [hrest]; exact List.mem_append_right _ hs
    have hg : s.1 = [] := by
      by_contra hne
      have h1 : rest.filter (fun s => ! s.1.isEmpty) = [] := by
        have := congrArg (List.filter fun s => ! s.1.isEmpty) hrest
        rw [List.filter_append, List.filter_filter] at this
        simpa using this
      rw [List.filter_eq_nil_iff] at h1
      exact h1 s hs (by simpa using hne)
    obtain ⟨l1, l2, hl⟩ := List.append_of_mem hmem
    have hrun' := hrun
    rw [hl] at hrun'
    obtain ⟨m, hm1, hm2⟩ := hrun'.append_inv
    obtain ⟨gen, rec, st1⟩ := s
    cases hm2 with
    | cons hi _ =>
      have := (recorded_perm (hm1.shape hobj hsh) hi).length_eq
      simp only at hg
      rw [hg] at this
      simpa using this
  have hfull : ∃ l, steps.map (fun s => s.2.1) = (steps.filter fun s => ! s.1.isEmpty).map (fun s => s.2.1) ++ l ∧
      (l = [] ∨ l = [[]]) := by
    refine ⟨rest.map fun s => s.2.1, ?_, ?_⟩
    · rw [← List.map_append, ← hrest]
    · rcases rest with _ | ⟨s, _ | ⟨s', rest⟩⟩
      · left; rfl
      · right; simp [hempty s (by simp)]
      · simp at hrl
  have hleaves : treeLeaves (b :: steps.map fun s => s.2.1) = treeLeaves res.tree := by
    obtain ⟨l, hl, hl'⟩ := hfull
    rw [htree, hl]
    rcases hl' with rfl | rfl
    · rw [List.append_nil]
    · rw [← List.cons_append, treeLeaves_append_nil]
  have hmem : ∀ lvl ∈ b :: steps.map fun s => s.2.1, lvl ∈ res.tree ∨ lvl = [] := by
    obtain ⟨l, hl, hl'⟩ := hfull
    intro lvl hlv
    rw [hl, ← List.cons_append, ← htree, List.mem_append] at hlv
    rcases hlv with hlv | hlv
    · exact Or.inl hlv
    · rcases hl' with rfl | rfl
      · simp at hlv
      · right; simpa using hlv
  refine ⟨steps, stf, hrun, hw, hmem, hleaves, ?_⟩
  have htl : (b :: steps.map fun s => s.2.1) = res.tree ++ rest.map fun s => s.2.1 := by
    rw [htree, List.cons_append, ← List.map_append, ← hrest]
  have hfl : (steps.filter fun s => ! s.1.isEmpty).length + rest.length = steps.length := by
    conv_rhs => rw [hrest]
    simp
  have htreelen : res.tree.length = (steps.filter fun s => ! s.1.isEmpty).length + 1 := by
    rw [htree]; simp
  have e1 : (b :: steps.map fun s => s.2.1).take steps.length = res.tree.take steps.length := by
    rw [htl, List.take_append_of_le_length (by omega)]
  rw [e1]
  rcases Nat.lt_or_ge steps.length reps with hlt | hge
  · obtain ⟨he1, he2⟩ := hend hlt
    rcases Nat.lt_or_ge steps.length res.tree.length with hs | hs
    · have htl2 : res.tree.length = steps.length + 1 := by omega
      have e2 : res.tree.take reps = res.tree.take steps.length ++ [res.tree[steps.length]] := by
        rw [List.take_of_length_le (by omega)]
        conv_lhs => rw [← List.take_length (l := res.tree), htl2, List.take_add_one]
        rw [List.getElem?_eq_getElem hs]
        rfl
      rw [e2, List.zipIdx_append, List.flatMap_append]
      have hp := h2 res.tree[steps.length] (by
        rw [htl, List.getElem?_append_left hs, List.getElem?_eq_getElem hs])
      rw [he1] at hp
      have : (res.tree.take steps.length).length = steps.length := by simp; omega
      simp only [this, List.zipIdx_cons, List.zipIdx_nil, List.flatMap_cons, List.flatMap_nil, List.append_nil]
      rw [hf _ hp, List.append_nil]
    · rw [List.take_of_length_le hs, List.take_of_length_le (by omega)]
  · rw [show reps = steps.length by omega]

theorem traced_levels {objs : List (Obj σ K E)} {w : σ} {b : Bundle K E} {reps : Nat} {minE : K}
    {res : TraceResult σ K E} {per : Surf σ K E → Ray K E → WithTop K} (hdef : ∀ o ∈ objs, o.Default)
    (hper : AllSurfs (fun s => s.PerRay (per s)) objs) (h : rayTracer objs w b reps minE true = .ok res)
    (f : Bundle K E × Nat → List α) (hf : ∀ x, propagated minE x.2 x.1 = [] → f x = []) :
    ∃ steps stf, Run objs minE (initState objs b w) steps stf ∧ res.world = stf.world ∧
      treeLeaves (b :: steps.map fun s => s.2.1) = treeLeaves res.tree ∧
      ((b :: steps.map fun s => s.2.1).take steps.length).zipIdx.flatMap f = (res.tree.take reps).zipIdx.flatMap f := by
  obtain ⟨steps, stf, h1, h2, _, h3, h4⟩ := traced_levels_all hdef hper h f hf
  exact ⟨steps, stf, h1, h2, h3, h4⟩

end Tracer
