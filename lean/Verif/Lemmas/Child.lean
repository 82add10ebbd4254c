import Verif.Lemmas.Trace

/-! Where the rays generated in an iteration come from. -/

set_option linter.unusedSectionVars false
set_option linter.unusedSimpArgs false

namespace Tracer

variable {K E σ : Type _} [Field K] [LinearOrder K] [IsStrictOrderedRing K]

/-- Facts about a ray `r` generated in an iteration from state `st`, with parent ray `p`, by
surface number `k`. -/
structure ChildFacts (objs : List (Obj σ K E)) (st : TraceState σ K E) (r : Ray K E)
    (k : Nat) (s : Surf σ K E) (p : Ray K E) : Prop where
  surf : (objs.flatMap Obj.surfs)[k]? = some s
  parent : st.bund[r.parent]? = some p
  tested : Tested (surfOwnership objs) st.rayOwn st.relev k r.parent
  raw : ∃ (w1 w2 : σ) (rays raw : Bundle K E) (sel : List Nat) (r0 : Ray K E) (t : K),
    s.outgoing w1 rays sel = .ok (raw, w2) ∧ sel.Nodup ∧ r0 ∈ raw ∧ r0.parent ∈ sel ∧
    r = { r0 with parent := r.parent } ∧ rays[r0.parent]? = some p ∧
    (s.register rays)[r0.parent]? = some (t : WithTop K) ∧
    (∀ i ∈ sel, ∃ t : K, (s.register rays)[i]? = some (t : WithTop K) ∧ selfTol < t) ∧
    threshold st.bund (objs.flatMap Obj.surfs) (surfOwnership objs) st.rayOwn st.relev < t ∧
    Answer st.bund (objs.flatMap Obj.surfs) (surfOwnership objs) st.rayOwn st.relev k r.parent t ∧
    ∀ k' (t' : K), Answer st.bund (objs.flatMap Obj.surfs) (surfOwnership objs) st.rayOwn st.relev
        k' r.parent t' →
      threshold st.bund (objs.flatMap Obj.surfs) (surfOwnership objs) st.rayOwn st.relev < t' → t ≤ t'

theorem mem_allSurfs {P : Surf σ K E → Prop} {objs : List (Obj σ K E)} (h : AllSurfs P objs)
    {s : Surf σ K E} (hs : s ∈ objs.flatMap Obj.surfs) : P s := by
  obtain ⟨o, ho, hs⟩ := List.mem_flatMap.1 hs
  exact h o ho s hs

theorem selfTol_le_threshold (b : Bundle K E) (surfs : List (Surf σ K E)) (so ro re) :
    (selfTol : K) ≤ threshold b surfs so ro re := by
  unfold threshold
  split
  · exact selfTol_lt_dropTol.le
  · exact le_rfl

theorem threshold_le_dropTol (b : Bundle K E) (surfs : List (Surf σ K E)) (so ro re) :
    threshold b surfs so ro re ≤ (dropTol : K) := by
  unfold threshold
  split
  · exact le_rfl
  · exact selfTol_lt_dropTol.le

/-- A selected position of a hit surface: it is a tested ray in front of it. -/
theorem sel_facts {objs : List (Obj σ K E)} {st : TraceState σ K E} (hs : st.Shape objs)
    (hlen : AllSurfs Surf.LengthOk objs) {front owned : List (List Bool)}
    (hint : intersectRay st.bund (objs.flatMap Obj.surfs) (surfOwnership objs) st.rayOwn st.relev
      = .ok (front, owned))
    {k : Nat} {s : Surf σ K E} {f o : List Bool}
    (h1 : (objs.flatMap Obj.surfs)[k]? = some s) (h2 : front[k]? = some f) (h3 : owned[k]? = some o)
    {i j : Nat} (hj : (Np.nonzero o)[i]? = some j) (hi : i ∈ Np.nonzero (Np.mask o f)) :
    ∃ p, ∃ t : K, st.bund[j]? = some p ∧ (Np.mask o st.bund)[i]? = some p ∧
      (s.register (Np.mask o st.bund))[i]? = some (t : WithTop K) ∧
      Tested (surfOwnership objs) st.rayOwn st.relev k j ∧
      threshold st.bund (objs.flatMap Obj.surfs) (surfOwnership objs) st.rayOwn st.relev < t ∧
      Answer st.bund (objs.flatMap Obj.surfs) (surfOwnership objs) st.rayOwn st.relev k j t ∧
      ∀ k' (t' : K), Answer st.bund (objs.flatMap Obj.surfs) (surfOwnership objs) st.rayOwn st.relev
          k' j t' →
        threshold st.bund (objs.flatMap Obj.surfs) (surfOwnership objs) st.rayOwn st.relev < t' →
          t ≤ t' := by
  obtain ⟨hO, hF⟩ := intersectRay_ok hint
  subst hO
  have hol : o.length = st.bund.length := owned_row_length hs h3
  have hfl : f.length = st.bund.length := by
    have := frontMask_row_length (dropSelfHits_row_length (fun row hr => rawStack_row_length hr)) f
      (hF ▸ List.mem_of_getElem? h2)
    exact this
  obtain ⟨j', hj', hfj⟩ := (Np.mem_mask_iff (hol.trans hfl.symm)).1 hi
  rw [hj] at hj'; cases hj'
  have hlen' : ∀ s ∈ objs.flatMap Obj.surfs, s.LengthOk := fun s hs => mem_allSurfs hlen hs
  have hmark : Marked (frontMask st.bund.length
      (dropSelfHits (rawStack st.bund (objs.flatMap Obj.surfs) (surfOwnership objs) st.rayOwn st.relev))) k j := by
    rw [← hF]; exact ⟨f, h2, hfj⟩
  obtain ⟨t, ha, hthr, hmin⟩ := (front_iff hs hlen' k j).1 hmark
  have hto : o[j]? = some true := Np.mem_nonzero.1 (List.mem_of_getElem? hj)
  have hjl : j < st.bund.length := by
    have := (List.getElem?_eq_some_iff.1 hto).1
    omega
  have hreg : (s.register (Np.mask o st.bund))[i]? = some (t : WithTop K) := by
    obtain ⟨s', i', hs', hi', hp'⟩ := ha
    rw [h1] at hs'; cases hs'
    rw [testedRays_eq hs h3] at hp'
    rw [testedIdx_eq hs h3] at hi'
    have : i = i' := by
      have e := hj.trans hi'.symm
      exact (List.getElem?_inj (List.getElem?_eq_some_iff.1 hj).1 (Np.nonzero_nodup o)).1 e
    rw [this]; exact hp'
  refine ⟨st.bund[j], t, List.getElem?_eq_getElem hjl, ?_, hreg,
    (owned_getElem k j).1 ⟨o, h3, hto⟩, hthr, ha, hmin⟩
  rw [Np.mask_getElem? hol, hj]
  simp [List.getElem?_eq_getElem hjl]

theorem generated_child {objs : List (Obj σ K E)} {minE : K}
    {st st' : TraceState σ K E} {gen rec : Bundle K E} (hs : st.Shape objs)
    (hlen : AllSurfs Surf.LengthOk objs) (hpar : AllSurfs Surf.ParentsOk objs)
    (h : iterate objs (objs.flatMap Obj.surfs) minE st = .ok (st', gen, rec))
    {r : Ray K E} (hr : r ∈ gen) : ∃ k s p, ChildFacts objs st r k s p := by
  obtain ⟨⟨front, owned, cs, hint, hcs, hgen, _, _, _, hf⟩, _, _⟩ := iterate_ok hs h
  rw [hgen] at hr
  obtain ⟨c, hc, hrc⟩ := List.mem_flatMap.1 hr
  obtain ⟨k, s, f, o, w1, w2, h1, h2, h3, h4, hcf⟩ := hf c hc
  obtain ⟨raw, hraw, hfix⟩ := hcf.raw
  obtain ⟨r0, hr0, hq, hreq⟩ := fixParents_mem hfix hrc
  have hps := mem_allSurfs hpar (List.mem_of_getElem? h1) w1 _ _ raw w2 hraw r0 hr0
  obtain ⟨p, t, hp1, hp2, hreg, htest, hthr, ha, hmin⟩ := sel_facts hs hlen hint h1 h2 h3 hq hps
  refine ⟨k, s, p, h1, hp1, htest, w1, w2, _, raw, _, r0, t, hraw, Np.nonzero_nodup _, hr0, hps, hreq,
    hp2, hreg, ?_, hthr, ha, hmin⟩
  intro i hi
  have hol : o.length = st.bund.length := by
    obtain ⟨hO, _⟩ := intersectRay_ok hint
    subst hO
    exact owned_row_length hs h3
  have hfl : f.length = st.bund.length := by
    obtain ⟨_, hF⟩ := intersectRay_ok hint
    exact frontMask_row_length (dropSelfHits_row_length (fun row hr => rawStack_row_length hr)) f
      (hF ▸ List.mem_of_getElem? h2)
  obtain ⟨j, hj, _⟩ := (Np.mem_mask_iff (hol.trans hfl.symm)).1 hi
  obtain ⟨_, t', _, _, hreg', _, hthr', _⟩ := sel_facts hs hlen hint h1 h2 h3 hj hi
  exact ⟨t', hreg', lt_of_le_of_lt (selfTol_le_threshold _ _ _ _ _) hthr'⟩

/-- If some answer is usable, there is a nearest one. -/
theorem nearest_exists {b : Bundle K E} {surfs : List (Surf σ K E)} {surfOwn : List Nat}
    {rayOwn : List (Option Nat)} {relev : List (List Bool)}
    (hs : IShape b.length surfs surfOwn rayOwn relev) (hlen' : ∀ s ∈ surfs, s.LengthOk)
    {k j : Nat} {t : K} (ha : Answer b surfs surfOwn rayOwn relev k j t)
    (hthr : threshold b surfs surfOwn rayOwn relev < t) :
    ∃ k, ∃ t : K, Answer b surfs surfOwn rayOwn relev k j t ∧
      threshold b surfs surfOwn rayOwn relev < t ∧
      ∀ k' (t' : K), Answer b surfs surfOwn rayOwn relev k' j t' →
        threshold b surfs surfOwn rayOwn relev < t' → t ≤ t' := by
  have hrow : ∀ row ∈ dropSelfHits (rawStack b surfs surfOwn rayOwn relev),
      row.length = b.length := dropSelfHits_row_length (fun row hr => rawStack_row_length hr)
  have hjl := (answer_lt hs ha).2.1
  obtain ⟨q, hq⟩ : ∃ q, (colMin b.length (dropSelfHits (rawStack b surfs surfOwn rayOwn relev)))[j]? = some q :=
    ⟨_, List.getElem?_eq_getElem (by rw [colMin_length hrow]; exact hjl)⟩
  have hsp := colMin_spec hrow hq
  have hle := hsp.1 k t ((dropped_entry hs hlen' k j t (by simp)).2 ⟨ha, by exact_mod_cast hthr⟩)
  have hqt : q ≠ ⊤ := by
    rintro rfl
    simp at hle
  rcases hsp.2 with hq' | ⟨k0, hk0⟩
  · exact absurd hq' hqt
  · have := (dropped_entry hs hlen' k0 j q hqt).1 hk0
    lift q to K using hqt
    refine ⟨k0, q, this.1, by exact_mod_cast this.2, ?_⟩
    intro k' t' ha' hthr'
    exact_mod_cast hsp.1 k' t' ((dropped_entry hs hlen' k' j t' (by simp)).2 ⟨ha', by exact_mod_cast hthr'⟩)

/-- Every ray with a usable answer has a child, if the surfaces answer all selected rays. -/
theorem hit_has_child {objs : List (Obj σ K E)} {minE : K}
    {st st' : TraceState σ K E} {gen rec : Bundle K E} (hs : st.Shape objs)
    (hlen : AllSurfs Surf.LengthOk objs) (htot : AllSurfs Surf.Total objs)
    (h : iterate objs (objs.flatMap Obj.surfs) minE st = .ok (st', gen, rec))
    {k j : Nat} {t : K}
    (ha : Answer st.bund (objs.flatMap Obj.surfs) (surfOwnership objs) st.rayOwn st.relev k j t)
    (hthr : threshold st.bund (objs.flatMap Obj.surfs) (surfOwnership objs) st.rayOwn st.relev < t) :
    ∃ r ∈ gen, r.parent = j := by
  have hlen' : ∀ s ∈ objs.flatMap Obj.surfs, s.LengthOk := fun s hs => mem_allSurfs hlen hs
  obtain ⟨k, t, ha, hthr, hmin⟩ := nearest_exists hs hlen' ha hthr
  obtain ⟨⟨front, owned, cs, hint, hcs, hgen, _, _, _, hf⟩, _, _⟩ := iterate_ok hs h
  obtain ⟨hO, hF⟩ := intersectRay_ok hint
  have hmark := (front_iff hs hlen' k j).2 ⟨t, ha, hthr, hmin⟩
  rw [← hF] at hmark
  obtain ⟨f, hf1, hf2⟩ := hmark
  have htest := (answer_lt hs ha).2.2
  rw [← owned_getElem, ← hO] at htest
  obtain ⟨o, ho1, ho2⟩ := htest
  obtain ⟨s, i, hs1, hi1, _⟩ := ha
  rw [testedIdx_eq hs (hO ▸ ho1)] at hi1
  have hol : o.length = st.bund.length := owned_row_length hs (hO ▸ ho1)
  have hfl : f.length = st.bund.length :=
    frontMask_row_length (dropSelfHits_row_length (fun row hr => rawStack_row_length hr)) f
      (hF ▸ List.mem_of_getElem? hf1)
  have hi : i ∈ Np.nonzero (Np.mask o f) := (Np.mem_mask_iff (hol.trans hfl.symm)).2 ⟨j, hi1, hf2⟩
  have hany : (Np.mask o f).any id = true := by
    rw [List.any_eq_true]
    exact ⟨true, List.mem_of_getElem? (Np.mem_nonzero.1 hi), rfl⟩
  obtain ⟨c, hc, w1, w2, hcon⟩ := surfLoop_hit hcs hs1 hf1 ho1 hany
  have hcf := contribute_ok hol hcon
  obtain ⟨raw, hraw, hfix⟩ := hcf.raw
  obtain ⟨r0, hr0, hr0p⟩ := mem_allSurfs htot (List.mem_of_getElem? hs1) _ _ _ _ _ hraw i hi
  obtain ⟨m, hm⟩ := List.getElem?_of_mem hr0
  obtain ⟨q, hq, hrec⟩ := (fixParents_ok hfix).2 m r0 hm
  rw [hr0p, hi1] at hq
  cases hq
  refine ⟨{ r0 with parent := j }, ?_, rfl⟩
  rw [hgen]
  exact List.mem_flatMap.2 ⟨c, hc, List.mem_of_getElem? hrec⟩

end Tracer
