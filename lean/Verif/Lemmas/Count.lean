import Verif.Lemmas.Ties

/-! Helper lemmas for counting the children of a ray. -/

set_option linter.unusedSectionVars false

namespace Tracer

variable {K E σ : Type _} [Field K] [LinearOrder K] [IsStrictOrderedRing K]

/-- How many rays of a bundle name `j` as their parent. -/
def childCount (j : Nat) (l : Bundle K E) : Nat := (l.map Ray.parent).count j

theorem childCount_append (j : Nat) (l l' : Bundle K E) :
    childCount j (l ++ l') = childCount j l + childCount j l' := by
  simp [childCount]

theorem childCount_eq (j : Nat) (l : Bundle K E) : childCount j l = (l.filter fun r => r.parent == j).length := by
  unfold childCount
  rw [List.count, List.countP_map, List.countP_eq_length_filter]
  rfl

theorem childCount_perm (j : Nat) {l l' : Bundle K E} (h : l.Perm l') : childCount j l = childCount j l' :=
  (h.map _).count_eq j

/-- A surface that answers each hit by the rays `f` lists, one for each, has one child for each hit. -/
theorem mkSurf_oneChild (g : Geometry K E) {opt : Optics σ K E}
    (ho : ∀ w up hits out w', opt w up hits = .ok (out, w') → out.map Ray.parent = hits.map HitRec.idx) (frame : Tf K) :
    (mkSurf g opt frame).OneChild := by
  intro w rays sel out w' h
  obtain ⟨recs, h1, h2⟩ := mkSurf_ok h
  rw [ho _ _ _ _ _ h2, (hitRecs_ok h1).1]

theorem reflective_one (a : K) (w : σ) (up : V3 K) (hits : List (HitRec K E)) (out : Bundle K E) (w' : σ)
    (h : reflective a w up hits = .ok (out, w')) : out.map Ray.parent = hits.map HitRec.idx := by
  simp only [reflective, Except.ok.injEq, Prod.mk.injEq] at h
  rw [← h.1, List.map_map]
  rfl

theorem absorberReflector_one (a : K) (w : σ) (up : V3 K) (hits : List (HitRec K E)) (out : Bundle K E) (w' : σ)
    (h : absorberReflector a w up hits = .ok (out, w')) : out.map Ray.parent = hits.map HitRec.idx := by
  simp only [absorberReflector, Except.ok.injEq, Prod.mk.injEq] at h
  rw [← h.1, List.map_map]
  refine List.map_congr_left fun q _ => ?_
  simp only [Function.comp]
  split <;> rfl

theorem fixParents_count {owned : List Bool} {raw rec : Bundle K E} (hot : ∀ x ∈ owned, x = true)
    (h : fixParents owned raw = .ok rec) : rec.map Ray.parent = raw.map Ray.parent := by
  have hz : ∀ (i j : Nat), (Np.nonzero owned)[i]? = some j → j = i := by
    clear h
    induction owned with
    | nil => simp
    | cons x l ih =>
      have hx := hot x (by simp)
      subst hx
      intro i j hij
      rw [Np.nonzero_true] at hij
      cases i with
      | zero => simpa using hij.symm
      | succ i =>
        rw [List.getElem?_cons_succ, List.getElem?_map, Option.map_eq_some_iff] at hij
        obtain ⟨m, hm, rfl⟩ := hij
        rw [ih (fun x hx => hot x (List.mem_cons_of_mem _ hx)) i m hm]
  induction raw generalizing rec with
  | nil =>
    have := (fixParents_ok h).1
    have : rec = [] := by simpa using this
    subst this
    rfl
  | cons r raw ih =>
    obtain ⟨q, rec', h1, h2, rfl⟩ := fixParents_cons h
    rw [List.map_cons, List.map_cons, ih h2, hz _ _ h1]

/-- Children of ray `j` made by one surface, when the surface tests all rays. -/
theorem contrib_count {objs : List (Obj σ K E)} {minE : K} {b : Bundle K E} {w w' : σ} {k : Nat}
    {s : Surf σ K E} {front owned : List Bool} {c : Contribution K E}
    (hol : owned.length = b.length) (hot : ∀ x ∈ owned, x = true) (hfl : front.length = b.length)
    (hcf : ContribFacts objs minE b w k s front owned c w') (hone : s.OneChild) (j : Nat) :
    childCount j c.record = if front[j]? = some true then 1 else 0 := by
  obtain ⟨raw, hraw, hfix⟩ := hcf.raw
  unfold childCount
  have hall : (owned.any fun x => !x) = false := by
    rw [List.any_eq_false]
    intro x hx
    rw [hot x hx]
    simp
  rw [fixParents_count hot hfix, hone _ _ _ _ _ hraw, Np.mask_all_true (hol.trans hfl.symm) hall,
    (Np.nonzero_nodup front).count]
  simp only [Np.mem_nonzero]

theorem surfLoop_count {objs : List (Obj σ K E)} {minE : K} {b : Bundle K E}
    {surfs : List (Surf σ K E)} {fronts owneds : List (List Bool)} {w w' : σ} {k : Nat}
    {cs : List (Contribution K E)}
    (h : surfLoop objs minE b w k surfs fronts owneds = .ok (cs, w'))
    (hl1 : fronts.length = surfs.length) (hl2 : owneds.length = surfs.length)
    (hol : ∀ o ∈ owneds, o.length = b.length ∧ ∀ x ∈ o, x = true) (hfl : ∀ f ∈ fronts, f.length = b.length)
    (hone : ∀ s ∈ surfs, s.OneChild) (j : Nat) :
    childCount j (cs.flatMap Contribution.record) = fronts.countP fun f => decide (f[j]? = some true) := by
  induction surfs generalizing fronts owneds w k cs with
  | nil =>
    have : fronts = [] := by simpa using hl1
    subst this
    unfold surfLoop at h
    simp only [Except.ok.injEq, Prod.mk.injEq] at h
    rw [← h.1]
    rfl
  | cons s surfs ih =>
    cases fronts with
    | nil => simp at hl1
    | cons f fronts =>
      cases owneds with
      | nil => simp at hl2
      | cons o owneds =>
        unfold surfLoop at h
        have ih' := fun {w k cs} (h : surfLoop objs minE b w k surfs fronts owneds = .ok (cs, w')) =>
          ih h (by simpa using hl1) (by simpa using hl2) (fun o ho => hol o (List.mem_cons_of_mem _ ho))
            (fun f hf => hfl f (List.mem_cons_of_mem _ hf)) (fun s hs => hone s (List.mem_cons_of_mem _ hs))
        rw [List.countP_cons]
        split at h
        · split at h
          · simp at h
          · rename_i c w1 hc
            split at h
            · simp at h
            · rename_i cs' w2 hcs
              simp only [Except.ok.injEq, Prod.mk.injEq] at h
              obtain ⟨rfl, rfl⟩ := h
              have i2 := ih' hcs
              have e2 := contrib_count (hol o (by simp)).1 (hol o (by simp)).2 (hfl f (by simp))
                (contribute_ok (hol o (by simp)).1 hc) (hone s (by simp)) j
              rw [List.flatMap_cons, childCount_append, i2, e2, Nat.add_comm]
              simp
        · rename_i hno
          rw [ih' h]
          have : ¬ f[j]? = some true := by
            intro hf
            apply hno
            rw [Np.mask_all_true ((hol o (by simp)).1.trans (hfl f (by simp)).symm) (by
              rw [List.any_eq_false]
              intro x hx
              rw [(hol o (by simp)).2 x hx]
              simp)]
            exact List.any_eq_true.2 ⟨true, List.mem_of_getElem? hf, rfl⟩
          simp [this]

/-- One iteration over free rays: each ray has as many children as there are surfaces nearest to it. -/
theorem iterate_count {objs : List (Obj σ K E)} {minE : K}
    {st st' : TraceState σ K E} {gen rec : Bundle K E} (hs : st.Shape objs) (hfree : AllFree st.rayOwn st.relev)
    {per : Surf σ K E → Ray K E → WithTop K}
    (hper : AllSurfs (fun s => s.PerRay (per s)) objs) (hone : AllSurfs Surf.OneChild objs)
    (h : iterate objs (objs.flatMap Obj.surfs) minE st = .ok (st', gen, rec)) {j : Nat} {p : Ray K E}
    (hj : st.bund[j]? = some p) :
    childCount j gen = timesHit (cutoff per (objs.flatMap Obj.surfs) st.bund) per (objs.flatMap Obj.surfs) p := by
  have hper' : ∀ s ∈ objs.flatMap Obj.surfs, s.PerRay (per s) := fun s hs => mem_allSurfs hper hs
  obtain ⟨⟨front, owned, cs, hint, hcs, hgen, _, _, _, hf⟩, _, _⟩ := iterate_ok hs h
  obtain ⟨hO, hF⟩ := intersectRay_ok hint
  have hol : ∀ o ∈ owned, o.length = st.bund.length ∧ ∀ x ∈ o, x = true := by
    intro o ho
    obtain ⟨k, hk⟩ := List.getElem?_of_mem ho
    rw [hO] at hk
    refine ⟨owned_row_length hs hk, ?_⟩
    intro x hx
    obtain ⟨j, hj⟩ := List.getElem?_of_mem hx
    have hkl : k < (objs.flatMap Obj.surfs).length := by
      have := (List.getElem?_eq_some_iff.1 hk).1
      rw [List.length_zipWith] at this
      have e := hs.surf_len
      omega
    have hjl : j < st.bund.length := by
      have := (List.getElem?_eq_some_iff.1 hj).1
      rw [owned_row_length hs hk] at this
      exact this
    obtain ⟨row, hrow, ht⟩ := (owned_getElem k j).2 (hfree.tested hs hkl hjl)
    rw [hk] at hrow; cases hrow
    rw [hj] at ht
    simpa using ht
  have hfront := nearest_front hs hfree hper' hint
  have hfl : ∀ f ∈ front, f.length = st.bund.length := by
    intro f hf
    rw [hfront] at hf
    obtain ⟨_, _, rfl⟩ := List.mem_map.1 hf
    simp
  have hfrontlen : front.length = (objs.flatMap Obj.surfs).length := by rw [hfront]; simp
  have hownlen : owned.length = (objs.flatMap Obj.surfs).length := by
    rw [hO]
    simp [hs.surf_len, hs.relev_len]
  rw [hgen, surfLoop_count hcs hfrontlen hownlen hol hfl (fun s hs => mem_allSurfs hone hs) j, hfront, List.countP_map]
  unfold timesHit
  refine List.countP_congr fun s _ => ?_
  simp only [Function.comp, List.getElem?_map, hj, Option.map_some, decide_eq_true_eq, Option.some.injEq]

end Tracer
