import Verif.Lemmas.Energy
import Verif.Spec.Exact
import Mathlib.Data.Multiset.Bind

/-! A trace of free rays refines the per-ray recursion `generation`. -/

set_option linter.unusedSectionVars false
set_option linter.unusedSimpArgs false

namespace Tracer

variable {K E σ : Type _}

theorem flatMap_swap {α β γ : Type _} (l : List α) (m : List β) (f : α → β → List γ) :
    (l.flatMap fun a => m.flatMap fun b => f a b).Perm (m.flatMap fun b => l.flatMap fun a => f a b) := by
  rw [← Multiset.coe_eq_coe]
  have h1 : ∀ (l : List α) (m : List β), ((l.flatMap fun a => m.flatMap fun b => f a b : List γ) : Multiset γ) =
      (l : Multiset α).bind fun a => (m : Multiset β).bind fun b => (f a b : Multiset γ) := by
    intro l m
    simp [Multiset.coe_bind]
  have h2 : ((m.flatMap fun b => l.flatMap fun a => f a b : List γ) : Multiset γ) =
      (m : Multiset β).bind fun b => (l : Multiset α).bind fun a => (f a b : Multiset γ) := by
    simp [Multiset.coe_bind]
  rw [h1, h2, Multiset.bind_bind]

theorem nonzero_flatMap {α β : Type _} (f : List Bool) (b : List α) (g : α → List β) (h : f.length = b.length) :
    ((Np.nonzero f).flatMap fun j => (b[j]?).toList.flatMap g) =
      (f.zip b).flatMap fun x => if x.1 then g x.2 else [] := by
  induction f generalizing b with
  | nil => simp
  | cons x f ih =>
    cases b with
    | nil => simp at h
    | cons p b =>
      have ih' := ih b (by simpa using h)
      cases x <;>
        simp [List.flatMap_map, Function.comp_def, ih']

section
variable [Field K] [LinearOrder K] [IsStrictOrderedRing K]

theorem strip_fixParents {owned : List Bool} {raw rec : Bundle K E}
    (h : fixParents owned raw = .ok rec) : rec.map Ray.strip = raw.map Ray.strip := by
  induction raw generalizing rec with
  | nil =>
    have := (fixParents_ok h).1
    have : rec = [] := by simpa using this
    subst this
    rfl
  | cons r raw ih =>
    obtain ⟨q, rec', h1, h2, rfl⟩ := fixParents_cons h
    simp only [List.map_cons, ih h2]
    rfl

theorem surfLoop_strip {objs : List (Obj σ K E)} {minE : K} {b : Bundle K E}
    {out : Surf σ K E → Ray K E → Bundle K E}
    {surfs : List (Surf σ K E)} {fronts owneds : List (List Bool)} {w w' : σ} {k : Nat}
    {cs : List (Contribution K E)}
    (h : surfLoop objs minE b w k surfs fronts owneds = .ok (cs, w'))
    (hol : ∀ o ∈ owneds, o.length = b.length ∧ ∀ x ∈ o, x = true) (hfl : ∀ f ∈ fronts, f.length = b.length)
    (hlen : owneds.length = fronts.length)
    (hout : ∀ s ∈ surfs, s.PerHit (out s)) :
    ((cs.flatMap Contribution.record).map Ray.strip).Perm
      ((surfs.zip fronts).flatMap fun x => (x.2.zip b).flatMap fun y =>
        if y.1 then (out x.1 y.2).map Ray.strip else []) := by
  induction surfs generalizing fronts owneds w k cs with
  | nil =>
    unfold surfLoop at h
    simp only [Except.ok.injEq, Prod.mk.injEq] at h
    rw [← h.1]
    simp
  | cons s surfs ih =>
    cases fronts with
    | nil =>
      unfold surfLoop at h
      simp only [Except.ok.injEq, Prod.mk.injEq] at h
      rw [← h.1]
      simp
    | cons f fronts =>
      cases owneds with
      | nil => simp at hlen
      | cons o owneds =>
        unfold surfLoop at h
        have hf := hfl f (by simp)
        obtain ⟨ho, hot⟩ := hol o (by simp)
        have ih' := fun {w k cs} (h : surfLoop objs minE b w k surfs fronts owneds = .ok (cs, w')) =>
          ih h (fun o ho => hol o (List.mem_cons_of_mem _ ho)) (fun f hf => hfl f (List.mem_cons_of_mem _ hf))
            (by simpa using hlen) (fun s hs => hout s (List.mem_cons_of_mem _ hs))
        rw [List.zip_cons_cons, List.flatMap_cons]
        have hmb : Np.mask o b = b := Np.mask_all_true ho (by
          rw [List.any_eq_false]; exact fun x hx => by simp [hot x hx])
        have hmf : Np.mask o f = f := Np.mask_all_true (ho.trans hf.symm) (by
          rw [List.any_eq_false]; exact fun x hx => by simp [hot x hx])
        split at h
        · split at h
          · simp at h
          · rename_i c w1 hc
            split at h
            · simp at h
            · rename_i cs' w2 hcs
              simp only [Except.ok.injEq, Prod.mk.injEq] at h
              obtain ⟨rfl, rfl⟩ := h
              rw [List.flatMap_cons, List.map_append]
              refine List.Perm.append ?_ (ih' hcs)
              obtain ⟨raw, hraw, hfix⟩ := (contribute_ok ho hc).raw
              rw [strip_fixParents hfix]
              rw [hmb, hmf] at hraw
              have hp := (hout s (by simp) _ _ _ _ _ hraw).map Ray.strip
              refine hp.trans ?_
              rw [← nonzero_flatMap f b (fun p => (out s p).map Ray.strip) hf, List.map_flatMap]
              apply List.Perm.of_eq
              congr 1
              funext j
              rw [List.map_flatMap]
              congr 1
              funext p
              rw [List.map_map]
              rfl
        · rename_i hno
          have hnil : (f.zip b).flatMap (fun y => if y.1 then (out s y.2).map Ray.strip else []) = [] := by
            rw [← nonzero_flatMap f b (fun p => (out s p).map Ray.strip) hf]
            have : Np.nonzero f = [] := by
              rw [List.eq_nil_iff_forall_not_mem]
              intro j hj
              rw [Np.mem_nonzero] at hj
              apply hno
              rw [hmf, List.any_eq_true]
              exact ⟨true, List.mem_of_getElem? hj, rfl⟩
            rw [this]
            rfl
          rw [hnil, List.nil_append]
          exact ih' h

/-- One iteration over free rays makes, up to order and parent indices, the children of the rays
beyond the cutoff. -/
theorem iterate_strip_cut {objs : List (Obj σ K E)} {minE : K}
    {st st' : TraceState σ K E} {gen rec : Bundle K E} (hs : st.Shape objs)
    (hfree : AllFree st.rayOwn st.relev)
    {per : Surf σ K E → Ray K E → WithTop K} {out : Surf σ K E → Ray K E → Bundle K E}
    (hper : ∀ s ∈ objs.flatMap Obj.surfs, s.PerRay (per s))
    (hout : ∀ s ∈ objs.flatMap Obj.surfs, s.PerHit (out s))
    (h : iterate objs (objs.flatMap Obj.surfs) minE st = .ok (st', gen, rec)) :
    (gen.map Ray.strip).Perm
      ((nextRays per out (objs.flatMap Obj.surfs) st.bund).map Ray.strip) := by
  classical
  obtain ⟨⟨front, owned, cs, hint, hcs, hgen, _, _, _, hf⟩, _, _⟩ := iterate_ok hs h
  obtain ⟨hO, hF⟩ := intersectRay_ok hint
  have hlen : ∀ s ∈ objs.flatMap Obj.surfs, s.LengthOk := fun s hs rays => by
    rw [hper s hs]; simp
  have hol : ∀ o ∈ owned, o.length = st.bund.length ∧ ∀ x ∈ o, x = true := by
    intro o ho
    obtain ⟨k, hk⟩ := List.getElem?_of_mem ho
    rw [hO] at hk
    refine ⟨owned_row_length hs hk, ?_⟩
    intro x hx
    obtain ⟨j, hj⟩ := List.getElem?_of_mem hx
    have hkl : k < (objs.flatMap Obj.surfs).length := by
      have := (List.getElem?_eq_some_iff.1 hk).1
      rw [List.length_zipWith] at this
      have e := hs.surf_len
      omega
    have hjl : j < st.bund.length := by
      have := (List.getElem?_eq_some_iff.1 hj).1
      rw [owned_row_length hs hk] at this
      exact this
    obtain ⟨row, hrow, ht⟩ := (owned_getElem k j).2 (hfree.tested hs hkl hjl)
    rw [hk] at hrow; cases hrow
    rw [hj] at ht
    simpa using ht
  have hfl : ∀ f ∈ front, f.length = st.bund.length := by
    intro f hf
    exact frontMask_row_length (dropSelfHits_row_length (fun row hr => rawStack_row_length hr)) f
      (hF ▸ hf)
  have hfrontlen : front.length = (objs.flatMap Obj.surfs).length := by
    rw [hF]
    simp [frontMask, dropSelfHits_length, rawStack, hs.surf_len, hs.relev_len]
  have hownlen : owned.length = front.length := by
    rw [hfrontlen, hO]
    simp [hs.surf_len, hs.relev_len]
  rw [hgen]
  refine (surfLoop_strip hcs hol hfl hownlen hout).trans ?_
  -- the marks are those of the specification
  have hmark : front = (objs.flatMap Obj.surfs).map fun s =>
      st.bund.map fun p => decide (∃ t, NearestBeyond (cutoff per (objs.flatMap Obj.surfs) st.bund) per (objs.flatMap Obj.surfs) s p t) := by
    apply List.ext_getElem?
    intro k
    rcases Nat.lt_or_ge k front.length with hk | hk
    · have hks : k < (objs.flatMap Obj.surfs).length := by omega
      have hrow : front[k]? = some front[k] := List.getElem?_eq_getElem hk
      rw [hrow, List.getElem?_map, List.getElem?_eq_getElem hks]
      simp only [Option.map_some, Option.some.injEq]
      apply List.ext_getElem?
      intro j
      have hrl := hfl _ (List.getElem_mem hk)
      rcases Nat.lt_or_ge j st.bund.length with hj | hj
      · have hjf : j < (front[k]).length := by omega
        rw [List.getElem?_eq_getElem hjf, List.getElem?_map, List.getElem?_eq_getElem hj]
        simp only [Option.map_some, Option.some.injEq]
        have hm : Marked front k j ↔ ∃ t, NearestBeyond (cutoff per (objs.flatMap Obj.surfs) st.bund) per (objs.flatMap Obj.surfs)
            (objs.flatMap Obj.surfs)[k] st.bund[j] t := by
          rw [hF]
          rw [front_iff hs hlen k j, hfree.threshold hs hper]
          constructor
          · rintro ⟨t, ha, hthr, hmin⟩
            rw [hfree.answer_perRay hs hper] at ha
            obtain ⟨s, r, e1, e2, e3⟩ := ha
            rw [List.getElem?_eq_getElem hks] at e1; cases e1
            rw [List.getElem?_eq_getElem hj] at e2; cases e2
            refine ⟨t, e3, hthr, ?_⟩
            intro s' hs' t' ht' hlt
            obtain ⟨k', hk'⟩ := List.getElem?_of_mem hs'
            exact hmin k' t' ((hfree.answer_perRay hs hper _ _ _).2
              ⟨s', _, hk', List.getElem?_eq_getElem hj, ht'⟩) hlt
          · rintro ⟨t, e3, hlt, hmin⟩
            refine ⟨t, (hfree.answer_perRay hs hper _ _ _).2
              ⟨_, _, List.getElem?_eq_getElem hks, List.getElem?_eq_getElem hj, e3⟩,
              hlt, ?_⟩
            intro k' t' ha hthr
            rw [hfree.answer_perRay hs hper] at ha
            obtain ⟨s, r, e1, e2, e3⟩ := ha
            rw [List.getElem?_eq_getElem hj] at e2; cases e2
            have hs' := List.mem_of_getElem? e1
            exact hmin s hs' t' e3 hthr
        have hm2 : Marked front k j ↔ (front[k])[j] = true := by
          unfold Marked
          rw [hrow]
          simp [List.getElem?_eq_getElem hjf]
        rw [Bool.eq_iff_iff, ← hm2, hm, decide_eq_true_eq]
      · rw [List.getElem?_eq_none (by omega), List.getElem?_eq_none (by simpa using hj)]
    · rw [List.getElem?_eq_none hk, List.getElem?_eq_none (by rw [List.length_map]; omega)]
  have hz : ((objs.flatMap Obj.surfs).zip front).flatMap (fun x => (x.2.zip st.bund).flatMap fun y =>
        if y.1 then (out x.1 y.2).map Ray.strip else []) =
      (objs.flatMap Obj.surfs).flatMap fun s => st.bund.flatMap fun p =>
        if ∃ t, NearestBeyond (cutoff per (objs.flatMap Obj.surfs) st.bund) per (objs.flatMap Obj.surfs) s p t then (out s p).map Ray.strip else [] := by
    rw [hmark]
    generalize hss : objs.flatMap Obj.surfs = surfs
    have gen1 : ∀ (l : Bundle K E) (P : Ray K E → Bool) (g : Ray K E → Bundle K E),
        ((l.map P).zip l).flatMap (fun y => if y.1 then g y.2 else []) =
          l.flatMap fun p => if P p = true then g p else [] := by
      intro l P g
      induction l with
      | nil => rfl
      | cons p l ih => simp [ih]
    have gen2 : ∀ (l : List (Surf σ K E)) (F : Surf σ K E → List Bool)
        (g : Surf σ K E → List Bool → Bundle K E),
        (l.zip (l.map F)).flatMap (fun x => g x.1 x.2) = l.flatMap fun s => g s (F s) := by
      intro l F g
      induction l with
      | nil => rfl
      | cons p l ih => simp [ih]
    rw [gen2 surfs (fun s => st.bund.map fun p => decide (∃ t, NearestBeyond (cutoff per surfs st.bund) per surfs s p t))
      (fun s f => (f.zip st.bund).flatMap fun y => if y.1 then (out s y.2).map Ray.strip else [])]
    congr 1
    funext s
    rw [gen1 st.bund _ (fun p => (out s p).map Ray.strip)]
    simp
  rw [hz]
  refine (flatMap_swap _ _ _).trans (List.Perm.of_eq ?_)
  rw [nextRays, List.map_flatMap]
  congr 1
  funext p
  rw [childrenBeyond, List.map_flatMap]
  congr 1
  funext s
  split <;> rfl

/-- For settled rays, the cutoff does not matter. -/
theorem nextRays_settled {per : Surf σ K E → Ray K E → WithTop K} {out : Surf σ K E → Ray K E → Bundle K E}
    {surfs : List (Surf σ K E)} {rays : Bundle K E} (hwin : ∀ p ∈ rays, Settled per surfs p) :
    nextRays per out surfs rays = rays.flatMap (children per out surfs) := by
  classical
  have hc1 : (selfTol : K) ≤ cutoff per surfs rays := by
    unfold cutoff
    split
    · exact selfTol_lt_dropTol.le
    · exact le_refl _
  have hc2 : cutoff per surfs rays ≤ (dropTol : K) := by
    unfold cutoff
    split
    · exact le_refl _
    · exact selfTol_lt_dropTol.le
  unfold nextRays
  refine List.flatMap_congr fun p hp => ?_
  have hcut : ∀ s ∈ surfs, ∀ t : K, per s p = (t : WithTop K) → (cutoff per surfs rays < t ↔ dropTol < t) := by
    intro s hs t ht
    rcases hwin p hp with ⟨s0, hs0, h0⟩ | hfree
    · have : cutoff per surfs rays = dropTol := by
        unfold cutoff
        exact if_pos ⟨s0, hs0, p, hp, h0⟩
      rw [this]
    · constructor
      · intro hlt
        rcases hfree s hs t ht with h' | h'
        · exact absurd (lt_of_le_of_lt hc1 hlt) (not_lt.2 h')
        · exact h'
      · exact fun hlt => lt_of_le_of_lt hc2 hlt
  unfold childrenBeyond children
  refine List.flatMap_congr fun s hs => ?_
  have : (∃ t, NearestBeyond (cutoff per surfs rays) per surfs s p t) ↔ NearestHit per surfs s p := by
    constructor
    · rintro ⟨t, h1, h2, h3⟩
      exact ⟨t, h1, (hcut s hs t h1).1 h2, fun s' hs' t' ht' hlt => h3 s' hs' t' ht' ((hcut s' hs' t' ht').2 hlt)⟩
    · rintro ⟨t, h1, h2, h3⟩
      exact ⟨t, h1, (hcut s hs t h1).2 h2, fun s' hs' t' ht' hlt => h3 s' hs' t' ht' ((hcut s' hs' t' ht').1 hlt)⟩
  simp only [this]

/-- One iteration over free, settled rays makes, up to order and parent indices, the children
of the rays. -/
theorem iterate_strip {objs : List (Obj σ K E)} {minE : K}
    {st st' : TraceState σ K E} {gen rec : Bundle K E} (hs : st.Shape objs)
    (hfree : AllFree st.rayOwn st.relev)
    {per : Surf σ K E → Ray K E → WithTop K} {out : Surf σ K E → Ray K E → Bundle K E}
    (hper : ∀ s ∈ objs.flatMap Obj.surfs, s.PerRay (per s))
    (hout : ∀ s ∈ objs.flatMap Obj.surfs, s.PerHit (out s))
    (hwin : ∀ p ∈ st.bund, Settled per (objs.flatMap Obj.surfs) p)
    (h : iterate objs (objs.flatMap Obj.surfs) minE st = .ok (st', gen, rec)) :
    (gen.map Ray.strip).Perm
      ((st.bund.flatMap (children per out (objs.flatMap Obj.surfs))).map Ray.strip) := by
  rw [← nextRays_settled hwin]
  exact iterate_strip_cut hs hfree hper hout h

end
end Tracer
