import Verif.Lemmas.Intersect

/-! Helper lemmas about one iteration of the engine. -/

set_option linter.unusedSectionVars false
set_option linter.unusedSimpArgs false

namespace Tracer

variable {K E σ : Type _}

/-! ### Numbering of surfaces and objects -/

theorem repeatArange_spec (reps : List Nat) (a k : Nat) (o : Nat) :
    (Np.repeatArange a reps)[k]? = some o ↔
      ∃ i, o = a + i ∧ i < reps.length ∧ (reps.take i).sum ≤ k ∧ k < (reps.take (i+1)).sum := by
  induction reps generalizing a k with
  | nil => simp [Np.repeatArange]
  | cons r reps ih =>
    rw [Np.repeatArange]
    rcases Nat.lt_or_ge k r with hk | hk
    · rw [List.getElem?_append_left (by simpa using hk)]
      simp only [List.getElem?_replicate, hk, if_true, Option.some.injEq]
      constructor
      · rintro rfl
        exact ⟨0, by simp, by simp, by simp, by simpa using hk⟩
      · rintro ⟨i, rfl, hi, h1, h2⟩
        cases i with
        | zero => simp
        | succ i => simp at h1; omega
    · rw [List.getElem?_append_right (by simpa using hk), ih]
      simp only [List.length_replicate]
      constructor
      · rintro ⟨i, rfl, hi, h1, h2⟩
        exact ⟨i + 1, by omega, by simpa using hi, by simp; omega, by simp at h2 ⊢; omega⟩
      · rintro ⟨i, rfl, hi, h1, h2⟩
        cases i with
        | zero => simp at h2; omega
        | succ i => exact ⟨i, by omega, by simpa using hi, by simp at h1; omega, by simp at h2 ⊢; omega⟩

theorem repeatArange_length (reps : List Nat) (a : Nat) : (Np.repeatArange a reps).length = reps.sum := by
  induction reps generalizing a with
  | nil => rfl
  | cons r reps ih => simp [Np.repeatArange, ih]

theorem accumulate_spec (reps : List Nat) (acc i : Nat) (h : i ≤ reps.length) :
    (acc :: Np.accumulate acc reps)[i]? = some (acc + (reps.take i).sum) := by
  induction reps generalizing acc i with
  | nil =>
    have : i = 0 := by simpa using h
    simp [this]
  | cons r reps ih =>
    cases i with
    | zero => simp
    | succ i =>
      simp only [List.length_cons, Nat.add_le_add_iff_right] at h
      have := ih (acc + r) i h
      simp only [Np.accumulate, List.getElem?_cons_succ, List.take_succ_cons, List.sum_cons]
      rw [this]; simp; omega

theorem flatMap_getElem? {α β : Type _} (f : α → List β) (l : List α) (i r : Nat) (x : α)
    (hx : l[i]? = some x) (hr : r < (f x).length) :
    (l.flatMap f)[((l.map fun y => (f y).length).take i).sum + r]? = (f x)[r]? := by
  induction l generalizing i with
  | nil => simp at hx
  | cons y l ih =>
    cases i with
    | zero =>
      simp at hx; subst hx
      simp [List.getElem?_append_left hr]
    | succ i =>
      simp at hx
      simp only [List.flatMap_cons, List.map_cons, List.take_succ_cons, List.sum_cons]
      rw [List.getElem?_append_right (by omega)]
      rw [show (f y).length + (List.take i (List.map (fun y => (f y).length) l)).sum + r - (f y).length
        = (List.take i (List.map (fun y => (f y).length) l)).sum + r by omega]
      exact ih i hx

theorem surfOwnership_length (objs : List (Obj σ K E)) :
    (surfOwnership objs).length = (objs.flatMap Obj.surfs).length := by
  rw [surfOwnership, repeatArange_length, List.length_flatMap]
  rfl

/-- The owner of surface `k` is object `o`, with relative number `k - before`. -/
theorem numbering {objs : List (Obj σ K E)} {k o : Nat} (h : (surfOwnership objs)[k]? = some o) :
    ∃ obj before, objs[o]? = some obj ∧ (surfsUntilObj objs)[o]? = some before ∧ before ≤ k ∧
      k - before < obj.surfs.length ∧
      (objs.flatMap Obj.surfs)[k]? = obj.surfs[k - before]? := by
  rw [surfOwnership, repeatArange_spec] at h
  obtain ⟨i, rfl, hi, h1, h2⟩ := h
  simp only [Nat.zero_add]
  have hio : i < objs.length := by simpa [surfsPerObj] using hi
  have hsum : ((surfsPerObj objs).take (i+1)).sum = ((surfsPerObj objs).take i).sum + objs[i].surfs.length := by
    rw [List.take_add_one]
    simp [surfsPerObj, hio]
  refine ⟨objs[i], ((surfsPerObj objs).take i).sum, by simp [hio], ?_, h1, by omega, ?_⟩
  · rw [surfsUntilObj, accumulate_spec _ _ _ hi.le]; simp
  · have := flatMap_getElem? Obj.surfs objs i (k - ((surfsPerObj objs).take i).sum) objs[i] (by simp [hio]) (by omega)
    rw [← this]
    congr 1
    show k = ((surfsPerObj objs).take i).sum + (k - ((surfsPerObj objs).take i).sum)
    omega

theorem surfOwnership_some {objs : List (Obj σ K E)} {k : Nat} (h : k < (objs.flatMap Obj.surfs).length) :
    ∃ o, (surfOwnership objs)[k]? = some o :=
  ⟨_, List.getElem?_eq_getElem (by rw [surfOwnership_length]; exact h)⟩

/-! ### Contributions of one surface -/

section
variable [Field K] [LinearOrder K] [IsStrictOrderedRing K]

theorem fixParents_ok {owned : List Bool} {raw rec : Bundle K E} (h : fixParents owned raw = .ok rec) :
    rec.length = raw.length ∧ ∀ (i : Nat) r, raw[i]? = some r →
      ∃ q, (Np.nonzero owned)[r.parent]? = some q ∧ rec[i]? = some { r with parent := q } := by
  unfold fixParents at h
  split at h
  · simp at h
  · rename_i ps hps
    simp only [Except.ok.injEq] at h
    subst h
    obtain ⟨hl, hi⟩ := Np.take_eq_ok.1 hps
    simp at hl
    refine ⟨by simp [hl], ?_⟩
    intro i r hr
    have hlt : i < raw.length := (List.getElem?_eq_some_iff.1 hr).1
    have h1 := hi i r.parent (by simp [hr])
    have hp : ps[i]? = some ps[i] := List.getElem?_eq_getElem (by omega)
    refine ⟨ps[i], by rw [h1.1, hp], ?_⟩
    simp [List.getElem?_zipWith, hr, hp]

theorem fixParents_mem {owned : List Bool} {raw rec : Bundle K E} (h : fixParents owned raw = .ok rec)
    {r : Ray K E} (hr : r ∈ rec) :
    ∃ r0 ∈ raw, (Np.nonzero owned)[r0.parent]? = some r.parent ∧ r = { r0 with parent := r.parent } := by
  obtain ⟨hl, hi⟩ := fixParents_ok h
  obtain ⟨i, hi'⟩ := List.getElem?_of_mem hr
  have hlt : i < rec.length := (List.getElem?_eq_some_iff.1 hi').1
  have hraw : raw[i]? = some raw[i] := List.getElem?_eq_getElem (by omega)
  obtain ⟨q, hq, hrec⟩ := hi i _ hraw
  rw [hi'] at hrec
  cases hrec
  exact ⟨raw[i], List.mem_of_getElem? hraw, hq, rfl⟩

theorem fixParents_exists {owned : List Bool} {raw : Bundle K E}
    (h : ∀ r ∈ raw, r.parent < (Np.nonzero owned).length) : ∃ rec, fixParents owned raw = .ok rec := by
  unfold fixParents
  obtain ⟨ps, hps⟩ := Np.take_ok_of_lt (l := Np.nonzero owned) (sel := raw.map Ray.parent) (by
    simpa using h)
  exact ⟨_, by rw [hps]⟩

/-- The facts about the contribution of one hit surface. -/
structure ContribFacts (objs : List (Obj σ K E)) (minE : K) (b : Bundle K E) (w : σ) (k : Nat)
    (s : Surf σ K E) (front owned : List Bool) (c : Contribution K E) (w' : σ) : Prop where
  raw : ∃ raw, s.outgoing w (Np.mask owned b) (Np.nonzero (Np.mask owned front)) = .ok (raw, w') ∧
    fixParents owned raw = .ok c.record
  weak : c.weak = c.record.map fun r => decide (r.energy ≤ minE)
  outg : c.outg = c.record.filter fun r => decide (minE < r.energy)
  policy : ∃ o obj before, (surfOwnership objs)[k]? = some o ∧ objs[o]? = some obj ∧
    (surfsUntilObj objs)[o]? = some before ∧
    c.own = (obj.own c.outg (k - before)).map (fun x => if x then some o else none) ∧
    c.relev = Np.scatter ((surfOwnership objs).map (· == o)) (obj.next c.outg (k - before))
      (List.replicate (surfOwnership objs).length (List.replicate c.outg.length true))

theorem strong_eq (minE : K) (rec : Bundle K E) :
    (let weak := rec.map fun r => decide (r.energy ≤ minE)
     if weak.any id then Np.delete rec (Np.nonzero weak) else rec) =
      rec.filter fun r => decide (minE < r.energy) := by
  simp only
  have hfun : (fun r : Ray K E => decide (minE < r.energy)) = fun r => ! decide (r.energy ≤ minE) := by
    funext r
    simp [← not_le]
  split
  · rw [Np.delete_nonzero (by simp), List.map_map]
    rw [hfun, ← Np.mask_map_self]
    rfl
  · rename_i h
    symm
    rw [List.filter_eq_self]
    intro r hr
    simp only [List.any_map, Bool.not_eq_true, List.any_eq_false] at h
    have := h r hr
    simpa using this

theorem contribute_ok {objs : List (Obj σ K E)} {minE : K} {b : Bundle K E} {w w' : σ} {k : Nat}
    {s : Surf σ K E} {front owned : List Bool} {c : Contribution K E}
    (hl : owned.length = b.length)
    (h : contribute objs minE b w k s front owned = .ok (c, w')) :
    ContribFacts objs minE b w k s front owned c w' := by
  unfold contribute at h
  simp only [inRays_eq hl] at h
  split at h
  · simp at h
  · rename_i raw w1 hraw
    split at h
    · simp at h
    · rename_i rec hrec
      have hstrong := strong_eq minE rec
      simp only at hstrong
      rw [hstrong] at h
      split at h
      · simp at h
      · rename_i o ho
        split at h
        · rename_i before obj hb hobj
          simp only [Except.ok.injEq, Prod.mk.injEq] at h
          obtain ⟨rfl, rfl⟩ := h
          exact ⟨⟨raw, hraw, hrec⟩, rfl, rfl, o, obj, before, ho, hobj, hb, rfl, rfl⟩
        · simp at h

theorem contribute_exists {objs : List (Obj σ K E)} {minE : K} {b : Bundle K E} {w w' : σ} {k : Nat}
    {s : Surf σ K E} {front owned : List Bool} {raw : Bundle K E}
    (hl : owned.length = b.length) (hf : front.length = b.length)
    (hk : k < (objs.flatMap Obj.surfs).length)
    (hraw : s.outgoing w (Np.mask owned b) (Np.nonzero (Np.mask owned front)) = .ok (raw, w'))
    (hp : ∀ r ∈ raw, r.parent ∈ Np.nonzero (Np.mask owned front)) :
    ∃ c, contribute objs minE b w k s front owned = .ok (c, w') := by
  obtain ⟨rec, hrec⟩ := fixParents_exists (owned := owned) (raw := raw) (by
    intro r hr
    obtain ⟨j, hj, _⟩ := (Np.mem_mask_iff (hl.trans hf.symm)).1 (hp r hr)
    exact (List.getElem?_eq_some_iff.1 hj).1)
  obtain ⟨o, ho⟩ := surfOwnership_some hk
  obtain ⟨obj, before, h1, h2, _⟩ := numbering ho
  unfold contribute
  simp only [inRays_eq hl, hraw, hrec, ho, h1, h2]
  exact ⟨_, rfl⟩

/-- Every contribution of the loop comes from one hit surface. -/
theorem surfLoop_mem {objs : List (Obj σ K E)} {minE : K} {b : Bundle K E}
    {surfs : List (Surf σ K E)} {fronts owneds : List (List Bool)} {w w' : σ} {k : Nat}
    {cs : List (Contribution K E)}
    (h : surfLoop objs minE b w k surfs fronts owneds = .ok (cs, w')) :
    ∀ c ∈ cs, ∃ (j : Nat) (s : Surf σ K E) (front owned : List Bool) (w1 w2 : σ),
      surfs[j]? = some s ∧ fronts[j]? = some front ∧ owneds[j]? = some owned ∧
      (Np.mask owned front).any id = true ∧
      contribute objs minE b w1 (k + j) s front owned = .ok (c, w2) := by
  induction surfs generalizing fronts owneds w k cs with
  | nil =>
    unfold surfLoop at h
    simp only [Except.ok.injEq, Prod.mk.injEq] at h
    simp [← h.1]
  | cons s surfs ih =>
    cases fronts with
    | nil =>
      unfold surfLoop at h
      simp only [Except.ok.injEq, Prod.mk.injEq] at h
      simp [← h.1]
    | cons front fronts =>
      cases owneds with
      | nil =>
        unfold surfLoop at h
        simp only [Except.ok.injEq, Prod.mk.injEq] at h
        simp [← h.1]
      | cons owned owneds =>
        rw [surfLoop] at h
        split at h
        · rename_i hany
          split at h
          · simp at h
          · rename_i c w1 hc
            split at h
            · simp at h
            · rename_i cs' w2 hcs
              simp only [Except.ok.injEq, Prod.mk.injEq] at h
              obtain ⟨rfl, rfl⟩ := h
              intro c' hc'
              rcases List.mem_cons.1 hc' with rfl | hc'
              · exact ⟨0, s, front, owned, w, w1, by simp, by simp, by simp, hany, hc⟩
              · obtain ⟨j, s', f', o', wa, wb, h1, h2, h3, h4, h5⟩ := ih hcs c' hc'
                exact ⟨j+1, s', f', o', wa, wb, by simpa, by simpa, by simpa, h4,
                  by rw [show k + (j+1) = k + 1 + j by omega]; exact h5⟩
        · intro c' hc'
          obtain ⟨j, s', f', o', wa, wb, h1, h2, h3, h4, h5⟩ := ih h c' hc'
          exact ⟨j+1, s', f', o', wa, wb, by simpa, by simpa, by simpa, h4,
            by rw [show k + (j+1) = k + 1 + j by omega]; exact h5⟩

/-- Every hit surface has a contribution. -/
theorem surfLoop_hit {objs : List (Obj σ K E)} {minE : K} {b : Bundle K E}
    {surfs : List (Surf σ K E)} {fronts owneds : List (List Bool)} {w w' : σ} {k : Nat}
    {cs : List (Contribution K E)}
    (h : surfLoop objs minE b w k surfs fronts owneds = .ok (cs, w'))
    {j : Nat} {s : Surf σ K E} {front owned : List Bool}
    (h1 : surfs[j]? = some s) (h2 : fronts[j]? = some front) (h3 : owneds[j]? = some owned)
    (h4 : (Np.mask owned front).any id = true) :
    ∃ c ∈ cs, ∃ w1 w2, contribute objs minE b w1 (k + j) s front owned = .ok (c, w2) := by
  induction surfs generalizing fronts owneds w k cs j with
  | nil => simp at h1
  | cons s0 surfs ih =>
    cases fronts with
    | nil => simp at h2
    | cons front0 fronts =>
      cases owneds with
      | nil => simp at h3
      | cons owned0 owneds =>
        rw [surfLoop] at h
        split at h
        · rename_i hany
          split at h
          · simp at h
          · rename_i c w1 hc
            split at h
            · simp at h
            · rename_i cs' w2 hcs
              simp only [Except.ok.injEq, Prod.mk.injEq] at h
              obtain ⟨rfl, rfl⟩ := h
              cases j with
              | zero =>
                simp at h1 h2 h3
                subst h1; subst h2; subst h3
                exact ⟨c, by simp, w, w1, hc⟩
              | succ j =>
                simp at h1 h2 h3
                obtain ⟨c', hc', wa, wb, h5⟩ := ih hcs h1 h2 h3
                exact ⟨c', List.mem_cons_of_mem _ hc', wa, wb,
                  by rw [show k + (j+1) = k + 1 + j by omega]; exact h5⟩
        · rename_i hany
          cases j with
          | zero =>
            simp at h1 h2 h3
            subst h1; subst h2; subst h3
            exact absurd h4 hany
          | succ j =>
            simp at h1 h2 h3
            obtain ⟨c', hc', wa, wb, h5⟩ := ih h h1 h2 h3
            exact ⟨c', hc', wa, wb,
              by rw [show k + (j+1) = k + 1 + j by omega]; exact h5⟩

/-- The facts about one iteration. -/
structure IterFacts (objs : List (Obj σ K E)) (surfs : List (Surf σ K E)) (minE : K)
    (st st' : TraceState σ K E) (gen rec : Bundle K E) : Prop where
  ex : ∃ front owned cs, intersectRay st.bund surfs (surfOwnership objs) st.rayOwn st.relev
      = .ok (front, owned) ∧
    surfLoop objs minE st.bund st.world 0 surfs front owned = .ok (cs, st'.world) ∧
    gen = cs.flatMap Contribution.record ∧
    st'.bund = cs.flatMap Contribution.outg ∧
    st'.rayOwn = cs.flatMap Contribution.own ∧
    st'.relev = Np.hstackRows surfs.length (cs.map Contribution.relev) ∧
    (∀ c ∈ cs, ∃ (j : Nat) (s : Surf σ K E) (front_j owned_j : List Bool) (w1 w2 : σ),
      surfs[j]? = some s ∧ front[j]? = some front_j ∧ owned[j]? = some owned_j ∧
      (Np.mask owned_j front_j).any id = true ∧
      ContribFacts objs minE st.bund w1 j s front_j owned_j c w2)
  strong : st'.bund = gen.filter fun r => decide (minE < r.energy)
  recorded : rec = st'.bund ++ gen.filter fun r => decide (r.energy ≤ minE)

theorem flatMap_filter_eq {α β : Type _} (cs : List α) (f g : α → List β) (p : β → Bool)
    (h : ∀ c ∈ cs, g c = (f c).filter p) : cs.flatMap g = (cs.flatMap f).filter p := by
  induction cs with
  | nil => simp
  | cons c cs ih =>
    simp only [List.flatMap_cons, List.filter_append]
    rw [h c (by simp), ih (fun c' hc' => h c' (List.mem_cons_of_mem _ hc'))]

theorem flatMap_map_eq {α β γ : Type _} (cs : List α) (f : α → List β) (g : α → List γ) (p : β → γ)
    (h : ∀ c ∈ cs, g c = (f c).map p) : cs.flatMap g = (cs.flatMap f).map p := by
  induction cs with
  | nil => simp
  | cons c cs ih =>
    simp only [List.flatMap_cons, List.map_append]
    rw [h c (by simp), ih (fun c' hc' => h c' (List.mem_cons_of_mem _ hc'))]

theorem iterate_ok {objs : List (Obj σ K E)} {surfs : List (Surf σ K E)} {minE : K}
    {st st' : TraceState σ K E} {gen rec : Bundle K E}
    (hs : IShape st.bund.length surfs (surfOwnership objs) st.rayOwn st.relev)
    (h : iterate objs surfs minE st = .ok (st', gen, rec)) :
    IterFacts objs surfs minE st st' gen rec := by
  unfold iterate at h
  split at h
  · simp at h
  · rename_i front owned hint
    split at h
    · simp at h
    · rename_i cs w hcs
      simp only at h
      have hfacts : ∀ c ∈ cs, ∃ (j : Nat) (s : Surf σ K E) (front_j owned_j : List Bool) (w1 w2 : σ),
          surfs[j]? = some s ∧ front[j]? = some front_j ∧ owned[j]? = some owned_j ∧
          (Np.mask owned_j front_j).any id = true ∧
          ContribFacts objs minE st.bund w1 j s front_j owned_j c w2 := by
        intro c hc
        obtain ⟨j, s, f, o, w1, w2, h1, h2, h3, h4, h5⟩ := surfLoop_mem hcs c hc
        have hol : o.length = st.bund.length := by
          have := (intersectRay_ok hint).1
          subst this
          exact owned_row_length hs h3
        rw [Nat.zero_add] at h5
        exact ⟨j, s, f, o, w1, w2, h1, h2, h3, h4, contribute_ok hol h5⟩
      have hweak : cs.flatMap Contribution.weak =
          (cs.flatMap Contribution.record).map fun r => decide (r.energy ≤ minE) :=
        flatMap_map_eq _ _ _ _ (fun c hc => by
          obtain ⟨_, _, _, _, _, _, _, _, _, _, hf⟩ := hfacts c hc
          exact hf.weak)
      rw [hweak, Np.take_nonzero (by simp), Np.mask_map_self] at h
      simp only [Except.ok.injEq, Prod.mk.injEq] at h
      obtain ⟨rfl, rfl, rfl⟩ := h
      refine ⟨⟨front, owned, cs, hint, hcs, rfl, rfl, rfl, rfl, hfacts⟩, ?_, rfl⟩
      exact flatMap_filter_eq _ _ _ _ (fun c hc => by
          obtain ⟨_, _, _, _, _, _, _, _, _, _, hf⟩ := hfacts c hc
          exact hf.outg)

end
end Tracer
