import Verif.Lemmas.Level
import Mathlib.Algebra.Order.BigOperators.Group.List
import Mathlib.Algebra.BigOperators.Group.List.Basic
import Mathlib.Tactic.Linarith

/-! Energy bookkeeping of one iteration. -/

set_option linter.unusedSectionVars false
set_option linter.unusedSimpArgs false

namespace Tracer

variable {K E σ : Type _} [Field K] [LinearOrder K] [IsStrictOrderedRing K]

/-- Total energy of the rays of a bundle that name `j` as their parent. -/
def childEnergy (j : Nat) (l : Bundle K E) : K :=
  ((l.filter fun r => r.parent == j).map Ray.energy).sum

theorem childEnergy_append (j : Nat) (l l' : Bundle K E) :
    childEnergy j (l ++ l') = childEnergy j l + childEnergy j l' := by
  simp [childEnergy]

theorem childEnergy_perm (j : Nat) {l l' : Bundle K E} (h : l.Perm l') :
    childEnergy j l = childEnergy j l' := ((h.filter _).map _).sum_eq

theorem fixParents_cons {owned : List Bool} {r : Ray K E} {raw rec : Bundle K E}
    (h : fixParents owned (r :: raw) = .ok rec) :
    ∃ q rec', (Np.nonzero owned)[r.parent]? = some q ∧ fixParents owned raw = .ok rec' ∧
      rec = { r with parent := q } :: rec' := by
  unfold fixParents at h
  split at h
  · simp at h
  · rename_i ps hps
    simp only [Except.ok.injEq] at h
    simp only [List.map_cons, Np.take] at hps
    split at hps
    · simp at hps
    · rename_i q hq
      split at hps
      · simp at hps
      · rename_i ps' hps'
        simp only [Except.ok.injEq] at hps
        subst hps
        refine ⟨q, List.zipWith (fun r p => { r with parent := p }) raw ps', hq, ?_, ?_⟩
        · unfold fixParents
          rw [hps']
        · rw [← h]
          rfl

theorem fixParents_energy {owned : List Bool} {raw rec : Bundle K E}
    (h : fixParents owned raw = .ok rec) {i j : Nat} (hij : (Np.nonzero owned)[i]? = some j) :
    childEnergy j rec = childEnergy i raw := by
  induction raw generalizing rec with
  | nil =>
    have := (fixParents_ok h).1
    have : rec = [] := by simpa using this
    subst this
    rfl
  | cons r raw ih =>
    obtain ⟨q, rec', h1, h2, rfl⟩ := fixParents_cons h
    have ih' := ih h2
    unfold childEnergy at ih' ⊢
    by_cases hri : r.parent = i
    · have hqj : q = j := by
        rw [hri, hij] at h1
        simpa using h1.symm
      simp [hri, hqj, ih']
    · have hqj : q ≠ j := by
        rintro rfl
        apply hri
        exact (List.getElem?_inj (List.getElem?_eq_some_iff.1 h1).1 (Np.nonzero_nodup owned)).1
          (h1.trans hij.symm)
      simp [hri, hqj, ih']

theorem fixParents_energy_none {owned : List Bool} {raw rec : Bundle K E}
    (h : fixParents owned raw = .ok rec) {j : Nat} (hj : j ∉ Np.nonzero owned) :
    childEnergy j rec = 0 := by
  unfold childEnergy
  have : (rec.filter fun r => r.parent == j) = [] := by
    rw [List.filter_eq_nil_iff]
    intro r hr hrj
    obtain ⟨r0, _, hq, _⟩ := fixParents_mem h hr
    have := List.mem_of_getElem? hq
    rw [show r.parent = j by simpa using hrj] at this
    exact hj this
  simp [this]

/-- Energy of the children of ray `j` made by one surface. -/
theorem contrib_energy {objs : List (Obj σ K E)} {minE : K} {b : Bundle K E} {w w' : σ} {k : Nat}
    {s : Surf σ K E} {front owned : List Bool} {c : Contribution K E}
    (hol : owned.length = b.length) (hfl : front.length = b.length)
    (hcf : ContribFacts objs minE b w k s front owned c w')
    (hpar : s.ParentsOk) {Q : Ray K E → Prop} (hen : s.EnergyOn Q) (hpos : ∀ r ∈ b, 0 ≤ r.energy ∧ Q r)
    {j : Nat} {p : Ray K E} (hj : b[j]? = some p) :
    (∀ r ∈ c.record, 0 ≤ r.energy) ∧
    childEnergy j c.record ≤ if front[j]? = some true then p.energy else 0 := by
  obtain ⟨raw, hraw, hfix⟩ := hcf.raw
  have hposm : ∀ r ∈ Np.mask owned b, 0 ≤ r.energy ∧ Q r := by
    intro r hr
    apply hpos
    rw [Np.mask_eq_filterMap _ _ hol] at hr
    obtain ⟨i, _, hi⟩ := List.mem_filterMap.1 hr
    exact List.mem_of_getElem? hi
  have he := hen _ _ _ _ _ (Np.nonzero_nodup _) hposm hraw
  refine ⟨?_, ?_⟩
  · intro r hr
    obtain ⟨r0, hr0, _, hre⟩ := fixParents_mem hfix hr
    rw [hre]
    exact he.1 r0 hr0
  · by_cases hjo : j ∈ Np.nonzero owned
    · obtain ⟨i, hi⟩ := List.getElem?_of_mem hjo
      rw [fixParents_energy hfix hi]
      split
      · apply he.2 i p
        rw [Np.mask_getElem? hol, hi]
        simpa using hj
      · rename_i hnf
        have hnil : (raw.filter fun r => r.parent == i) = [] := by
          rw [List.filter_eq_nil_iff]
          intro r hr hri
          have := hpar _ _ _ _ _ hraw r hr
          rw [show r.parent = i by simpa using hri] at this
          obtain ⟨j', hj', hfj⟩ := (Np.mem_mask_iff (hol.trans hfl.symm)).1 this
          rw [hi] at hj'
          cases hj'
          exact hnf hfj
        unfold childEnergy
        rw [hnil]
        simp
    · rw [fixParents_energy_none hfix hjo]
      split
      · exact (hpos p (List.mem_of_getElem? hj)).1
      · exact le_rfl

theorem surfLoop_energy {objs : List (Obj σ K E)} {minE : K} {b : Bundle K E}
    {surfs : List (Surf σ K E)} {fronts owneds : List (List Bool)} {w w' : σ} {k : Nat}
    {cs : List (Contribution K E)}
    (h : surfLoop objs minE b w k surfs fronts owneds = .ok (cs, w'))
    (hol : ∀ o ∈ owneds, o.length = b.length) (hfl : ∀ f ∈ fronts, f.length = b.length)
    (hpar : ∀ s ∈ surfs, s.ParentsOk) {Q : Ray K E → Prop} (hen : ∀ s ∈ surfs, s.EnergyOn Q)
    (hpos : ∀ r ∈ b, 0 ≤ r.energy ∧ Q r)
    {j : Nat} {p : Ray K E} (hj : b[j]? = some p) :
    (∀ r ∈ cs.flatMap Contribution.record, 0 ≤ r.energy) ∧
    childEnergy j (cs.flatMap Contribution.record) ≤
      (fronts.countP fun f => decide (f[j]? = some true) : Nat) * p.energy := by
  have hp0 : 0 ≤ p.energy := (hpos p (List.mem_of_getElem? hj)).1
  have triv : ∀ (fronts : List (List Bool)), childEnergy j ([] : Bundle K E) ≤
      ((fronts.countP fun f => decide (f[j]? = some true) : Nat) : K) * p.energy := by
    intro fronts
    simp only [childEnergy, List.filter_nil, List.map_nil, List.sum_nil]
    positivity
  induction surfs generalizing fronts owneds w k cs with
  | nil =>
    unfold surfLoop at h
    simp only [Except.ok.injEq, Prod.mk.injEq] at h
    rw [← h.1]
    exact ⟨by simp, triv _⟩
  | cons s surfs ih =>
    cases fronts with
    | nil =>
      unfold surfLoop at h
      simp only [Except.ok.injEq, Prod.mk.injEq] at h
      rw [← h.1]
      exact ⟨by simp, triv _⟩
    | cons f fronts =>
      cases owneds with
      | nil =>
        unfold surfLoop at h
        simp only [Except.ok.injEq, Prod.mk.injEq] at h
        rw [← h.1]
        exact ⟨by simp, triv _⟩
      | cons o owneds =>
        unfold surfLoop at h
        have ih' := fun {w k cs} (h : surfLoop objs minE b w k surfs fronts owneds = .ok (cs, w')) =>
          ih h (fun o ho => hol o (List.mem_cons_of_mem _ ho)) (fun f hf => hfl f (List.mem_cons_of_mem _ hf))
            (fun s hs => hpar s (List.mem_cons_of_mem _ hs)) (fun s hs => hen s (List.mem_cons_of_mem _ hs))
        rw [List.countP_cons]
        split at h
        · split at h
          · simp at h
          · rename_i c w1 hc
            split at h
            · simp at h
            · rename_i cs' w2 hcs
              simp only [Except.ok.injEq, Prod.mk.injEq] at h
              obtain ⟨rfl, rfl⟩ := h
              obtain ⟨i1, i2⟩ := ih' hcs
              obtain ⟨e1, e2⟩ := contrib_energy (hol o (by simp)) (hfl f (by simp))
                (contribute_ok (hol o (by simp)) hc) (hpar s (by simp)) (hen s (by simp)) hpos hj
              refine ⟨?_, ?_⟩
              · intro r hr
                rw [List.flatMap_cons] at hr
                rcases List.mem_append.1 hr with hr | hr
                · exact e1 r hr
                · exact i1 r hr
              · rw [List.flatMap_cons, childEnergy_append]
                by_cases hfj : f[j]? = some true
                · simp only [hfj, if_true, decide_true] at e2 ⊢
                  push_cast
                  linarith
                · simp only [hfj, if_false, decide_false] at e2 ⊢
                  push_cast
                  simp
                  linarith
        · obtain ⟨i1, i2⟩ := ih' h
          refine ⟨i1, i2.trans ?_⟩
          gcongr
          omega

/-- Energies of the rays generated in an iteration: non-negative, and for each incoming ray at most
its energy times the number of surfaces marked for it. -/
theorem iterate_energyOn {objs : List (Obj σ K E)} {minE : K}
    {st st' : TraceState σ K E} {gen rec : Bundle K E} (hs : st.Shape objs)
    (hpar : AllSurfs Surf.ParentsOk objs) {Q : Ray K E → Prop} (hen : AllSurfs (Surf.EnergyOn Q) objs)
    (hpos : ∀ r ∈ st.bund, 0 ≤ r.energy ∧ Q r)
    (h : iterate objs (objs.flatMap Obj.surfs) minE st = .ok (st', gen, rec)) :
    ∃ front owned, intersectRay st.bund (objs.flatMap Obj.surfs) (surfOwnership objs) st.rayOwn st.relev
        = .ok (front, owned) ∧
      (st.bund ≠ [] → ∀ r ∈ gen, 0 ≤ r.energy) ∧
      ∀ (j : Nat) p, st.bund[j]? = some p → childEnergy j gen ≤
        (front.countP fun f => decide (f[j]? = some true) : Nat) * p.energy := by
  obtain ⟨⟨front, owned, cs, hint, hcs, hgen, _, _, _, hf⟩, _, _⟩ := iterate_ok hs h
  obtain ⟨hO, hF⟩ := intersectRay_ok hint
  have hol : ∀ o ∈ owned, o.length = st.bund.length := by
    intro o ho
    obtain ⟨k, hk⟩ := List.getElem?_of_mem ho
    rw [hO] at hk
    exact owned_row_length hs hk
  have hfl : ∀ f ∈ front, f.length = st.bund.length := by
    intro f hf
    exact frontMask_row_length (dropSelfHits_row_length (fun row hr => rawStack_row_length hr)) f
      (hF ▸ hf)
  have key := fun {j p} (hj : st.bund[j]? = some p) => surfLoop_energy hcs hol hfl
    (fun s hs => mem_allSurfs hpar hs) (fun s hs => mem_allSurfs hen hs) hpos hj
  refine ⟨front, owned, hint, ?_, ?_⟩
  · intro hne
    obtain ⟨p, l, hb⟩ := List.exists_cons_of_ne_nil hne
    rw [hgen]
    exact (key (j := 0) (p := p) (by simp [hb])).1
  · intro j p hj
    rw [hgen]
    exact (key hj).2

theorem Surf.EnergyOk.on {s : Surf σ K E} (h : s.EnergyOk) (Q : Ray K E → Prop) : s.EnergyOn Q :=
  fun w rays sel out w' hnd hpos ho => h w rays sel out w' hnd (fun p hp => (hpos p hp).1) ho

theorem iterate_energy {objs : List (Obj σ K E)} {minE : K}
    {st st' : TraceState σ K E} {gen rec : Bundle K E} (hs : st.Shape objs)
    (hpar : AllSurfs Surf.ParentsOk objs) (hen : AllSurfs Surf.EnergyOk objs)
    (hpos : ∀ r ∈ st.bund, 0 ≤ r.energy)
    (h : iterate objs (objs.flatMap Obj.surfs) minE st = .ok (st', gen, rec)) :
    ∃ front owned, intersectRay st.bund (objs.flatMap Obj.surfs) (surfOwnership objs) st.rayOwn st.relev
        = .ok (front, owned) ∧
      (st.bund ≠ [] → ∀ r ∈ gen, 0 ≤ r.energy) ∧
      ∀ (j : Nat) p, st.bund[j]? = some p → childEnergy j gen ≤
        (front.countP fun f => decide (f[j]? = some true) : Nat) * p.energy :=
  iterate_energyOn hs hpar (Q := fun _ => True) (fun o ho s hs => (hen o ho s hs).on _)
    (fun r hr => ⟨hpos r hr, trivial⟩) h

/-- The total energy is the sum over the parents. -/
theorem total_eq_sum_children (gen : Bundle K E) (n : Nat) (h : ∀ r ∈ gen, r.parent < n) :
    (gen.map Ray.energy).sum = ((List.range n).map fun j => childEnergy j gen).sum := by
  induction gen with
  | nil => simp [childEnergy]
  | cons r gen ih =>
    have ih' := ih (fun q hq => h q (List.mem_cons_of_mem _ hq))
    have hstep : ∀ j, childEnergy j (r :: gen) = (if j = r.parent then r.energy else 0) + childEnergy j gen := by
      intro j
      unfold childEnergy
      by_cases hj : r.parent = j
      · simp [hj]
      · simp [hj, Ne.symm hj]
    simp only [hstep, List.map_cons, List.sum_cons, ih']
    have hone : ∀ n, r.parent < n → ((List.range n).map fun j => if j = r.parent then r.energy else (0 : K)).sum = r.energy := by
      intro n
      induction n with
      | zero => omega
      | succ n ihn =>
        intro hn
        rw [List.range_succ, List.map_append, List.sum_append]
        simp only [List.map_cons, List.map_nil, List.sum_cons, List.sum_nil, add_zero]
        by_cases hp : r.parent < n
        · rw [ihn hp, if_neg (by omega), add_zero]
        · have : n = r.parent := by omega
          rw [if_pos this]
          have hz : ((List.range n).map fun j => if j = r.parent then r.energy else (0 : K)).sum = 0 := by
            apply List.sum_eq_zero
            intro x hx
            obtain ⟨j, hj, rfl⟩ := List.mem_map.1 hx
            rw [if_neg]
            have := List.mem_range.1 hj
            omega
          rw [hz, zero_add]
    rw [List.sum_map_add, hone n (h r (by simp))]

end Tracer
