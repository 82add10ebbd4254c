import Verif.Lemmas.Going
import Verif.Lemmas.Resume
import Verif.Spec.Saving

/-! Helper lemmas about policies that only save work. -/

set_option linter.unusedSectionVars false
set_option linter.unusedSimpArgs false

namespace Tracer

variable {K E σ : Type _}

/-! ### Masks -/

theorem nonzero_through {owned front : List Bool} (hl : owned.length = front.length)
    (h : ∀ j : Nat, front[j]? = some true → owned[j]? = some true) :
    Np.nonzero front = (Np.nonzero (Np.mask owned front)).map fun i => ((Np.nonzero owned)[i]?).getD 0 := by
  induction owned generalizing front with
  | nil =>
    cases front with
    | nil => rfl
    | cons x front => simp at hl
  | cons o owned ih =>
    cases front with
    | nil => simp at hl
    | cons x front =>
      have hl' : owned.length = front.length := by simpa using hl
      have ih' := ih hl' (fun j hj => by simpa using h (j + 1) (by simpa using hj))
      have hlt : ∀ i ∈ Np.nonzero (Np.mask owned front), i < (Np.nonzero owned).length := by
        intro i hi
        obtain ⟨j, hj, _⟩ := (Np.mem_mask_iff hl').1 hi
        exact (List.getElem?_eq_some_iff.1 hj).1
      cases o
      · have hx : x = false := by
          cases x
          · rfl
          · simpa using h 0 rfl
        subst hx
        simp only [Np.mask, Np.nonzero_false]
        rw [ih', List.map_map]
        refine List.map_congr_left fun i hi => ?_
        simp [List.getElem?_eq_getElem (hlt i hi)]
      · have key : (Np.nonzero front).map (· + 1) =
            ((Np.nonzero (Np.mask owned front)).map (· + 1)).map
              fun i => ((0 :: (Np.nonzero owned).map (· + 1))[i]?).getD 0 := by
          conv_lhs => rw [ih']
          rw [List.map_map, List.map_map]
          refine List.map_congr_left fun i hi => ?_
          simp [List.getElem?_eq_getElem (hlt i hi)]
        cases x
        · simp only [Np.mask, Np.nonzero_false, Np.nonzero_true]
          exact key
        · simp only [Np.mask, Np.nonzero_true, List.map_cons]
          rw [← key]
          simp

theorem nonzero_full (n : Nat) : Np.nonzero (List.replicate n true) = List.range n := by
  induction n with
  | zero => rfl
  | succ n ih => rw [List.replicate_succ, Np.nonzero_true, ih, List.range_succ_eq_map]

theorem mask_full {α : Type _} {l : List α} {n : Nat} (h : n = l.length) : Np.mask (List.replicate n true) l = l :=
  Np.mask_all_true (by simpa using h) (by simp)

theorem marked_ext {m m' : List (List Bool)} {n : Nat} (hl : m.length = m'.length) (h : ∀ r ∈ m, r.length = n)
    (h' : ∀ r ∈ m', r.length = n) (he : ∀ k j, Marked m k j ↔ Marked m' k j) : m = m' := by
  refine List.ext_getElem hl fun k h1 h2 => ?_
  have e1 := h _ (List.getElem_mem h1)
  have e2 := h' _ (List.getElem_mem h2)
  refine List.ext_getElem (e1.trans e2.symm) fun j h3 h4 => ?_
  have := he k j
  simp only [Marked, List.getElem?_eq_getElem h1, List.getElem?_eq_getElem h2, Option.some.injEq, exists_eq_left',
    List.getElem?_eq_getElem h3, List.getElem?_eq_getElem h4] at this
  exact Bool.eq_iff_iff.2 this

section
variable [Field K] [LinearOrder K] [IsStrictOrderedRing K]

theorem fixParents_eq {owned : List Bool} {raw : Bundle K E} (h : ∀ r ∈ raw, r.parent < (Np.nonzero owned).length) :
    fixParents owned raw = .ok (raw.map fun r => { r with parent := ((Np.nonzero owned)[r.parent]?).getD 0 }) := by
  obtain ⟨rec, hrec⟩ := fixParents_exists h
  obtain ⟨hl, hi⟩ := fixParents_ok hrec
  rw [hrec]
  congr 1
  refine List.ext_getElem? fun i => ?_
  cases hr : raw[i]? with
  | none =>
    rw [List.getElem?_eq_none_iff] at hr
    rw [List.getElem?_eq_none_iff.2 (by omega), List.getElem?_eq_none_iff.2 (by simpa using hr)]
  | some r =>
    obtain ⟨q, hq, hrec'⟩ := hi i r hr
    rw [hrec', List.getElem?_map, hr]
    simp [hq]

/-! ### One surface, asked about all rays -/

/-- The same rays come out, only the policies' answers may differ. -/
def Contribution.Same (c c' : Contribution K E) : Prop := c'.outg = c.outg ∧ c'.record = c.record ∧ c'.weak = c.weak

theorem asked_perObj (objs : List (Obj σ K E)) : surfsPerObj (objs.map Obj.asked) = surfsPerObj objs := by
  simp [surfsPerObj, Obj.asked, Function.comp_def]

theorem asked_ownership (objs : List (Obj σ K E)) : surfOwnership (objs.map Obj.asked) = surfOwnership objs := by
  rw [surfOwnership, asked_perObj, surfOwnership]

theorem asked_until (objs : List (Obj σ K E)) : surfsUntilObj (objs.map Obj.asked) = surfsUntilObj objs := by
  unfold surfsUntilObj
  rw [asked_perObj]

theorem asked_surfs (objs : List (Obj σ K E)) : (objs.map Obj.asked).flatMap Obj.surfs = objs.flatMap Obj.surfs := by
  rw [List.flatMap_map]
  rfl

theorem asked_default (objs : List (Obj σ K E)) : ∀ o ∈ objs.map Obj.asked, o.Default := by
  intro o ho
  obtain ⟨o', _, rfl⟩ := List.mem_map.1 ho
  exact ⟨rfl, rfl⟩

theorem contribute_asked {objs : List (Obj σ K E)} {minE : K} {b : Bundle K E} {w : σ} {k : Nat} {s : Surf σ K E}
    {front owned : List Bool} (hs : s.NumberBlind) (hp : s.ParentsOk) (hl : owned.length = b.length) (hf : front.length = b.length)
    (h : ∀ j : Nat, front[j]? = some true → owned[j]? = some true) :
    (∃ e, contribute objs minE b w k s front owned = .error e ∧
      contribute (objs.map Obj.asked) minE b w k s front (List.replicate b.length true) = .error e) ∨
    ∃ c c' w', contribute objs minE b w k s front owned = .ok (c, w') ∧
      contribute (objs.map Obj.asked) minE b w k s front (List.replicate b.length true) = .ok (c', w') ∧ c.Same c' := by
  unfold contribute
  have e1 : (if (List.replicate b.length true).any (! ·) then Np.mask (List.replicate b.length true) b else b) = b := by
    rw [inRays_eq (by simp), mask_full rfl]
  have e2 : Np.mask (List.replicate b.length true) front = front := mask_full hf.symm
  simp only [inRays_eq hl, e1, e2]
  have hlt : ∀ i ∈ Np.nonzero (Np.mask owned front), i < (Np.nonzero owned).length := by
    intro i hi
    obtain ⟨j, hj, _⟩ := (Np.mem_mask_iff (hl.trans hf.symm)).1 hi
    exact (List.getElem?_eq_some_iff.1 hj).1
  have hout : s.outgoing w b (Np.nonzero front) =
      (s.outgoing w (Np.mask owned b) (Np.nonzero (Np.mask owned front))).map fun x =>
        (x.1.map fun r => { r with parent := ((Np.nonzero owned)[r.parent]?).getD 0 }, x.2) := by
    rw [nonzero_through (hl.trans hf.symm) h]
    refine hs w b (Np.mask owned b) _ _ fun i hi => ?_
    rw [Np.mask_getElem? hl, List.getElem?_eq_getElem (hlt i hi)]
    rfl
  rw [hout]
  cases ho : s.outgoing w (Np.mask owned b) (Np.nonzero (Np.mask owned front)) with
  | error e => exact Or.inl ⟨e, rfl, rfl⟩
  | ok x =>
    obtain ⟨raw, w'⟩ := x
    simp only [Except.map]
    have hpar : ∀ r ∈ raw, r.parent < (Np.nonzero owned).length := fun r hr => hlt _ (hp _ _ _ _ _ ho r hr)
    rw [fixParents_eq hpar]
    have hpar2 : ∀ r ∈ (raw.map fun r => { r with parent := ((Np.nonzero owned)[r.parent]?).getD 0 }),
        r.parent < (Np.nonzero (List.replicate b.length true)).length := by
      intro r hr
      obtain ⟨r0, hr0, rfl⟩ := List.mem_map.1 hr
      have h1 := hpar r0 hr0
      have h2 := Np.mem_nonzero.1 (List.getElem_mem h1)
      simp only [List.getElem?_eq_getElem h1, Option.getD_some, nonzero_full, List.length_range]
      have := (List.getElem?_eq_some_iff.1 h2).1
      omega
    rw [fixParents_eq hpar2]
    have hsame : ((raw.map fun r => { r with parent := ((Np.nonzero owned)[r.parent]?).getD 0 }).map
        fun r => { r with parent := ((Np.nonzero (List.replicate b.length true))[r.parent]?).getD 0 }) =
        raw.map fun r => { r with parent := ((Np.nonzero owned)[r.parent]?).getD 0 } := by
      refine (List.map_congr_left (g := id) fun r hr => ?_).trans (List.map_id _)
      have := hpar2 r hr
      rw [nonzero_full, List.length_range] at this
      simp [nonzero_full, this]
    rw [hsame, asked_ownership, asked_until]
    simp only
    cases h1 : (surfOwnership objs)[k]? with
    | none => exact Or.inl ⟨_, rfl, rfl⟩
    | some o =>
      simp only [List.getElem?_map]
      cases h2 : (surfsUntilObj objs)[o]? with
      | none => exact Or.inl ⟨_, rfl, by simp⟩
      | some before =>
        cases h3 : objs[o]? with
        | none => exact Or.inl ⟨_, rfl, rfl⟩
        | some obj => exact Or.inr ⟨_, _, _, rfl, rfl, rfl, rfl, rfl⟩

theorem surfLoop_asked {objs : List (Obj σ K E)} {minE : K} {b : Bundle K E} {surfs : List (Surf σ K E)}
    (hs : ∀ s ∈ surfs, s.NumberBlind ∧ s.ParentsOk) {fronts owneds : List (List Bool)} {w : σ} {k : Nat}
    (hlen : owneds.length = fronts.length)
    (hol : ∀ o ∈ owneds, o.length = b.length) (hfl : ∀ f ∈ fronts, f.length = b.length)
    (h : ∀ i j, Marked fronts i j → Marked owneds i j) :
    (∃ e, surfLoop objs minE b w k surfs fronts owneds = .error e ∧
      surfLoop (objs.map Obj.asked) minE b w k surfs fronts (List.replicate owneds.length (List.replicate b.length true)) = .error e) ∨
    ∃ cs cs' w', surfLoop objs minE b w k surfs fronts owneds = .ok (cs, w') ∧
      surfLoop (objs.map Obj.asked) minE b w k surfs fronts (List.replicate owneds.length (List.replicate b.length true)) =
        .ok (cs', w') ∧ List.Forall₂ Contribution.Same cs cs' := by
  induction surfs generalizing fronts owneds w k with
  | nil => exact Or.inr ⟨[], [], w, by simp [surfLoop], by simp [surfLoop], .nil⟩
  | cons s surfs ih =>
    cases fronts with
    | nil => exact Or.inr ⟨[], [], w, by simp [surfLoop], by simp [surfLoop], .nil⟩
    | cons f fronts =>
      cases owneds with
      | nil => simp at hlen
      | cons o owneds =>
        have hsub : ∀ j : Nat, f[j]? = some true → o[j]? = some true := fun j hj => by
          simpa [Marked] using h 0 j (by simpa [Marked] using hj)
        have hfl0 := hfl f (by simp)
        have hol0 := hol o (by simp)
        have hany : (Np.mask o f).any id = (Np.mask (List.replicate b.length true) f).any id := by
          rw [mask_full hfl0.symm, Bool.eq_iff_iff]
          simp only [List.any_eq_true, id]
          constructor
          · rintro ⟨x, hx, rfl⟩
            obtain ⟨i, hi⟩ := List.getElem?_of_mem hx
            obtain ⟨j, _, hj⟩ := (Np.mem_mask_iff (hol0.trans hfl0.symm)).1 (Np.mem_nonzero.2 hi)
            exact ⟨true, List.mem_of_getElem? hj, rfl⟩
          · rintro ⟨x, hx, rfl⟩
            obtain ⟨j, hj⟩ := List.getElem?_of_mem hx
            obtain ⟨i, hi⟩ := List.getElem?_of_mem (Np.mem_nonzero.2 (hsub j hj))
            exact ⟨true, List.mem_of_getElem? (Np.mem_nonzero.1 ((Np.mem_mask_iff (hol0.trans hfl0.symm)).2 ⟨j, hi, hj⟩)), rfl⟩
        have ih' := fun w k => ih (fun s' hs' => hs s' (List.mem_cons_of_mem _ hs')) (fronts := fronts) (owneds := owneds)
          (w := w) (k := k) (by simpa using hlen) (fun x hx => hol x (List.mem_cons_of_mem _ hx))
          (fun x hx => hfl x (List.mem_cons_of_mem _ hx))
          (fun i j hm => by simpa [Marked] using h (i + 1) j (by simpa [Marked] using hm))
        rw [List.length_cons, List.replicate_succ, surfLoop, surfLoop, ← hany]
        cases hc : (Np.mask o f).any id with
        | false => simpa using ih' w (k + 1)
        | true =>
          simp only [if_true]
          rcases contribute_asked (objs := objs) (minE := minE) (w := w) (k := k) (hs s (by simp)).1 (hs s (by simp)).2 hol0 hfl0 hsub with
            ⟨e, h1, h2⟩ | ⟨c, c', w', h1, h2, h3⟩
          · rw [h1, h2]
            exact Or.inl ⟨e, rfl, rfl⟩
          · rw [h1, h2]
            simp only
            rcases ih' w' (k + 1) with ⟨e, g1, g2⟩ | ⟨cs, cs', w2, g1, g2, g3⟩
            · rw [g1, g2]
              exact Or.inl ⟨e, rfl, rfl⟩
            · rw [g1, g2]
              exact Or.inr ⟨c :: cs, c' :: cs', w2, rfl, rfl, .cons h3 g3⟩

/-! ### One iteration -/

/-- Whatever is not asked would make no difference. -/
def Saves (objs : List (Obj σ K E)) (per : Surf σ K E → Ray K E → WithTop K) (st : TraceState σ K E) : Prop :=
  ∀ (k j : Nat) s r, (objs.flatMap Obj.surfs)[k]? = some s → st.bund[j]? = some r →
    ¬ Tested (surfOwnership objs) st.rayOwn st.relev k j →
      (per s r = ⊤ ∨ 0 ≤ per s r ∧ per s r ≤ ((dropTol : K) : WithTop K)) ∧
      ∃ z ∈ objs.flatMap Obj.surfs, per z r ≤ ((selfTol : K) : WithTop K)

section
variable {objs : List (Obj σ K E)} {per : Surf σ K E → Ray K E → WithTop K} {st : TraceState σ K E}

/-- The arrays with which all surfaces are asked about all rays. -/
theorem full_shape (objs : List (Obj σ K E)) (b : Bundle K E) :
    IShape b.length (objs.flatMap Obj.surfs) (surfOwnership objs) (List.replicate b.length none)
      (List.replicate (objs.flatMap Obj.surfs).length (List.replicate b.length true)) ∧
    AllFree (List.replicate b.length none) (List.replicate (objs.flatMap Obj.surfs).length (List.replicate b.length true)) :=
  match objs with
  | objs => ⟨⟨by simp, surfOwnership_length objs, by simp, fun row hr => by simp [(List.mem_replicate.1 hr).2]⟩,
      ⟨fun o ho => (List.mem_replicate.1 ho).2, fun row hr x hx => by
        rw [(List.mem_replicate.1 hr).2] at hx; exact (List.mem_replicate.1 hx).2⟩⟩

theorem Saves.intersect (hs : st.Shape objs) (hper : ∀ s ∈ objs.flatMap Obj.surfs, s.PerRay (per s)) (hS : Saves objs per st) :
    (∃ e, intersectRay st.bund (objs.flatMap Obj.surfs) (surfOwnership objs) st.rayOwn st.relev = .error e ∧
      intersectRay st.bund (objs.flatMap Obj.surfs) (surfOwnership objs) (List.replicate st.bund.length none)
        (List.replicate (objs.flatMap Obj.surfs).length (List.replicate st.bund.length true)) = .error e) ∨
    ∃ front owned, intersectRay st.bund (objs.flatMap Obj.surfs) (surfOwnership objs) st.rayOwn st.relev = .ok (front, owned) ∧
      intersectRay st.bund (objs.flatMap Obj.surfs) (surfOwnership objs) (List.replicate st.bund.length none)
        (List.replicate (objs.flatMap Obj.surfs).length (List.replicate st.bund.length true)) =
        .ok (front, List.replicate (objs.flatMap Obj.surfs).length (List.replicate st.bund.length true)) ∧
      owned.length = (objs.flatMap Obj.surfs).length ∧ front.length = (objs.flatMap Obj.surfs).length ∧
      (∀ o ∈ owned, o.length = st.bund.length) ∧ (∀ f ∈ front, f.length = st.bund.length) ∧
      ∀ i j, Marked front i j → Marked owned i j := by
  obtain ⟨hs2, hfree⟩ := full_shape objs st.bund
  have hlen : ∀ s ∈ objs.flatMap Obj.surfs, s.LengthOk := fun s hs rays => by rw [hper s hs]; simp
  have hs1 : IShape st.bund.length (objs.flatMap Obj.surfs) (surfOwnership objs) st.rayOwn st.relev := hs
  have hA1 := answer_perRay hs1 hper
  have hA2 := hfree.answer_perRay hs2 hper
  have hE1 := rawStack_entry hs1 hlen
  have hE2 := rawStack_entry hs2 hlen
  -- the rejected answers
  have hneg : ((rawStack st.bund (objs.flatMap Obj.surfs) (surfOwnership objs) st.rayOwn st.relev).any
        fun row => row.any fun p => decide (p < ((-negTol : K) : WithTop K))) =
      ((rawStack st.bund (objs.flatMap Obj.surfs) (surfOwnership objs) (List.replicate st.bund.length none)
        (List.replicate (objs.flatMap Obj.surfs).length (List.replicate st.bund.length true))).any
        fun row => row.any fun p => decide (p < ((-negTol : K) : WithTop K))) := by
    rw [Bool.eq_iff_iff, any_any_entry, any_any_entry]
    have hz : ¬ ((0 : WithTop K) < ((-negTol : K) : WithTop K)) := by
      rw [← WithTop.coe_zero, WithTop.coe_lt_coe]
      have := negTol_pos (K := K)
      linarith
    constructor
    · rintro ⟨k, j, p, he, hp⟩
      rcases (hE1 k j p).1 he with ha | ⟨_, _, _, rfl⟩
      · obtain ⟨_, s, r, g1, g2, g3⟩ := (hA1 k j p).1 ha
        exact ⟨k, j, p, (hE2 k j p).2 (Or.inl ((hA2 k j p).2 ⟨s, r, g1, g2, g3⟩)), hp⟩
      · exact absurd (by simpa using hp) hz
    · rintro ⟨k, j, p, he, hp⟩
      rcases (hE2 k j p).1 he with ha | ⟨hk, hj, hn, rfl⟩
      · obtain ⟨s, r, g1, g2, g3⟩ := (hA2 k j p).1 ha
        by_cases ht : Tested (surfOwnership objs) st.rayOwn st.relev k j
        · exact ⟨k, j, p, (hE1 k j p).2 (Or.inl ((hA1 k j p).2 ⟨ht, s, r, g1, g2, g3⟩)), hp⟩
        · simp only [decide_eq_true_eq] at hp
          rcases (hS k j s r g1 g2 ht).1 with h | h
          · rw [← g3, h] at hp
            exact absurd hp (not_lt.2 le_top)
          · rw [g3] at h
            exact absurd (lt_of_le_of_lt h.1 hp) hz
      · exact absurd (hfree.tested hs2 hk hj) hn
  -- the discarding threshold
  have hself : SelfHitPresent st.bund (objs.flatMap Obj.surfs) (surfOwnership objs) st.rayOwn st.relev ↔
      SelfHitPresent st.bund (objs.flatMap Obj.surfs) (surfOwnership objs) (List.replicate st.bund.length none)
        (List.replicate (objs.flatMap Obj.surfs).length (List.replicate st.bund.length true)) := by
    unfold SelfHitPresent
    constructor
    · rintro ⟨k, j, hk, hj, hor⟩
      have g1 := List.getElem?_eq_getElem hk
      have g2 := List.getElem?_eq_getElem hj
      by_cases ht : Tested (surfOwnership objs) st.rayOwn st.relev k j
      · rcases hor with hn | ⟨p, ha, hp⟩
        · exact absurd ht hn
        · obtain ⟨_, s, r, g1, g2, g3⟩ := (hA1 k j p).1 ha
          exact ⟨k, j, hk, hj, Or.inr ⟨p, (hA2 k j p).2 ⟨s, r, g1, g2, g3⟩, hp⟩⟩
      · obtain ⟨z, hz, hzp⟩ := (hS k j _ _ g1 g2 ht).2
        obtain ⟨k', hk'⟩ := List.getElem?_of_mem hz
        exact ⟨k', j, (List.getElem?_eq_some_iff.1 hk').1, hj, Or.inr ⟨_, (hA2 k' j _).2 ⟨z, _, hk', g2, rfl⟩, hzp⟩⟩
    · rintro ⟨k, j, hk, hj, hor⟩
      refine ⟨k, j, hk, hj, ?_⟩
      by_cases ht : Tested (surfOwnership objs) st.rayOwn st.relev k j
      · rcases hor with hn | ⟨p, ha, hp⟩
        · exact absurd (hfree.tested hs2 hk hj) hn
        · obtain ⟨s, r, g1, g2, g3⟩ := (hA2 k j p).1 ha
          exact Or.inr ⟨p, (hA1 k j p).2 ⟨ht, s, r, g1, g2, g3⟩, hp⟩
      · exact Or.inl ht
  have hthr : (threshold st.bund (objs.flatMap Obj.surfs) (surfOwnership objs) st.rayOwn st.relev : K) =
      threshold st.bund (objs.flatMap Obj.surfs) (surfOwnership objs) (List.replicate st.bund.length none)
        (List.replicate (objs.flatMap Obj.surfs).length (List.replicate st.bund.length true)) := by
    unfold threshold
    by_cases hc : SelfHitPresent st.bund (objs.flatMap Obj.surfs) (surfOwnership objs) st.rayOwn st.relev
    · rw [if_pos hc, if_pos (hself.1 hc)]
    · rw [if_neg hc, if_neg fun h => hc (hself.2 h)]
  have hAns : ∀ (k j : Nat) (t : K), (threshold st.bund (objs.flatMap Obj.surfs) (surfOwnership objs) st.rayOwn st.relev : K) < t →
      (Answer st.bund (objs.flatMap Obj.surfs) (surfOwnership objs) st.rayOwn st.relev k j t ↔
        Answer st.bund (objs.flatMap Obj.surfs) (surfOwnership objs) (List.replicate st.bund.length none)
          (List.replicate (objs.flatMap Obj.surfs).length (List.replicate st.bund.length true)) k j t) := by
    intro k j t ht
    rw [hA1, hA2]
    constructor
    · exact fun h => h.2
    · rintro ⟨s, r, g1, g2, g3⟩
      refine ⟨?_, s, r, g1, g2, g3⟩
      by_contra hn
      have hp : SelfHitPresent st.bund (objs.flatMap Obj.surfs) (surfOwnership objs) st.rayOwn st.relev :=
        ⟨k, j, (List.getElem?_eq_some_iff.1 g1).1, (List.getElem?_eq_some_iff.1 g2).1, Or.inl hn⟩
      rw [threshold, if_pos hp] at ht
      rcases (hS k j s r g1 g2 hn).1 with h | h
      · rw [g3] at h
        exact WithTop.coe_ne_top h
      · rw [g3, WithTop.coe_le_coe] at h
        exact absurd ht (not_lt.2 h.2)
  have hrow1 : ∀ row ∈ frontMask st.bund.length (dropSelfHits (rawStack st.bund (objs.flatMap Obj.surfs) (surfOwnership objs)
      st.rayOwn st.relev)), row.length = st.bund.length :=
    frontMask_row_length (dropSelfHits_row_length fun row hr => rawStack_row_length hr)
  have hrow2 : ∀ row ∈ frontMask st.bund.length (dropSelfHits (rawStack st.bund (objs.flatMap Obj.surfs) (surfOwnership objs)
      (List.replicate st.bund.length none) (List.replicate (objs.flatMap Obj.surfs).length (List.replicate st.bund.length true)))),
      row.length = st.bund.length :=
    frontMask_row_length (dropSelfHits_row_length fun row hr => rawStack_row_length hr)
  have hl1 : (frontMask st.bund.length (dropSelfHits (rawStack st.bund (objs.flatMap Obj.surfs) (surfOwnership objs)
      st.rayOwn st.relev))).length = (objs.flatMap Obj.surfs).length := by
    simp only [frontMask, List.length_map, dropSelfHits_length, rawStack, List.length_zipWith, hs1.surf_len, hs1.relev_len]
    omega
  have hl2 : (frontMask st.bund.length (dropSelfHits (rawStack st.bund (objs.flatMap Obj.surfs) (surfOwnership objs)
      (List.replicate st.bund.length none) (List.replicate (objs.flatMap Obj.surfs).length
        (List.replicate st.bund.length true))))).length = (objs.flatMap Obj.surfs).length := by
    simp only [frontMask, List.length_map, dropSelfHits_length, rawStack, List.length_zipWith, hs2.surf_len, hs2.relev_len]
    omega
  have hfront : frontMask st.bund.length (dropSelfHits (rawStack st.bund (objs.flatMap Obj.surfs) (surfOwnership objs)
      st.rayOwn st.relev)) = frontMask st.bund.length (dropSelfHits (rawStack st.bund (objs.flatMap Obj.surfs) (surfOwnership objs)
      (List.replicate st.bund.length none) (List.replicate (objs.flatMap Obj.surfs).length (List.replicate st.bund.length true)))) := by
    refine marked_ext (hl1.trans hl2.symm) hrow1 hrow2 fun k j => ?_
    rw [front_iff hs1 hlen, front_iff hs2 hlen, ← hthr]
    constructor
    · rintro ⟨t, h1, h2, h3⟩
      exact ⟨t, (hAns k j t h2).1 h1, h2, fun k' t' ha ht' => h3 k' t' ((hAns k' j t' ht').2 ha) ht'⟩
    · rintro ⟨t, h1, h2, h3⟩
      exact ⟨t, (hAns k j t h2).2 h1, h2, fun k' t' ha ht' => h3 k' t' ((hAns k' j t' ht').1 ha) ht'⟩
  have howned2 : List.zipWith (ownedMask (List.replicate st.bund.length none)) (surfOwnership objs)
      (List.replicate (objs.flatMap Obj.surfs).length (List.replicate st.bund.length true)) =
      List.replicate (objs.flatMap Obj.surfs).length (List.replicate st.bund.length true) := by
    refine List.eq_replicate_iff.2 ⟨by simp [surfOwnership_length], fun row hr => ?_⟩
    obtain ⟨k, hk⟩ := List.getElem?_of_mem hr
    have h1 := owned_row_length hs2 hk
    obtain ⟨so, r, _, g2, rfl⟩ := getElem?_zipWith_some.1 hk
    rw [(List.mem_replicate.1 (List.mem_of_getElem? g2)).2]
    simp [ownedMask]
  unfold intersectRay
  simp only
  rw [show List.zipWith (stackRow st.bund) (objs.flatMap Obj.surfs) (List.zipWith (ownedMask st.rayOwn) (surfOwnership objs) st.relev) =
    rawStack st.bund (objs.flatMap Obj.surfs) (surfOwnership objs) st.rayOwn st.relev from rfl,
    show List.zipWith (stackRow st.bund) (objs.flatMap Obj.surfs) (List.zipWith (ownedMask (List.replicate st.bund.length none))
      (surfOwnership objs) (List.replicate (objs.flatMap Obj.surfs).length (List.replicate st.bund.length true))) =
    rawStack st.bund (objs.flatMap Obj.surfs) (surfOwnership objs) (List.replicate st.bund.length none)
      (List.replicate (objs.flatMap Obj.surfs).length (List.replicate st.bund.length true)) from rfl, ← hneg, ← hfront, howned2]
  split
  · exact Or.inl ⟨_, rfl, rfl⟩
  · split
    · exact Or.inl ⟨_, rfl, rfl⟩
    · refine Or.inr ⟨_, _, rfl, rfl, ?_, hl1, ?_, hrow1, ?_⟩
      · simp [surfOwnership_length, hs1.relev_len]
      · intro o ho
        obtain ⟨k, hk⟩ := List.getElem?_of_mem ho
        exact owned_row_length hs1 hk
      · intro k j hm
        rw [owned_getElem]
        obtain ⟨t, ha, _⟩ := (front_iff hs1 hlen k j).1 hm
        exact ((hA1 k j _).1 ha).1

theorem Saves.iterate (hs : st.Shape objs) (hper : ∀ s ∈ objs.flatMap Obj.surfs, s.PerRay (per s))
    (hsurf : ∀ s ∈ objs.flatMap Obj.surfs, s.NumberBlind ∧ s.ParentsOk) (hS : Saves objs per st) (minE : K) :
    (∃ e, iterate objs (objs.flatMap Obj.surfs) minE st = .error e ∧
      iterate (objs.map Obj.asked) (objs.flatMap Obj.surfs) minE (initState (objs.map Obj.asked) st.bund st.world) = .error e) ∨
    ∃ st1 st2 gen rec, iterate objs (objs.flatMap Obj.surfs) minE st = .ok (st1, gen, rec) ∧
      iterate (objs.map Obj.asked) (objs.flatMap Obj.surfs) minE (initState (objs.map Obj.asked) st.bund st.world) =
        .ok (st2, gen, rec) ∧ st2.bund = st1.bund ∧ st2.world = st1.world := by
  unfold Tracer.iterate
  simp only [initState, asked_ownership, asked_surfs]
  rcases hS.intersect hs hper with ⟨e, h1, h2⟩ | ⟨front, owned, h1, h2, h3, h4, h5, h6, h7⟩
  · rw [h1, h2]
    exact Or.inl ⟨e, rfl, rfl⟩
  · rw [h1, h2]
    simp only
    rcases surfLoop_asked (objs := objs) (minE := minE) (w := st.world) (k := 0) hsurf (h3.trans h4.symm) h5 h6 h7 with
      ⟨e, g1, g2⟩ | ⟨cs, cs', w', g1, g2, g3⟩
    · rw [h3] at g2
      rw [g1, g2]
      exact Or.inl ⟨e, rfl, rfl⟩
    · rw [h3] at g2
      rw [g1, g2]
      simp only
      have e1 : cs'.flatMap Contribution.outg = cs.flatMap Contribution.outg ∧
          cs'.flatMap Contribution.record = cs.flatMap Contribution.record ∧
          cs'.flatMap Contribution.weak = cs.flatMap Contribution.weak := by
        clear g1 g2
        induction g3 with
        | nil => exact ⟨rfl, rfl, rfl⟩
        | cons h _ ih =>
          simp only [List.flatMap_cons, ih.1, ih.2.1, ih.2.2, h.1, h.2.1, h.2.2, and_self]
      rw [e1.1, e1.2.1, e1.2.2]
      cases Np.take (cs.flatMap Contribution.record) (Np.nonzero (cs.flatMap Contribution.weak)) with
      | error e => exact Or.inl ⟨e, rfl, rfl⟩
      | ok weak => exact Or.inr ⟨_, _, _, _, rfl, rfl, rfl, rfl⟩

end
end
end Tracer
