import Verif.Lemmas.Raises

/-! An iteration in which one ray is met, by one surface, and all others miss. -/

set_option linter.unusedSectionVars false

namespace Tracer

variable {K E σ : Type _} [Field K] [LinearOrder K] [IsStrictOrderedRing K]

/-- The loop, if no ray is met. -/
theorem surfLoop_none {objs : List (Obj σ K E)} {minE : K} {b : Bundle K E} {surfs : List (Surf σ K E)}
    {fronts owneds : List (List Bool)} {w : σ} {k : Nat}
    (h : ∀ (e : Nat) (f o : List Bool), fronts[e]? = some f → owneds[e]? = some o → (Np.mask o f).any id = false) :
    surfLoop objs minE b w k surfs fronts owneds = .ok ([], w) := by
  induction surfs generalizing fronts owneds k with
  | nil => unfold surfLoop; rfl
  | cons s surfs ih =>
    cases fronts with
    | nil => unfold surfLoop; rfl
    | cons f fronts =>
      cases owneds with
      | nil => unfold surfLoop; rfl
      | cons o owneds =>
        rw [surfLoop]
        rw [if_neg (by simp [h 0 f o rfl rfl])]
        exact ih fun e f o h1 h2 => h (e + 1) f o (by simpa using h1) (by simpa using h2)

/-- The loop, if only surface number `d` is met. -/
theorem surfLoop_one {objs : List (Obj σ K E)} {minE : K} {b : Bundle K E} {surfs : List (Surf σ K E)}
    {fronts owneds : List (List Bool)} {w w' : σ} {k d : Nat} {s0 : Surf σ K E} {f0 o0 : List Bool} {c : Contribution K E}
    (h1 : surfs[d]? = some s0) (h2 : fronts[d]? = some f0) (h3 : owneds[d]? = some o0) (h4 : (Np.mask o0 f0).any id = true)
    (hc : contribute objs minE b w (k + d) s0 f0 o0 = .ok (c, w'))
    (h : ∀ (e : Nat) (f o : List Bool), e ≠ d → fronts[e]? = some f → owneds[e]? = some o → (Np.mask o f).any id = false) :
    surfLoop objs minE b w k surfs fronts owneds = .ok ([c], w') := by
  induction surfs generalizing fronts owneds k d with
  | nil => simp at h1
  | cons s surfs ih =>
    cases fronts with
    | nil => simp at h2
    | cons f fronts =>
      cases owneds with
      | nil => simp at h3
      | cons o owneds =>
        rw [surfLoop]
        cases d with
        | zero =>
          simp only [List.getElem?_cons_zero, Option.some.injEq] at h1 h2 h3
          subst h1 h2 h3
          rw [if_pos h4]
          rw [Nat.add_zero] at hc
          simp only [hc]
          rw [surfLoop_none fun e f o h1 h2 => h (e + 1) f o (by omega) (by simpa using h1) (by simpa using h2)]
        | succ d =>
          rw [if_neg (by simp [h 0 f o (by omega) rfl rfl])]
          exact ih (by simpa using h1) (by simpa using h2) (by simpa using h3)
            (by rw [show k + 1 + d = k + (d + 1) by omega]; exact hc)
            fun e f o hne h1 h2 => h (e + 1) f o (by omega) (by simpa using h1) (by simpa using h2)

theorem nonzero_single {m : List Bool} {i : Nat} (h : ∀ j, m[j]? = some true ↔ j = i) : Np.nonzero m = [i] := by
  have hn := Np.nonzero_nodup m
  have hm : ∀ j, j ∈ Np.nonzero m ↔ j = i := fun j => Np.mem_nonzero.trans (h j)
  generalize Np.nonzero m = l at hn hm
  cases l with
  | nil => exact absurd ((hm i).2 rfl) (by simp)
  | cons a l =>
    have ha := (hm a).1 (by simp)
    subst ha
    cases l with
    | nil => rfl
    | cons b l =>
      have hb := (hm b).1 (by simp)
      subst hb
      simp at hn

theorem nonzero_true_range {m : List Bool} (h : ∀ x ∈ m, x = true) : Np.nonzero m = List.range m.length := by
  induction m with
  | nil => rfl
  | cons b m ih =>
    obtain rfl := h b (by simp)
    rw [Np.nonzero_true, ih fun x hx => h x (by simp [hx]), List.length_cons, List.range_succ_eq_map]

/-- The iteration, if ray number `i0` is met by surface number `k0`, at `t`, before any other, and no other ray is met. -/
theorem iterate_one {objs : List (Obj σ K E)} (hdef : ∀ o ∈ objs, o.Default) {minE : K} {st : TraceState σ K E} (hs : st.Shape objs)
    (hfree : AllFree st.rayOwn st.relev) (hlen : AllSurfs Surf.LengthOk objs) {k0 i0 : Nat} {s0 : Surf σ K E} {t : K} {raw : Bundle K E} {w' : σ}
    (h0 : (objs.flatMap Obj.surfs)[k0]? = some s0) (hi : (s0.register st.bund)[i0]? = some (t : WithTop K)) (ht : dropTol < t)
    (hpos : ¬ Behind (objs.flatMap Obj.surfs) st.bund)
    (honly : ∀ (k j : Nat) (s : Surf σ K E) (t' : K), (objs.flatMap Obj.surfs)[k]? = some s → (s.register st.bund)[j]? = some (t' : WithTop K) →
      j = i0 ∧ (k = k0 ∨ t < t'))
    (hout : s0.outgoing st.world st.bund [i0] = .ok (raw, w')) (hpar : ∀ r ∈ raw, r.parent = i0) :
    ∃ st' rec, iterate objs (objs.flatMap Obj.surfs) minE st = .ok (st', raw, rec) ∧
      st'.bund = raw.filter (fun r => decide (minE < r.energy)) ∧
      rec = st'.bund ++ raw.filter (fun r => decide (r.energy ≤ minE)) ∧ st'.world = w' ∧ st'.Shape objs ∧ AllFree st'.rayOwn st'.relev := by
  have hlen' : ∀ s ∈ objs.flatMap Obj.surfs, s.LengthOk := fun s h => mem_allSurfs hlen h
  have hne : objs.flatMap Obj.surfs ≠ [] := by
    intro h; rw [h] at h0; simp at h0
  obtain ⟨hiff, hval⟩ := intersect_behind hs hfree hne hlen
  rcases hint : intersectRay st.bund (objs.flatMap Obj.surfs) (surfOwnership objs) st.rayOwn st.relev with e | ⟨front, owned⟩
  · obtain rfl := hval e hint
    exact absurd (hiff.1 hint) hpos
  obtain ⟨hfl, hrowf, hol, hrowo, hmark⟩ := C20_shape hs hint
  obtain ⟨hO, hF⟩ := intersectRay_ok hint
  have hk0 := (List.getElem?_eq_some_iff.1 h0).1
  have hi0 : i0 < st.bund.length := by
    have := (List.getElem?_eq_some_iff.1 hi).1
    rwa [hlen' s0 (List.mem_of_getElem? h0)] at this
  -- all rays are tested
  have htrue : ∀ (e : Nat) (o : List Bool), owned[e]? = some o → ∀ x ∈ o, x = true := by
    intro e o ho x hx
    obtain ⟨j, hj⟩ := List.getElem?_of_mem hx
    have he : e < (objs.flatMap Obj.surfs).length := by
      rw [← hol]; exact (List.getElem?_eq_some_iff.1 ho).1
    have hjl : j < st.bund.length := by
      rw [← hrowo o (List.mem_of_getElem? ho)]; exact (List.getElem?_eq_some_iff.1 hj).1
    obtain ⟨row, hr1, hr2⟩ := (hmark e j).2 (hfree.tested hs he hjl)
    rw [ho] at hr1
    cases hr1
    rw [hj] at hr2
    exact Option.some.inj hr2
  have hany : ∀ (e : Nat) (o : List Bool), owned[e]? = some o → o.any (! ·) = false := by
    intro e o ho
    rw [List.any_eq_false]
    intro x hx
    simp [htrue e o ho x hx]
  have hmask : ∀ (e : Nat) (o l : List Bool), owned[e]? = some o → l.length = st.bund.length → Np.mask o l = l := by
    intro e o l ho hl
    exact Np.mask_all_true ((hrowo o (List.mem_of_getElem? ho)).trans hl.symm) (hany e o ho)
  -- which rays are met by which surfaces
  have hfront : ∀ (e : Nat) (f : List Bool), front[e]? = some f → ∀ j, f[j]? = some true ↔ e = k0 ∧ j = i0 := by
    intro e f hf j
    have hm : f[j]? = some true ↔ Marked front e j := by
      constructor
      · intro h; exact ⟨f, hf, h⟩
      · rintro ⟨f', h1, h2⟩
        rw [hf] at h1
        cases h1
        exact h2
    rw [hm, hF, front_iff hs hlen']
    constructor
    · rintro ⟨t', ha, hthr, hmin⟩
      obtain ⟨s, h1, _, h3⟩ := (hfree.answer hs e j t').1 ha
      obtain ⟨hj, hk | hlt⟩ := honly e j s t' h1 h3
      · exact ⟨hk, hj⟩
      · subst hj
        have := hmin k0 t ((hfree.answer hs k0 j t).2 ⟨s0, h0, hi0, hi⟩) (lt_of_le_of_lt (threshold_le_dropTol _ _ _ _ _) ht)
        exact absurd hlt (not_lt.2 this)
    · rintro ⟨rfl, rfl⟩
      refine ⟨t, (hfree.answer hs _ _ t).2 ⟨s0, h0, hi0, hi⟩, lt_of_le_of_lt (threshold_le_dropTol _ _ _ _ _) ht, ?_⟩
      intro k' t' ha _
      obtain ⟨s, h1, _, h3⟩ := (hfree.answer hs k' _ t').1 ha
      rcases (honly k' _ s t' h1 h3).2 with hk | hlt
      · subst hk
        rw [h0] at h1
        cases h1
        rw [hi] at h3
        exact le_of_eq (WithTop.coe_injective (Option.some.inj h3))
      · exact hlt.le
  obtain ⟨f0, hf0⟩ : ∃ f0, front[k0]? = some f0 := ⟨_, List.getElem?_eq_getElem (by rw [hfl]; exact hk0)⟩
  obtain ⟨o0, ho0⟩ : ∃ o0, owned[k0]? = some o0 := ⟨_, List.getElem?_eq_getElem (by rw [hol]; exact hk0)⟩
  have hf0l := hrowf f0 (List.mem_of_getElem? hf0)
  have ho0l := hrowo o0 (List.mem_of_getElem? ho0)
  have hm0 : Np.mask o0 f0 = f0 := hmask k0 o0 f0 ho0 hf0l
  have hnz : Np.nonzero f0 = [i0] := nonzero_single fun j => (hfront k0 f0 hf0 j).trans ⟨fun h => h.2, fun h => ⟨rfl, h⟩⟩
  obtain ⟨c, hc⟩ := contribute_exists (objs := objs) (minE := minE) (k := k0) (s := s0) (front := f0) (owned := o0) (w := st.world) (w' := w')
    (raw := raw) ho0l hf0l hk0 (by rw [hm0, Np.mask_all_true ho0l (hany k0 o0 ho0), hnz]; exact hout)
    (fun r hr => by rw [hm0, hnz, hpar r hr]; simp)
  have hcf := contribute_ok ho0l hc
  have hrec : c.record = raw := by
    obtain ⟨raw', h1, h2⟩ := hcf.raw
    rw [hm0, Np.mask_all_true ho0l (hany k0 o0 ho0), hnz, hout] at h1
    obtain ⟨rfl, -⟩ := Prod.mk.inj (Except.ok.inj h1)
    obtain ⟨hl, hg⟩ := fixParents_ok h2
    apply List.ext_getElem? 
    intro m
    rcases Nat.lt_or_ge m raw.length with hm | hm
    · obtain ⟨q, hq, hr⟩ := hg m raw[m] (List.getElem?_eq_getElem hm)
      rw [nonzero_true_range (htrue k0 o0 ho0)] at hq
      have hp := hpar _ (List.getElem_mem hm)
      rw [hp, List.getElem?_range (by rw [ho0l]; exact hi0)] at hq
      rw [hr, List.getElem?_eq_getElem hm, ← Option.some.inj hq, ← hp]
    · rw [List.getElem?_eq_none (by omega), List.getElem?_eq_none hm]
  have hloop : surfLoop objs minE st.bund st.world 0 (objs.flatMap Obj.surfs) front owned = .ok ([c], w') := by
    apply surfLoop_one h0 hf0 ho0 (by
      rw [hm0, List.any_eq_true]
      exact ⟨true, List.mem_of_getElem? ((hfront k0 f0 hf0 i0).2 ⟨rfl, rfl⟩), rfl⟩) (by rw [Nat.zero_add]; exact hc)
    intro e f o hne hf ho
    rw [hmask e o f ho (hrowf f (List.mem_of_getElem? hf)), List.any_eq_false]
    intro x hx
    obtain ⟨j, hj⟩ := List.getElem?_of_mem hx
    cases x with
    | false => simp
    | true => exact absurd ((hfront e f hf j).1 hj).1 hne
  have hit : ∃ st' rec, iterate objs (objs.flatMap Obj.surfs) minE st = .ok (st', raw, rec) ∧ st'.world = w' := by
    unfold iterate
    rw [hint]
    simp only [hloop, List.flatMap_cons, List.flatMap_nil, List.append_nil, hrec]
    rw [hcf.weak, hrec, Np.take_nonzero (by simp)]
    exact ⟨_, _, rfl, rfl⟩
  obtain ⟨st', rec, hit, hw⟩ := hit
  have hfacts := iterate_ok hs hit
  exact ⟨st', rec, hit, hfacts.strong, hfacts.recorded, hw, iterate_shape (fun o ho => (hdef o ho).shapeOk) hs hit, iterate_free hdef hs hit⟩

end Tracer
