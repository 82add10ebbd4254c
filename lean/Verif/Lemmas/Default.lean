import Verif.Lemmas.Child

/-! Traces of objects with the default policies: all rays stay free. -/

set_option linter.unusedSectionVars false
set_option linter.unusedSimpArgs false

namespace Tracer

variable {K E σ : Type _}

/-- No ray is owned and all surfaces are relevant to all rays. -/
structure AllFree (rayOwn : List (Option Nat)) (relev : List (List Bool)) : Prop where
  own : ∀ o ∈ rayOwn, o = none
  relev : ∀ row ∈ relev, ∀ x ∈ row, x = true

theorem Obj.Default.shapeOk {o : Obj σ K E} (h : o.Default) : o.ShapeOk := by
  refine ⟨?_, ?_⟩
  · intro rays k
    rw [h.1]; simp [Obj.defaultOwn]
  · intro rays k
    rw [h.2]
    refine ⟨by simp [Obj.defaultNext], ?_⟩
    intro row hr
    simp [Obj.defaultNext] at hr
    simp [hr.2]

theorem AllFree.tested {n : Nat} {surfs : List (Surf σ K E)} {surfOwn : List Nat}
    {rayOwn : List (Option Nat)} {relev : List (List Bool)}
    (h : IShape n surfs surfOwn rayOwn relev) (hf : AllFree rayOwn relev) {k j : Nat}
    (hk : k < surfs.length) (hj : j < n) : Tested surfOwn rayOwn relev k j := by
  have h1 : k < surfOwn.length := by rw [h.surf_len]; exact hk
  have h2 : j < rayOwn.length := by rw [h.own_len]; exact hj
  have h3 : k < relev.length := by rw [h.relev_len]; exact hk
  have h4 : j < (relev[k]).length := by rw [h.relev_row _ (List.getElem_mem h3)]; exact hj
  refine ⟨surfOwn[k], rayOwn[j], relev[k], List.getElem?_eq_getElem h1, List.getElem?_eq_getElem h2,
    Or.inl (hf.own _ (List.getElem_mem h2)), List.getElem?_eq_getElem h3, ?_⟩
  rw [List.getElem?_eq_getElem h4]
  exact congrArg some (hf.relev _ (List.getElem_mem h3) _ (List.getElem_mem h4))

theorem AllFree.testedIdx {n : Nat} {surfs : List (Surf σ K E)} {surfOwn : List Nat}
    {rayOwn : List (Option Nat)} {relev : List (List Bool)}
    (h : IShape n surfs surfOwn rayOwn relev) (hf : AllFree rayOwn relev) {k : Nat}
    (hk : k < surfs.length) : testedIdx n surfOwn rayOwn relev k = List.range n := by
  unfold Tracer.testedIdx
  rw [List.filter_eq_self]
  intro j hj
  simpa using hf.tested h hk (List.mem_range.1 hj)

theorem filterMap_range_getElem? {α : Type _} (l : List α) :
    (List.range l.length).filterMap (fun j => l[j]?) = l := by
  induction l with
  | nil => rfl
  | cons a l ih =>
    rw [List.length_cons, List.range_succ_eq_map]
    simp [List.filterMap_map, Function.comp_def, ih]

section
variable {b : Bundle K E} {surfs : List (Surf σ K E)} {surfOwn : List Nat}
    {rayOwn : List (Option Nat)} {relev : List (List Bool)}

/-- Surface `k` answers `p` about ray `j` if all rays are free: it is asked about the whole
bundle. -/
theorem AllFree.answer (h : IShape b.length surfs surfOwn rayOwn relev) (hf : AllFree rayOwn relev)
    (k j : Nat) (p : WithTop K) :
    Answer b surfs surfOwn rayOwn relev k j p ↔
      ∃ s, surfs[k]? = some s ∧ j < b.length ∧ (s.register b)[j]? = some p := by
  unfold Answer
  constructor
  · rintro ⟨s, i, hs, hi, hp⟩
    have hk := (List.getElem?_eq_some_iff.1 hs).1
    rw [hf.testedIdx h hk] at hi hp
    rw [filterMap_range_getElem?] at hp
    have hi' := List.getElem?_eq_some_iff.1 hi
    simp at hi'
    obtain ⟨hil, rfl⟩ := hi'
    exact ⟨s, hs, hil, hp⟩
  · rintro ⟨s, hs, hj, hp⟩
    have hk := (List.getElem?_eq_some_iff.1 hs).1
    refine ⟨s, j, hs, ?_, ?_⟩
    · rw [hf.testedIdx h hk]
      simp [hj]
    · rw [hf.testedIdx h hk, filterMap_range_getElem?]
      exact hp

theorem AllFree.answer_perRay (h : IShape b.length surfs surfOwn rayOwn relev)
    (hf : AllFree rayOwn relev) {per : Surf σ K E → Ray K E → WithTop K}
    (hper : ∀ s ∈ surfs, s.PerRay (per s)) (k j : Nat) (p : WithTop K) :
    Answer b surfs surfOwn rayOwn relev k j p ↔
      ∃ s r, surfs[k]? = some s ∧ b[j]? = some r ∧ per s r = p := by
  rw [hf.answer h]
  constructor
  · rintro ⟨s, hs, hj, hp⟩
    rw [hper s (List.mem_of_getElem? hs)] at hp
    simp only [List.getElem?_map, Option.map_eq_some_iff] at hp
    obtain ⟨r, hr, hp⟩ := hp
    exact ⟨s, r, hs, hr, hp⟩
  · rintro ⟨s, r, hs, hr, rfl⟩
    refine ⟨s, hs, (List.getElem?_eq_some_iff.1 hr).1, ?_⟩
    rw [hper s (List.mem_of_getElem? hs)]
    simp [hr]

end

section
variable [Field K] [LinearOrder K] [IsStrictOrderedRing K]

theorem initState_free (objs : List (Obj σ K E)) (b : Bundle K E) (w : σ) :
    AllFree (initState objs b w).rayOwn (initState objs b w).relev := by
  refine ⟨?_, ?_⟩
  · intro o ho
    simp [initState] at ho
    exact ho.2
  · intro row hr x hx
    simp only [initState, List.mem_replicate] at hr
    rw [hr.2] at hx
    exact (List.mem_replicate.1 hx).2

theorem mem_hstackRows {α : Type _} {s : Nat} {blocks : List (List (List α))} {row : List α}
    (h : row ∈ Np.hstackRows s blocks) {x : α} (hx : x ∈ row) :
    ∃ bl ∈ blocks, ∃ r ∈ bl, x ∈ r := by
  induction blocks generalizing row with
  | nil =>
    simp [Np.hstackRows] at h
    simp [h.2] at hx
  | cons bl blocks ih =>
    obtain ⟨k, hk⟩ := List.getElem?_of_mem h
    change (List.zipWith (· ++ ·) bl (Np.hstackRows s blocks))[k]? = some row at hk
    obtain ⟨r1, r2, h1, h2, rfl⟩ := getElem?_zipWith_some.1 hk
    rcases List.mem_append.1 hx with hx | hx
    · exact ⟨bl, by simp, r1, List.mem_of_getElem? h1, hx⟩
    · obtain ⟨bl', hbl', r, hr, hx⟩ := ih (List.mem_of_getElem? h2) hx
      exact ⟨bl', by simp [hbl'], r, hr, hx⟩

theorem iterate_free {objs : List (Obj σ K E)} (hdef : ∀ o ∈ objs, o.Default)
    {minE : K} {st st' : TraceState σ K E} {gen rec : Bundle K E} (hs : st.Shape objs)
    (h : iterate objs (objs.flatMap Obj.surfs) minE st = .ok (st', gen, rec)) :
    AllFree st'.rayOwn st'.relev := by
  obtain ⟨⟨front, owned, cs, _, _, _, hb, ho, hr, hf⟩, _, _⟩ := iterate_ok hs h
  refine ⟨?_, ?_⟩
  · intro o hoo
    rw [ho] at hoo
    obtain ⟨c, hc, hoc⟩ := List.mem_flatMap.1 hoo
    obtain ⟨_, _, _, _, _, _, _, _, _, _, hcf⟩ := hf c hc
    obtain ⟨oi, obj, before, _, h2, _, h4, _⟩ := hcf.policy
    rw [h4, (hdef obj (List.mem_of_getElem? h2)).1] at hoc
    simp [Obj.defaultOwn] at hoc
    exact hoc.2
  · intro row hrow x hx
    rw [hr] at hrow
    obtain ⟨bl, hbl, r, hrr, hx⟩ := mem_hstackRows hrow hx
    obtain ⟨c, hc, rfl⟩ := List.mem_map.1 hbl
    obtain ⟨_, _, _, _, _, _, _, _, _, _, hcf⟩ := hf c hc
    obtain ⟨oi, obj, before, _, h2, _, _, h5⟩ := hcf.policy
    rw [h5, (hdef obj (List.mem_of_getElem? h2)).2] at hrr
    rcases mem_scatter hrr with hrr | hrr
    · simp only [Obj.defaultNext, List.mem_replicate] at hrr
      rw [hrr.2] at hx
      exact (List.mem_replicate.1 hx).2
    · simp only [List.mem_replicate] at hrr
      rw [hrr.2] at hx
      exact (List.mem_replicate.1 hx).2

theorem Run.free {objs : List (Obj σ K E)} (hdef : ∀ o ∈ objs, o.Default) {minE : K}
    {st st' : TraceState σ K E} {steps} (h : Run objs minE st steps st') (hs : st.Shape objs)
    (hf : AllFree st.rayOwn st.relev) : AllFree st'.rayOwn st'.relev := by
  induction h with
  | nil => exact hf
  | cons hi _ ih =>
    exact ih (iterate_shape (fun o ho => (hdef o ho).shapeOk) hs hi) (iterate_free hdef hs hi)

end
end Tracer
