import Verif.Lemmas.Step

/-! Helper lemmas about whole traces. -/

set_option linter.unusedSectionVars false
set_option linter.unusedSimpArgs false

namespace Tracer

variable {K E σ : Type _}

/-! ### Shapes -/

theorem hstackRows_getElem? {α : Type _} {s : Nat} {blocks : List (List (List α))}
    (h : ∀ bl ∈ blocks, bl.length = s) {k : Nat} (hk : k < s) :
    (Np.hstackRows s blocks)[k]? = some (blocks.flatMap fun bl => (bl[k]?).getD []) := by
  induction blocks with
  | nil => simp [Np.hstackRows, hk]
  | cons bl blocks ih =>
    have ih' := ih (fun b hb => h b (List.mem_cons_of_mem _ hb))
    have hbl : k < bl.length := by rw [h bl (by simp)]; exact hk
    unfold Np.hstackRows at ih' ⊢
    simp [List.getElem?_zipWith, ih', hbl]

theorem hstackRows_length {α : Type _} {s : Nat} {blocks : List (List (List α))}
    (h : ∀ bl ∈ blocks, bl.length = s) : (Np.hstackRows s blocks).length = s := by
  induction blocks with
  | nil => simp [Np.hstackRows]
  | cons bl blocks ih =>
    have ih' := ih (fun b hb => h b (List.mem_cons_of_mem _ hb))
    have hbl := h bl (by simp)
    unfold Np.hstackRows at ih' ⊢
    simp [ih', hbl]

theorem mem_scatter {α : Type _} {m : List Bool} {v o : List α} {x : α} (h : x ∈ Np.scatter m v o) :
    x ∈ v ∨ x ∈ o := by
  induction o generalizing m v with
  | nil => simp at h
  | cons y o ih =>
    cases m with
    | nil => simp at h; simp [h]
    | cons b m =>
      cases b
      · simp at h
        rcases h with rfl | h
        · simp
        · rcases ih h with h | h <;> simp [h]
      · cases v with
        | nil =>
          simp at h
          rcases h with rfl | h
          · simp
          · rcases ih h with h | h
            · simp at h
            · simp [h]
        | cons z v =>
          simp at h
          rcases h with rfl | h
          · simp
          · rcases ih h with h | h <;> simp [h]

section
variable [Field K] [LinearOrder K] [IsStrictOrderedRing K]

/-- The arrays of the state fit together. -/
def TraceState.Shape (objs : List (Obj σ K E)) (st : TraceState σ K E) : Prop :=
  IShape st.bund.length (objs.flatMap Obj.surfs) (surfOwnership objs) st.rayOwn st.relev

theorem initState_shape (objs : List (Obj σ K E)) (b : Bundle K E) (w : σ) :
    (initState objs b w).Shape objs :=
  { own_len := by simp [initState]
    surf_len := surfOwnership_length objs
    relev_len := by simp [initState]
    relev_row := by
      intro row hr
      simp [initState] at hr
      simp [initState, hr.2] }

theorem contrib_shape {objs : List (Obj σ K E)} (hobj : ∀ o ∈ objs, o.ShapeOk) {minE : K} {b : Bundle K E}
    {w w' : σ} {k : Nat} {s : Surf σ K E} {front owned : List Bool} {c : Contribution K E}
    (h : ContribFacts objs minE b w k s front owned c w') :
    c.own.length = c.outg.length ∧ c.relev.length = (objs.flatMap Obj.surfs).length ∧
      ∀ row ∈ c.relev, row.length = c.outg.length := by
  obtain ⟨o, obj, before, h1, h2, h3, h4, h5⟩ := h.policy
  have hok := hobj obj (List.mem_of_getElem? h2)
  refine ⟨by rw [h4]; simp [hok.1], by rw [h5]; simp [surfOwnership_length], ?_⟩
  intro row hr
  rw [h5] at hr
  rcases mem_scatter hr with hr | hr
  · exact (hok.2 _ _).2 row hr
  · simp at hr
    simp [hr.2]

theorem iterate_shape {objs : List (Obj σ K E)} (hobj : ∀ o ∈ objs, o.ShapeOk)
    {minE : K} {st st' : TraceState σ K E} {gen rec : Bundle K E}
    (hs : st.Shape objs)
    (h : iterate objs (objs.flatMap Obj.surfs) minE st = .ok (st', gen, rec)) : st'.Shape objs := by
  obtain ⟨⟨front, owned, cs, _, _, _, hb, ho, hr, hf⟩, _, _⟩ := iterate_ok hs h
  have hsh : ∀ c ∈ cs, c.own.length = c.outg.length ∧ c.relev.length = (objs.flatMap Obj.surfs).length ∧
      ∀ row ∈ c.relev, row.length = c.outg.length := by
    intro c hc
    obtain ⟨_, _, _, _, _, _, _, _, _, _, hcf⟩ := hf c hc
    exact contrib_shape hobj hcf
  have hbl : ∀ bl ∈ cs.map Contribution.relev, bl.length = (objs.flatMap Obj.surfs).length := by
    intro bl hbl
    obtain ⟨c, hc, rfl⟩ := List.mem_map.1 hbl
    exact (hsh c hc).2.1
  refine ⟨?_, surfOwnership_length objs, ?_, ?_⟩
  · rw [ho, hb, List.length_flatMap, List.length_flatMap]
    congr 1
    exact List.map_congr_left (fun c hc => (hsh c hc).1)
  · rw [hr, hstackRows_length hbl]
  · intro row hrow
    obtain ⟨k, hk⟩ := List.getElem?_of_mem hrow
    have hkl : k < (objs.flatMap Obj.surfs).length := by
      have := (List.getElem?_eq_some_iff.1 hk).1
      rwa [hr, hstackRows_length hbl] at this
    rw [hr, hstackRows_getElem? hbl hkl] at hk
    cases hk
    rw [hb, List.flatMap_map, List.length_flatMap, List.length_flatMap]
    congr 1
    refine List.map_congr_left (fun c hc => ?_)
    have h2 := hsh c hc
    have : k < c.relev.length := by rw [h2.2.1]; exact hkl
    rw [List.getElem?_eq_getElem this]
    exact h2.2.2 _ (List.getElem_mem this)

/-! ### Runs -/

/-- `Run st steps st'`: successive iterations starting from `st`; each step carries the rays
generated, the bundle to record and the state after it. -/
inductive Run (objs : List (Obj σ K E)) (minE : K) :
    TraceState σ K E → List (Bundle K E × Bundle K E × TraceState σ K E) → TraceState σ K E → Prop
  | nil (st) : Run objs minE st [] st
  | cons {st st1 st2 gen rec steps} :
      iterate objs (objs.flatMap Obj.surfs) minE st = .ok (st1, gen, rec) →
      Run objs minE st1 steps st2 → Run objs minE st ((gen, rec, st1) :: steps) st2

theorem traceLoop_run {objs : List (Obj σ K E)} {minE : K} {keep : Bool} {reps : Nat}
    {st st' : TraceState σ K E} {tree tree' : List (Bundle K E)} {last last' : Option (Bundle K E)}
    (h : traceLoop objs (objs.flatMap Obj.surfs) minE keep reps st tree last = .ok (st', tree', last')) :
    ∃ steps, Run objs minE st steps st' ∧ steps.length ≤ reps ∧
      tree' = tree ++ (if keep then (steps.filter fun s => ! s.1.isEmpty).map (fun s => s.2.1) else []) ∧
      last' = (match steps.getLast? with | some s => some s.1 | none => last) ∧
      (∀ s ∈ steps.dropLast, s.2.2.bund ≠ []) ∧
      (steps.length < reps → st'.bund = [] ∧ steps ≠ []) := by
  induction reps generalizing st tree last with
  | zero =>
    simp only [traceLoop, Except.ok.injEq, Prod.mk.injEq] at h
    obtain ⟨rfl, rfl, rfl⟩ := h
    exact ⟨[], Run.nil _, by simp, by simp, by simp, by simp, by simp⟩
  | succ reps ih =>
    rw [traceLoop] at h
    split at h
    · simp at h
    · rename_i st1 gen rec hit
      simp only at h
      split at h
      · rename_i hemp
        simp only [Except.ok.injEq, Prod.mk.injEq] at h
        obtain ⟨rfl, rfl, rfl⟩ := h
        refine ⟨[(gen, rec, st1)], Run.cons hit (Run.nil _), by simp, ?_, by simp, by simp, ?_⟩
        · cases keep <;> cases gen <;> simp
        · intro _
          exact ⟨by simpa using hemp, by simp⟩
      · rename_i hne
        obtain ⟨steps, h1, h2, h3, h4, h5, h6⟩ := ih h
        refine ⟨(gen, rec, st1) :: steps, Run.cons hit h1, by simpa using h2, ?_, ?_, ?_, ?_⟩
        · rw [h3]
          cases keep <;> cases gen <;> simp
        · rw [h4]
          cases steps with
          | nil => simp
          | cons a l => simp [List.getLast?_cons_cons, List.getLast?_cons]
        · cases steps with
          | nil => simp
          | cons a l =>
            intro s hs
            rw [List.dropLast_cons_of_ne_nil (by simp)] at hs
            rcases List.mem_cons.1 hs with rfl | hs
            · simpa using hne
            · exact h5 s hs
        · intro hl
          have := h6 (by simpa using hl)
          exact ⟨this.1, by simp⟩

theorem Run.append_inv {objs : List (Obj σ K E)} {minE : K} {st st' : TraceState σ K E} {steps1 steps2}
    (h : Run objs minE st (steps1 ++ steps2) st') :
    ∃ mid, Run objs minE st steps1 mid ∧ Run objs minE mid steps2 st' := by
  induction steps1 generalizing st with
  | nil => exact ⟨st, Run.nil _, h⟩
  | cons s steps1 ih =>
    cases h with
    | cons hi hr =>
      obtain ⟨mid, h1, h2⟩ := ih hr
      exact ⟨mid, Run.cons hi h1, h2⟩

theorem Run.append {objs : List (Obj σ K E)} {minE : K} {st mid st' : TraceState σ K E} {steps1 steps2}
    (h1 : Run objs minE st steps1 mid) (h2 : Run objs minE mid steps2 st') :
    Run objs minE st (steps1 ++ steps2) st' := by
  induction h1 with
  | nil => exact h2
  | cons hi _ ih => exact Run.cons hi (ih h2)

theorem Run.shape {objs : List (Obj σ K E)} (hobj : ∀ o ∈ objs, o.ShapeOk) {minE : K}
    {st st' : TraceState σ K E} {steps} (h : Run objs minE st steps st') (hs : st.Shape objs) :
    st'.Shape objs := by
  induction h with
  | nil => exact hs
  | cons hi _ ih => exact ih (iterate_shape hobj hs hi)

/-- Any property kept by an iteration holds in every state of a run. -/
theorem Run.invariant {objs : List (Obj σ K E)} {minE : K} (P : TraceState σ K E → Prop)
    (hstep : ∀ st st1 gen rec, P st →
      iterate objs (objs.flatMap Obj.surfs) minE st = .ok (st1, gen, rec) → P st1)
    {st st' : TraceState σ K E} {steps} (h : Run objs minE st steps st') (hs : P st) : P st' := by
  induction h with
  | nil => exact hs
  | cons hi _ ih => exact ih (hstep _ _ _ _ hs hi)

/-- What a finished trace with `tree=True` consists of. -/
theorem rayTracer_run {objs : List (Obj σ K E)} {w : σ} {b : Bundle K E} {reps : Nat} {minE : K}
    {res : TraceResult σ K E} (h : rayTracer objs w b reps minE true = .ok res) :
    objs ≠ [] ∧ ∃ steps st', Run objs minE (initState objs b w) steps st' ∧ steps.length ≤ reps ∧
      res.tree = b :: (steps.filter fun s => ! s.1.isEmpty).map (fun s => s.2.1) ∧
      res.vertices = st'.bund.map Ray.vertex ∧ res.directions = st'.bund.map Ray.dir ∧
      res.world = st'.world ∧
      (∀ s ∈ steps.dropLast, s.2.2.bund ≠ []) ∧
      (steps.length < reps → st'.bund = [] ∧ steps ≠ []) := by
  unfold rayTracer at h
  split at h
  · simp at h
  · rename_i surfs hsurf
    unfold getSurfaces at hsurf
    split at hsurf
    · simp at hsurf
    · rename_i hne
      simp only [Except.ok.injEq] at hsurf
      subst hsurf
      split at h
      · simp at h
      · rename_i st tree last hl
        simp only [if_true, Except.ok.injEq] at h
        subst h
        obtain ⟨steps, h1, h2, h3, h4, h5, h6⟩ := traceLoop_run hl
        refine ⟨by simpa using hne, steps, st, h1, h2, ?_, rfl, rfl, rfl, h5, h6⟩
        simpa using h3

/-- The steps before the last one generated rays, so they were all recorded. -/
theorem Run.gen_ne_nil {objs : List (Obj σ K E)} (hobj : ∀ o ∈ objs, o.ShapeOk) {minE : K}
    {st st' : TraceState σ K E} {steps} (h : Run objs minE st steps st') (hs : st.Shape objs)
    {gen rec st1} (hm : (gen, rec, st1) ∈ steps) (hb : st1.bund ≠ []) : gen ≠ [] := by
  induction h with
  | nil => simp at hm
  | cons hi _ ih =>
    rcases List.mem_cons.1 hm with heq | hm
    · cases heq
      have := (iterate_ok hs hi).strong
      rintro rfl
      exact hb (by simpa using this)
    · exact ih (iterate_shape hobj hs hi) hm

/-- Shape of the recorded steps: either all steps are recorded, or all but the last. -/
theorem filter_steps {α : Type _} {p : α → Bool} {steps : List α} (h : ∀ s ∈ steps.dropLast, p s = true) :
    ∃ rest, steps = steps.filter p ++ rest ∧ rest.length ≤ 1 := by
  rcases List.eq_nil_or_concat steps with rfl | ⟨l, a, rfl⟩
  · exact ⟨[], by simp⟩
  · simp only [List.concat_eq_append] at h ⊢
    rw [List.dropLast_concat] at h
    have hl : l.filter p = l := List.filter_eq_self.2 h
    cases hp : p a
    · exact ⟨[a], by simp [hl, hp]⟩
    · exact ⟨[], by simp [hl, hp]⟩

/-- Workhorse: every recorded bundle after the source is the record of an iteration from a
state whose bundle is the propagated part of the previous recorded bundle. -/
theorem tree_level {objs : List (Obj σ K E)} (hobj : ∀ o ∈ objs, o.ShapeOk)
    {w : σ} {b : Bundle K E} {reps : Nat} {minE : K}
    {res : TraceResult σ K E} (h : rayTracer objs w b reps minE true = .ok res)
    {k : Nat} {lvl : Bundle K E} (hk : res.tree[k+1]? = some lvl) :
    ∃ st st' gen steps prev, Run objs minE (initState objs b w) steps st ∧ steps.length = k ∧
      st.Shape objs ∧
      iterate objs (objs.flatMap Obj.surfs) minE st = .ok (st', gen, lvl) ∧ gen ≠ [] ∧
      res.tree[k]? = some prev ∧
      (k = 0 → prev = b ∧ st.bund = b) ∧
      (0 < k → ∃ weak, prev = st.bund ++ weak ∧ (∀ r ∈ st.bund, minE < r.energy) ∧
        ∀ r ∈ weak, r.energy ≤ minE) := by
  obtain ⟨_, steps, stf, hrun, _, htree, _, _, _, hdl, _⟩ := rayTracer_run h
  have hsh := initState_shape objs b w
  have hgen : ∀ s ∈ steps.dropLast, (fun s : Bundle K E × Bundle K E × TraceState σ K E => ! s.1.isEmpty) s = true := by
    intro s hs
    have := Run.gen_ne_nil hobj hrun hsh (gen := s.1) (rec := s.2.1) (st1 := s.2.2)
      (List.dropLast_subset _ hs) (hdl s hs)
    simpa using this
  obtain ⟨rest, hrest, _⟩ := filter_steps hgen
  generalize hF : steps.filter (fun s => ! s.1.isEmpty) = F at *
  rw [htree] at hk
  simp only [List.getElem?_cons_succ, List.getElem?_map, Option.map_eq_some_iff] at hk
  obtain ⟨⟨gen, rec, st1⟩, hFk, rfl⟩ := hk
  have hkl : k < F.length := (List.getElem?_eq_some_iff.1 hFk).1
  have hFsplit : F = F.take k ++ (gen, rec, st1) :: F.drop (k+1) := by
    conv_lhs => rw [← List.take_append_drop k F]
    rw [List.drop_eq_getElem_cons hkl]
    rw [List.getElem?_eq_getElem hkl, Option.some.injEq] at hFk
    rw [hFk]
  rw [hrest, hFsplit, List.append_assoc] at hrun
  obtain ⟨st, hr1, hr2⟩ := hrun.append_inv
  have hst := hr1.shape hobj hsh
  cases hr2 with
  | cons hi hr3 =>
    have hgne : gen ≠ [] := by
      have := List.mem_of_getElem? hFk
      rw [← hF, List.mem_filter] at this
      simpa using this.2
    refine ⟨st, st1, gen, F.take k, ?_⟩
    have hlen : (F.take k).length = k := by simp; omega
    cases k with
    | zero =>
      refine ⟨b, hr1, hlen, hst, hi, hgne, by simp [htree], ?_, by simp⟩
      intro _
      refine ⟨rfl, ?_⟩
      simp at hr1
      cases hr1
      rfl
    | succ k =>
      have hkl' : k < F.length := by omega
      obtain ⟨⟨gen0, rec0, st0⟩, hFk0⟩ : ∃ x, F[k]? = some x := ⟨_, List.getElem?_eq_getElem hkl'⟩
      have hsplit : F.take (k+1) = F.take k ++ [(gen0, rec0, st0)] := by
        rw [List.take_add_one, hFk0]; rfl
      have hr1' := hr1
      rw [hsplit] at hr1'
      obtain ⟨m, hm1, hm2⟩ := hr1'.append_inv
      have hmsh := hm1.shape hobj hsh
      cases hm2 with
      | cons hi0 hr0 =>
        cases hr0
        have hf := iterate_ok hmsh hi0
        refine ⟨rec0, hr1, hlen, hst, hi, hgne, ?_, by simp, ?_⟩
        · rw [htree]; simp [hFk0]
        · intro _
          refine ⟨_, hf.recorded, ?_, ?_⟩
          · rw [hf.strong]
            intro r hr
            have := (List.mem_filter.1 hr).2
            simpa using this
          · intro r hr
            have := (List.mem_filter.1 hr).2
            simpa using this

end
end Tracer
