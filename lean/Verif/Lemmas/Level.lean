import Verif.Lemmas.Default

/-! Levels of the recorded tree, and the converse of `traceLoop_run`. -/

set_option linter.unusedSectionVars false
set_option linter.unusedSimpArgs false

namespace Tracer

variable {K E σ : Type _} [Field K] [LinearOrder K] [IsStrictOrderedRing K]

theorem traceLoop_of_run {objs : List (Obj σ K E)} {minE : K} (keep : Bool) {reps : Nat}
    {st st' : TraceState σ K E} (tree : List (Bundle K E)) (last : Option (Bundle K E)) {steps}
    (hrun : Run objs minE st steps st') (hl : steps.length ≤ reps)
    (hdl : ∀ s ∈ steps.dropLast, s.2.2.bund ≠ [])
    (hend : steps.length < reps → st'.bund = [] ∧ steps ≠ []) :
    traceLoop objs (objs.flatMap Obj.surfs) minE keep reps st tree last = .ok (st',
      tree ++ (if keep then (steps.filter fun s => ! s.1.isEmpty).map (fun s => s.2.1) else []),
      (match steps.getLast? with | some s => some s.1 | none => last)) := by
  induction hrun generalizing reps tree last with
  | nil st =>
    cases reps with
    | zero => simp [traceLoop]
    | succ reps => simp at hend
  | @cons st st1 st2 gen rec steps hi hr ih =>
    cases reps with
    | zero => simp at hl
    | succ reps =>
      rw [traceLoop, hi]
      simp only
      cases steps with
      | nil =>
        cases hr
        cases reps with
        | zero =>
          split
          · cases keep <;> cases gen <;> simp
          · rw [traceLoop]
            cases keep <;> cases gen <;> simp
        | succ reps =>
          have := (hend (by simp)).1
          rw [if_pos (by simp [this])]
          cases keep <;> cases gen <;> simp
      | cons s0 steps =>
        have hne : st1.bund ≠ [] := by
          apply hdl (gen, rec, st1)
          rw [List.dropLast_cons_of_ne_nil (by simp)]
          simp
        rw [if_neg (by simpa using hne)]
        rw [ih _ _ (by simpa using hl) (by
            intro s hs
            apply hdl s
            rw [List.dropLast_cons_of_ne_nil (by simp)]
            exact List.mem_cons_of_mem _ hs) (by
            intro hlt
            have := hend (by simpa using hlt)
            exact ⟨this.1, by simp⟩)]
        simp only [Except.ok.injEq, Prod.mk.injEq, true_and]
        refine ⟨?_, ?_⟩
        · cases keep <;> cases gen <;> simp
        · simp [List.getLast?_cons_cons, List.getLast?_cons]

theorem rayTracer_of_run {objs : List (Obj σ K E)} (hobjs : objs ≠ []) {minE : K} {reps : Nat}
    {w : σ} {b : Bundle K E} {st' : TraceState σ K E} {steps}
    (hrun : Run objs minE (initState objs b w) steps st') (hl : steps.length ≤ reps)
    (hdl : ∀ s ∈ steps.dropLast, s.2.2.bund ≠ [])
    (hend : steps.length < reps → st'.bund = [] ∧ steps ≠ []) :
    rayTracer objs w b reps minE true = .ok ⟨st'.bund.map Ray.vertex, st'.bund.map Ray.dir,
      b :: (steps.filter fun s => ! s.1.isEmpty).map (fun s => s.2.1), st'.world⟩ ∧
    rayTracer objs w b reps minE false =
      (match steps.getLast? with
       | none => .error .name
       | some s => .ok ⟨st'.bund.map Ray.vertex, st'.bund.map Ray.dir, [s.1], st'.world⟩) := by
  have h0 : objs.isEmpty = false := by simpa using hobjs
  refine ⟨?_, ?_⟩
  · unfold rayTracer getSurfaces
    simp only [h0]
    simp only [if_true, Bool.false_eq_true, if_false]
    rw [traceLoop_of_run true [b] none hrun hl hdl hend]
    simp
  · unfold rayTracer getSurfaces
    simp only [h0]
    simp only [if_true, Bool.false_eq_true, if_false]
    rw [traceLoop_of_run false [] none hrun hl hdl hend]
    cases steps.getLast? <;> simp

theorem rayTracer_run_false {objs : List (Obj σ K E)} {w : σ} {b : Bundle K E} {reps : Nat} {minE : K}
    {res : TraceResult σ K E} (h : rayTracer objs w b reps minE false = .ok res) :
    objs ≠ [] ∧ ∃ steps st', Run objs minE (initState objs b w) steps st' ∧ steps.length ≤ reps ∧
      (∀ s ∈ steps.dropLast, s.2.2.bund ≠ []) ∧
      (steps.length < reps → st'.bund = [] ∧ steps ≠ []) := by
  unfold rayTracer getSurfaces at h
  by_cases h0 : objs.isEmpty
  · simp [h0] at h
  · simp only [h0] at h
    simp only [Bool.false_eq_true, if_false] at h
    refine ⟨by simpa using h0, ?_⟩
    split at h
    · simp at h
    · rename_i heq
      obtain ⟨steps, h1, h2, _, _, h5, h6⟩ := traceLoop_run heq
      exact ⟨steps, _, h1, h2, h5, h6⟩

/-- The step structure of a trace: the filtered steps are a prefix of the steps. -/
theorem steps_filter {objs : List (Obj σ K E)} (hobj : ∀ o ∈ objs, o.ShapeOk) {minE : K}
    {st st' : TraceState σ K E} (hsh : st.Shape objs) {steps} (hrun : Run objs minE st steps st')
    (hdl : ∀ s ∈ steps.dropLast, s.2.2.bund ≠ []) {k : Nat} {s} (hk : steps[k]? = some s) :
    (steps.filter fun s => ! s.1.isEmpty)[k]? = if s.1 = [] then none else some s := by
  have hgen : ∀ s ∈ steps.dropLast, (fun s : Bundle K E × Bundle K E × TraceState σ K E => ! s.1.isEmpty) s = true := by
    intro s hs
    have := Run.gen_ne_nil hobj hrun hsh (gen := s.1) (rec := s.2.1) (st1 := s.2.2)
      (List.dropLast_subset _ hs) (hdl s hs)
    simpa using this
  rcases List.eq_nil_or_concat steps with rfl | ⟨l, a, rfl⟩
  · simp at hk
  · simp only [List.concat_eq_append, List.dropLast_concat] at hgen hk ⊢
    have hl : l.filter (fun s : Bundle K E × Bundle K E × TraceState σ K E => ! s.1.isEmpty) = l :=
      List.filter_eq_self.2 hgen
    rw [List.filter_append, hl]
    rcases Nat.lt_or_ge k l.length with hlt | hge
    · rw [List.getElem?_append_left hlt] at hk ⊢
      have := hgen s (List.mem_of_getElem? hk)
      rw [if_neg (by simpa using this), hk]
    · rw [List.getElem?_append_right hge] at hk ⊢
      obtain ⟨i, hi⟩ : ∃ i, k - l.length = i := ⟨_, rfl⟩
      rw [hi] at hk ⊢
      cases i with
      | succ i => simp at hk
      | zero =>
        simp at hk
        subst hk
        by_cases h0 : a.1 = []
        · simp [h0]
        · simp [h0]

theorem propagated_append {minE : K} {k : Nat} {bund weak : Bundle K E} (hk : 0 < k)
    (h1 : ∀ r ∈ bund, minE < r.energy) (h2 : ∀ r ∈ weak, r.energy ≤ minE) :
    propagated minE k (bund ++ weak) = bund := by
  unfold propagated
  rw [if_neg (by omega), List.filter_append]
  have e1 : bund.filter (fun r => decide (minE < r.energy)) = bund := by
    rw [List.filter_eq_self]
    intro r hr
    simpa using h1 r hr
  have e2 : weak.filter (fun r => decide (minE < r.energy)) = [] := by
    rw [List.filter_eq_nil_iff]
    intro r hr
    simpa using h2 r hr
  rw [e1, e2, List.append_nil]

/-- The iteration that follows recorded bundle number `k`, when there is one. -/
theorem tree_step {objs : List (Obj σ K E)} (hobj : ∀ o ∈ objs, o.ShapeOk)
    {w : σ} {b : Bundle K E} {reps : Nat} {minE : K}
    {res : TraceResult σ K E} (h : rayTracer objs w b reps minE true = .ok res)
    {k : Nat} {prev : Bundle K E} (hk : res.tree[k]? = some prev) (hkr : k < reps)
    (hprop : k = 0 ∨ propagated minE k prev ≠ []) :
    ∃ st st' gen rec steps weak, Run objs minE (initState objs b w) steps st ∧ steps.length = k ∧
      st.Shape objs ∧ st.bund = propagated minE k prev ∧ prev = st.bund ++ weak ∧
      iterate objs (objs.flatMap Obj.surfs) minE st = .ok (st', gen, rec) ∧
      res.tree[k+1]? = (if gen = [] then none else some rec) ∧
      (0 < k → (∀ r ∈ st.bund, minE < r.energy) ∧ ∀ r ∈ weak, r.energy ≤ minE) := by
  obtain ⟨_, steps, stf, hrun, hlen, htree, _, _, _, hdl, hend⟩ := rayTracer_run h
  have hsh := initState_shape objs b w
  -- the step after level k exists
  have hex : k < steps.length := by
    by_contra hge
    have hge : steps.length ≤ k := by omega
    obtain ⟨he1, he2⟩ := hend (by omega)
    rw [htree] at hk
    cases k with
    | zero =>
      have : steps = [] := by simpa using hge
      exact he2 this
    | succ k =>
      simp only [List.getElem?_cons_succ, List.getElem?_map, Option.map_eq_some_iff] at hk
      obtain ⟨s, hs, rfl⟩ := hk
      have hlt := (List.getElem?_eq_some_iff.1 hs).1
      have hle := List.length_filter_le (fun s : Bundle K E × Bundle K E × TraceState σ K E => ! s.1.isEmpty) steps
      have hkl : steps.length = k + 1 := by omega
      have hall : steps.filter (fun s => ! s.1.isEmpty) = steps :=
        List.filter_eq_self.2 (List.length_filter_eq_length_iff.1 (by omega))
      rw [hall] at hs
      have hsplit : steps = steps.take k ++ [s] := by
        conv_lhs => rw [← List.take_length (l := steps), hkl, List.take_add_one, hs]
        rfl
      rw [hsplit] at hrun
      obtain ⟨m, hm1, hm2⟩ := hrun.append_inv
      obtain ⟨gen0, rec0, st0⟩ := s
      cases hm2 with
      | cons hi0 hr0 =>
        cases hr0
        have hf := iterate_ok (hm1.shape hobj hsh) hi0
        rcases hprop with h0 | h0
        · simp at h0
        · apply h0
          simp only
          rw [hf.recorded, propagated_append (by omega), he1]
          · rw [hf.strong]
            intro r hr
            simpa using (List.mem_filter.1 hr).2
          · intro r hr
            simpa using (List.mem_filter.1 hr).2
  obtain ⟨⟨gen, rec, st1⟩, hsk⟩ : ∃ x, steps[k]? = some x := ⟨_, List.getElem?_eq_getElem hex⟩
  have hsplit : steps = steps.take k ++ (gen, rec, st1) :: steps.drop (k+1) := by
    conv_lhs => rw [← List.take_append_drop k steps]
    rw [List.drop_eq_getElem_cons hex]
    rw [List.getElem?_eq_getElem hex, Option.some.injEq] at hsk
    rw [hsk]
  have hfk := steps_filter hobj hsh hrun hdl hsk
  have hrun' := hrun
  rw [hsplit] at hrun'
  obtain ⟨st, hr1, hr2⟩ := hrun'.append_inv
  have hst := hr1.shape hobj hsh
  have hlk : (steps.take k).length = k := by simp; omega
  have hnext : res.tree[k+1]? = (if gen = [] then none else some rec) := by
    rw [htree]
    simp only [List.getElem?_cons_succ, List.getElem?_map, hfk]
    split <;> simp
  cases hr2 with
  | cons hi hr3 =>
    cases k with
    | zero =>
      rw [htree] at hk
      simp at hk
      simp at hr1
      cases hr1
      refine ⟨_, st1, gen, rec, [], [], Run.nil _, rfl, hst, ?_, ?_, hi, hnext, by simp⟩
      · simp [propagated, hk, initState]
      · simp [hk, initState]
    | succ k =>
      have hkl' : k < steps.length := by omega
      obtain ⟨⟨gen0, rec0, st0⟩, hFk0⟩ : ∃ x, steps[k]? = some x := ⟨_, List.getElem?_eq_getElem hkl'⟩
      have hfk0 := steps_filter hobj hsh hrun hdl hFk0
      have hsplit0 : steps.take (k+1) = steps.take k ++ [(gen0, rec0, st0)] := by
        rw [List.take_add_one, hFk0]; rfl
      have hr1' := hr1
      rw [hsplit0] at hr1'
      obtain ⟨m, hm1, hm2⟩ := hr1'.append_inv
      have hmsh := hm1.shape hobj hsh
      cases hm2 with
      | cons hi0 hr0 =>
        cases hr0
        have hf := iterate_ok hmsh hi0
        have hprev : prev = rec0 := by
          rw [htree] at hk
          simp only [List.getElem?_cons_succ, List.getElem?_map, hfk0] at hk
          split at hk
          · simp at hk
          · simpa using hk.symm
        have h1 : ∀ r ∈ st.bund, minE < r.energy := by
          rw [hf.strong]
          intro r hr
          simpa using (List.mem_filter.1 hr).2
        have h2 : ∀ r ∈ gen0.filter (fun r => decide (r.energy ≤ minE)), r.energy ≤ minE := by
          intro r hr
          simpa using (List.mem_filter.1 hr).2
        refine ⟨st, st1, gen, rec, _, _, hr1, hlk, hst, ?_, ?_, hi, hnext, fun _ => ⟨h1, h2⟩⟩
        · rw [hprev, hf.recorded, propagated_append (by omega) h1 h2]
        · rw [hprev, hf.recorded]

section
variable {objs : List (Obj σ K E)} {per : Surf σ K E → Ray K E → WithTop K}

theorem AllFree.threshold {b : Bundle K E} {surfs : List (Surf σ K E)} {surfOwn : List Nat}
    {rayOwn : List (Option Nat)} {relev : List (List Bool)}
    (h : IShape b.length surfs surfOwn rayOwn relev)
    (hf : AllFree rayOwn relev)
    (hper : ∀ s ∈ surfs, s.PerRay (per s)) :
    threshold b surfs surfOwn rayOwn relev = cutoff per surfs b := by
  unfold Tracer.threshold cutoff
  congr 1
  apply propext
  unfold SelfHitPresent
  constructor
  · rintro ⟨k, j, hk, hj, hnt | ⟨p, ha, hp⟩⟩
    · exact absurd (hf.tested h hk hj) hnt
    · rw [hf.answer_perRay h hper] at ha
      obtain ⟨s, r, hs, hr, rfl⟩ := ha
      exact ⟨s, List.mem_of_getElem? hs, r, List.mem_of_getElem? hr, hp⟩
  · rintro ⟨s, hs, q, hq, hp⟩
    obtain ⟨k, hk⟩ := List.getElem?_of_mem hs
    obtain ⟨j, hj⟩ := List.getElem?_of_mem hq
    refine ⟨k, j, (List.getElem?_eq_some_iff.1 hk).1, (List.getElem?_eq_some_iff.1 hj).1, Or.inr ⟨_, ?_, hp⟩⟩
    rw [hf.answer_perRay h hper]
    exact ⟨s, q, hk, hj, rfl⟩

end
end Tracer
