import Verif.Lemmas.Resume
import Verif.Examples.Scene

/-!
# A trace can be stopped and taken up again (C108)

`engine.ray_tracer(bund, n, min_energy)` followed by another call that starts from the rays of the
last recorded bundle whose energy is above `min_energy` gives, together, what one call with the sum
of the iterations gives: the same bundles in the tree, with the same parents, the same returned
arrays, the same state of the optics managers, and the same exception if there is one.  This is so
for assemblies whose objects neither claim rays nor leave surfaces out of the next iteration.
-/

set_option linter.unusedSectionVars false

namespace Tracer

variable {K E σ : Type _} [Field K] [LinearOrder K] [IsStrictOrderedRing K]
  {objs : List (Obj σ K E)} {w : σ} {b : Bundle K E} {minE : K} {res : TraceResult σ K E}

/-- C108: the trace of `n + m` iterations is the trace of `n` iterations, if that came to its
`n`th level, followed by the trace of the last level's rays above the threshold with `m`
iterations, started in the state in which the first one left the optics managers; the source of
the second trace is not listed twice.  If the second trace raises, so does the long one. -/
theorem C108_resume (hdef : ∀ o ∈ objs, o.Default) {n m : Nat} {last : Bundle K E}
    (h : rayTracer objs w b (n + 1) minE true = .ok res) (hlevel : res.tree[n + 1]? = some last) :
    rayTracer objs w b (n + 1 + m) minE true =
      (rayTracer objs res.world (last.filter fun r => decide (minE < r.energy)) m minE true).map fun rest =>
        ⟨rest.vertices, rest.directions, res.tree ++ rest.tree.tail, rest.world⟩ := by
  have hobj : ∀ o ∈ objs, o.ShapeOk := fun o ho => (hdef o ho).shapeOk
  have hne : objs ≠ [] := (rayTracer_run h).1
  rw [rayTracer_loop hne] at h
  cases hl : traceLoop objs (objs.flatMap Obj.surfs) minE true (n + 1) (initState objs b w) [b] none with
  | error e => rw [hl] at h; simp [Except.map] at h
  | ok x =>
    obtain ⟨st, tree, lst⟩ := x
    rw [hl] at h
    simp only [Except.map, Except.ok.injEq] at h
    obtain ⟨steps, hrun, hlen, htree, _, hdl, _⟩ := traceLoop_run hl
    subst h
    simp only [if_true, List.singleton_append] at htree
    -- all the iterations were recorded, and the last one led to `st`
    have hsteps : steps.length = n + 1 ∧ steps.filter (fun s => ! s.1.isEmpty) = steps := by
      have h1 := (List.getElem?_eq_some_iff.1 hlevel).1
      simp only [htree, List.length_cons, List.length_map] at h1
      have h2 := List.length_filter_le (fun s : Bundle K E × Bundle K E × TraceState σ K E => ! s.1.isEmpty) steps
      exact ⟨by omega, List.filter_sublist.eq_of_length (by omega)⟩
    rcases List.eq_nil_or_concat steps with rfl | ⟨front, ⟨gen, rec, st1⟩, rfl⟩
    · simp at hsteps
    simp only [List.concat_eq_append] at *
    obtain ⟨mid, hr1, hr2⟩ := hrun.append_inv
    have hmid := hr1.shape hobj (initState_shape objs b w)
    cases hr2 with
    | cons hi hr3 =>
      cases hr3
      have hf := iterate_ok hmid hi
      have hlast : last = rec := by
        rw [hsteps.2] at htree
        have hfl : front.length = n := by simpa using hsteps.1
        rw [htree] at hlevel
        simp only [List.map_append, List.map_cons, List.map_nil, List.getElem?_cons_succ] at hlevel
        rw [List.getElem?_append_right (by simp [hfl])] at hlevel
        simpa [hfl] using hlevel.symm
      subst hlast
      have hstrong : (last.filter fun r => decide (minE < r.energy)) = st.bund := by
        rw [hf.recorded, List.filter_append, hf.strong]
        simp [List.filter_filter, ← not_le]
      have hst : st = initState objs st.bund st.world :=
        free_init (iterate_shape hobj hmid hi) (iterate_free hdef hmid hi)
      rw [hstrong, rayTracer_loop hne, traceLoop_add, hl]
      simp only [Nat.succ_ne_zero, ne_eq, not_false_eq_true, true_and]
      split
      · rename_i hemp
        rw [hemp, rayTracer_dark hne]
        simp [Except.map, hemp]
      · rw [rayTracer_loop hne, ← hst]
        have h1 := traceLoop_before (objs := objs) (surfs := objs.flatMap Obj.surfs) (minE := minE) (n := m)
          (st := st) (pre := tree) (tree := []) (last := lst) (last' := none)
        have h2 := traceLoop_before (objs := objs) (surfs := objs.flatMap Obj.surfs) (minE := minE) (n := m)
          (st := st) (pre := [st.bund]) (tree := []) (last := none) (last' := none)
        rw [List.append_nil] at h1 h2
        cases h3 : traceLoop objs (objs.flatMap Obj.surfs) minE true m st [] none with
        | error e =>
          rw [h3] at h1 h2
          cases h4 : traceLoop objs (objs.flatMap Obj.surfs) minE true m st tree lst with
          | ok x => rw [h4] at h1; simp [Except.map] at h1
          | error e1 =>
            cases h5 : traceLoop objs (objs.flatMap Obj.surfs) minE true m st [st.bund] none with
            | ok x => rw [h5] at h2; simp [Except.map] at h2
            | error e2 =>
              rw [h4] at h1; rw [h5] at h2
              simp only [Except.map, Except.error.injEq] at h1 h2 ⊢
              rw [h1, h2]
        | ok y =>
          rw [h3] at h1 h2
          cases h4 : traceLoop objs (objs.flatMap Obj.surfs) minE true m st tree lst with
          | error e => rw [h4] at h1; simp [Except.map] at h1
          | ok x1 =>
            cases h5 : traceLoop objs (objs.flatMap Obj.surfs) minE true m st [st.bund] none with
            | error e => rw [h5] at h2; simp [Except.map] at h2
            | ok x2 =>
              rw [h4] at h1; rw [h5] at h2
              simp only [Except.map, Except.ok.injEq, Prod.mk.injEq] at h1 h2 ⊢
              rw [h1.1, h1.2, h2.1, h2.2]
              rfl

/-- C108: a trace that ended before its `n`th level gives the same result with any larger number of
iterations, for any objects. -/
theorem C108_ended (hobj : ∀ o ∈ objs, o.ShapeOk) {n : Nat} (h : rayTracer objs w b n minE true = .ok res)
    (hended : res.tree[n]? = none) (m : Nat) : rayTracer objs w b (n + m) minE true = .ok res := by
  have hne : objs ≠ [] := (rayTracer_run h).1
  rw [rayTracer_loop hne] at h ⊢
  rw [traceLoop_add]
  cases hl : traceLoop objs (objs.flatMap Obj.surfs) minE true n (initState objs b w) [b] none with
  | error e => rw [hl] at h; simp [Except.map] at h
  | ok x =>
    obtain ⟨st, tree, lst⟩ := x
    rw [hl] at h
    obtain ⟨steps, hrun, hlen, htree, _, hdl, hend⟩ := traceLoop_run hl
    have hb : n ≠ 0 ∧ st.bund = [] := by
      simp only [Except.map, Except.ok.injEq] at h
      subst h
      simp only [if_true, List.singleton_append] at htree
      simp only [htree, List.getElem?_eq_none_iff, List.length_cons, List.length_map] at hended
      refine ⟨by omega, ?_⟩
      by_contra hbn
      have hlen' : steps.length = n := by
        by_contra hc
        exact hbn (hend (by omega)).1
      have hall : ∀ s ∈ steps, (fun s : Bundle K E × Bundle K E × TraceState σ K E => ! s.1.isEmpty) s = true := by
        intro s hs
        have hsb : s.2.2.bund ≠ [] := by
          rcases List.eq_nil_or_concat steps with rfl | ⟨l, a, rfl⟩
          · simp at hs
          simp only [List.concat_eq_append, List.dropLast_concat] at *
          rcases List.mem_append.1 hs with hs | hs
          · exact hdl s hs
          · obtain ⟨mid, _, hr2⟩ := hrun.append_inv
            simp only [List.mem_singleton] at hs
            subst hs
            cases hr2 with
            | cons hi hr3 => cases hr3; exact hbn
        simpa using Run.gen_ne_nil hobj hrun (initState_shape objs b w) (gen := s.1) (rec := s.2.1) (st1 := s.2.2) hs hsb
      rw [List.filter_eq_self.2 hall] at hended
      omega
    simp only [if_pos hb]
    exact h

/-- C108: a trace that raises raises the same with any larger number of iterations. -/
theorem C108_raised {n : Nat} {e : Err} (h : rayTracer objs w b n minE true = .error e) (m : Nat) :
    rayTracer objs w b (n + m) minE true = .error e := by
  by_cases hne : objs = []
  · subst hne
    simpa [rayTracer, getSurfaces] using h
  · rw [rayTracer_loop hne] at h ⊢
    rw [traceLoop_add]
    cases hl : traceLoop objs (objs.flatMap Obj.surfs) minE true n (initState objs b w) [b] none with
    | ok x => rw [hl] at h; simp [Except.map] at h
    | error e' => rw [hl] at h; simpa [Except.map] using h

/-- C108 at work: of the two mirrors' trace, two iterations, and then two more from the ray of the
second level that is above the threshold. -/
example : ∃ (res : TraceResult Unit ℚ Unit) (last : Bundle ℚ Unit),
    rayTracer Examples.facing () Examples.source (1 + 1) (1/5) true = .ok res ∧ res.tree[1 + 1]? = some last ∧
      last.length = 1 ∧ ∀ m, rayTracer Examples.facing () Examples.source (1 + 1 + m) (1/5) true =
        (rayTracer Examples.facing res.world (last.filter fun r => decide (1/5 < r.energy)) m (1/5) true).map fun rest =>
          ⟨rest.vertices, rest.directions, res.tree ++ rest.tree.tail, rest.world⟩ := by
  have h1 : ((rayTracer Examples.facing () Examples.source (1 + 1) (1/5) true).toOption.map fun r => r.tree.map List.length) =
      some [2, 2, 1] := by decide +kernel
  cases h : rayTracer Examples.facing () Examples.source (1 + 1) (1/5) true with
  | error e => rw [h] at h1; simp [Except.toOption] at h1
  | ok res =>
    rw [h] at h1
    simp only [Except.toOption, Option.map_some, Option.some.injEq] at h1
    have h2 := congrArg (fun l => l[1 + 1]?) h1
    simp only [List.getElem?_map] at h2
    cases hl : res.tree[1 + 1]? with
    | none => rw [hl] at h2; simp at h2
    | some last =>
      rw [hl] at h2
      exact ⟨res, last, rfl, hl, by simpa using h2, fun m => C108_resume Examples.facing_default h hl⟩

/-- C108: the trace of the two mirrors ends before its fifth level. -/
example : ∃ res : TraceResult Unit ℚ Unit, rayTracer Examples.facing () Examples.source 4 (1/5) true = .ok res ∧
    res.tree[4]? = none ∧ ∀ m, rayTracer Examples.facing () Examples.source (4 + m) (1/5) true = .ok res := by
  obtain ⟨res, h, ht⟩ := Examples.facing_ok
  have hlen := congrArg List.length ht
  simp only [List.length_map, List.length_cons, List.length_nil] at hlen
  have hn : res.tree[4]? = none := List.getElem?_eq_none_iff.2 (by omega)
  exact ⟨res, h, hn, C108_ended Examples.facing_shape h hn⟩

/-- C108: a trace of an assembly without objects raises, whatever the number of iterations. -/
example (m : Nat) : rayTracer ([] : List (Obj Unit ℚ Unit)) () Examples.source (2 + m) (1/5) true = .error .type :=
  C108_raised rfl m

namespace Resume

/-- The two facing plates as one object which, like the one-sided mirror, leaves its surfaces out of
the next iteration. -/
def shy : List (Obj Unit ℚ Unit) :=
  [⟨Examples.lower.surfs ++ Examples.upper.surfs, Obj.defaultOwn, Obj.skipNext 2⟩]

def down : Ray ℚ Unit := ⟨⟨0, 0, 1⟩, ⟨0, 0, -1⟩, 1, 0, none, ()⟩
def up : Ray ℚ Unit := ⟨⟨0, 0, 0⟩, ⟨0, 0, 1⟩, 1/2, 0, none, ()⟩

end Resume

/-- C108: the objects' policies matter.  When an object leaves its surfaces out of the next
iteration, this is forgotten between the two traces: the ray reflected by one plate of the object
goes on to infinity in one trace, and is caught by the facing plate when the trace is taken up
again. -/
theorem C108_policies_matter : ∃ (res long rest : TraceResult Unit ℚ Unit) (r : Ray ℚ Unit),
    rayTracer Resume.shy () [Resume.down] 1 0 true = .ok res ∧ res.tree = [[Resume.down], [r]] ∧ 0 < r.energy ∧
      rayTracer Resume.shy () [Resume.down] 2 0 true = .ok long ∧ long.tree = res.tree ∧
      rayTracer Resume.shy res.world [r] 1 0 true = .ok rest ∧ rest.tree.map List.length = [1, 1] := by
  have h1 : ((rayTracer Resume.shy () [Resume.down] 1 0 true).toOption.map fun r => r.tree) =
      some [[Resume.down], [Resume.up]] := by decide +kernel
  have h2 : ((rayTracer Resume.shy () [Resume.down] 2 0 true).toOption.map fun r => r.tree) =
      some [[Resume.down], [Resume.up]] := by decide +kernel
  have h3 : ((rayTracer Resume.shy () [Resume.up] 1 0 true).toOption.map fun r => r.tree.map List.length) =
      some [1, 1] := by decide +kernel
  cases a1 : rayTracer Resume.shy () [Resume.down] 1 0 true with
  | error e => rw [a1] at h1; simp [Except.toOption] at h1
  | ok res =>
  cases a2 : rayTracer Resume.shy () [Resume.down] 2 0 true with
  | error e => rw [a2] at h2; simp [Except.toOption] at h2
  | ok long =>
  cases a3 : rayTracer Resume.shy () [Resume.up] 1 0 true with
  | error e => rw [a3] at h3; simp [Except.toOption] at h3
  | ok rest =>
    rw [a1] at h1; rw [a2] at h2; rw [a3] at h3
    simp only [Except.toOption, Option.map_some, Option.some.injEq] at h1 h2 h3
    exact ⟨res, long, rest, Resume.up, rfl, h1, by decide +kernel, rfl, h2.trans h1.symm, a3, h3⟩

/-- C108: the rays to go on with are those above the threshold.  Taken up with the whole of the last
recorded bundle, the trace of the two mirrors finds a level more than the one long trace, which does
not follow the weak ray. -/
theorem C108_weak_matter : ∃ (res long rest : TraceResult Unit ℚ Unit) (last : Bundle ℚ Unit),
    rayTracer Examples.facing () Examples.source 3 (1/5) true = .ok res ∧ res.tree[3]? = some last ∧
      (∀ m, rayTracer Examples.facing () Examples.source (3 + m) (1/5) true = .ok long) ∧ long.tree = res.tree ∧
      rayTracer Examples.facing res.world last 1 (1/5) true = .ok rest ∧ rest.tree.length = 2 := by
  have h1 : ((rayTracer Examples.facing () Examples.source 3 (1/5) true).toOption.map fun r =>
      (r.tree.map List.length, r.tree.getLast?, r.vertices)) = some ([2, 2, 1, 1],
        some [⟨⟨0, 0, 0⟩, ⟨0, 0, 1⟩, 3/16, 0, none, ()⟩], []) := by decide +kernel
  have h3 : ((rayTracer Examples.facing () [⟨⟨0, 0, 0⟩, ⟨0, 0, 1⟩, 3/16, 0, none, ()⟩] 1 (1/5) true).toOption.map fun r =>
      r.tree.length) = some 2 := by decide +kernel
  cases a1 : rayTracer Examples.facing () Examples.source 3 (1/5) true with
  | error e => rw [a1] at h1; simp [Except.toOption] at h1
  | ok res =>
  cases a3 : rayTracer Examples.facing () [⟨⟨0, 0, 0⟩, ⟨0, 0, 1⟩, 3/16, 0, none, ()⟩] 1 (1/5) true with
  | error e => rw [a3] at h3; simp [Except.toOption] at h3
  | ok rest =>
    rw [a1] at h1; rw [a3] at h3
    simp only [Except.toOption, Option.map_some, Option.some.injEq, Prod.mk.injEq] at h1 h3
    obtain ⟨hl, hlast, hv⟩ := h1
    have hlen : res.tree.length = 4 := by simpa using congrArg List.length hl
    have h4 : res.tree[2 + 1]? = some [⟨⟨0, 0, 0⟩, ⟨0, 0, 1⟩, 3/16, 0, none, ()⟩] := by
      rw [← hlast, List.getLast?_eq_getElem?, hlen]
    refine ⟨res, res, rest, _, rfl, h4, fun m => ?_, rfl, a3, h3⟩
    rw [C108_resume Examples.facing_default a1 h4]
    have hw : ([⟨⟨0, 0, 0⟩, ⟨0, 0, 1⟩, 3/16, 0, none, ()⟩] : Bundle ℚ Unit).filter
        (fun r => decide (1/5 < r.energy)) = [] := by decide +kernel
    rw [hw, rayTracer_dark (by simp [Examples.facing])]
    have hd : res.directions = [] := by
      obtain ⟨_, _, st, _, _, _, e1, e2, _⟩ := rayTracer_run a1
      rw [hv] at e1
      rw [e2, List.map_eq_nil_iff.1 e1.symm]
      rfl
    cases res
    simp only at hv hd
    simp [Except.map, hv, hd]

end Tracer
