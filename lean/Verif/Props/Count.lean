import Verif.Lemmas.Count
import Verif.Props.Ties

/-! # How many children a ray has (C09) -/

set_option linter.unusedSectionVars false

namespace Tracer

variable {K E σ : Type _} [Field K] [LinearOrder K] [IsStrictOrderedRing K]
  {objs : List (Obj σ K E)} {w : σ} {b : Bundle K E} {reps : Nat} {minE : K}
  {res : TraceResult σ K E} {per : Surf σ K E → Ray K E → WithTop K}

/-- C09: a call of `intersect_ray` marks at most one surface for a ray exactly when no two tested surfaces tie for the
least usable answer about it. -/
theorem C09_iff {surfs : List (Surf σ K E)} {surfOwn : List Nat}
    {rayOwn : List (Option Nat)} {relev : List (List Bool)}
    (hshape : IShape b.length surfs surfOwn rayOwn relev) (hlen : ∀ s ∈ surfs, s.LengthOk)
    {front owned : List (List Bool)}
    (h : intersectRay b surfs surfOwn rayOwn relev = .ok (front, owned)) (j : Nat) :
    (∀ k k', Marked front k j → Marked front k' j → k = k') ↔
    ∀ (k k' : Nat) (t : K), Answer b surfs surfOwn rayOwn relev k j t → Answer b surfs surfOwn rayOwn relev k' j t →
      threshold b surfs surfOwn rayOwn relev < t →
      (∀ k'' (t'' : K), Answer b surfs surfOwn rayOwn relev k'' j t'' →
        threshold b surfs surfOwn rayOwn relev < t'' → t ≤ t'') → k = k' := by
  simp only [C08_nearest_iff hshape hlen h]
  constructor
  · intro hm k k' t ha ha' ht hmin
    exact hm k k' ⟨t, ha, ht, hmin⟩ ⟨t, ha', ht, hmin⟩
  · rintro hm k k' ⟨t, ha, ht, hmin⟩ ⟨t', ha', ht', hmin'⟩
    have : t = t' := le_antisymm (hmin _ _ ha' ht') (hmin' _ _ ha ht)
    subst this
    exact hm k k' t ha ha' ht hmin

/-- C09, for every trace with the default policies and surfaces that answer a hit by one ray: a recorded ray that is
traced on -- one of the source, or one with more than the least energy -- has as many children as there are surfaces
nearest to it, and any other recorded ray has none. -/
theorem C09_children (hdef : ∀ o ∈ objs, o.Default)
    (hper : AllSurfs (fun s => s.PerRay (per s)) objs) (hone : AllSurfs Surf.OneChild objs)
    (h : rayTracer objs w b reps minE true = .ok res)
    {k : Nat} {prev lvl : Bundle K E} (hk : res.tree[k]? = some prev)
    (hk1 : res.tree[k + 1]? = some lvl) {j : Nat} {p : Ray K E} (hj : prev[j]? = some p) :
    (lvl.filter fun r => r.parent == j).length =
      if k = 0 ∨ minE < p.energy then
        timesHit (cutoff per (objs.flatMap Obj.surfs) (propagated minE k prev)) per (objs.flatMap Obj.surfs) p
      else 0 := by
  have hobj : ∀ o ∈ objs, o.ShapeOk := fun o ho => (hdef o ho).shapeOk
  have hlen : AllSurfs Surf.LengthOk objs := fun o ho s hs rays => by
    rw [hper o ho s hs]; simp
  have hpar : AllSurfs Surf.ParentsOk objs := fun o ho s hs w rays sel out w' he r hr => by
    rw [← hone o ho s hs _ _ _ _ _ he]; exact List.mem_map.2 ⟨r, hr, rfl⟩
  obtain ⟨st, st', gen, steps, prev', hrun, _, hsh, hi, _, hprev, h0, h1⟩ := tree_level hobj h hk1
  rw [hk] at hprev; cases hprev
  have hfree := hrun.free hdef (initState_shape objs b w) (initState_free objs b w)
  have hprop : propagated minE k prev = st.bund := by
    cases k with
    | zero => rw [(h0 rfl).1, (h0 rfl).2]; rfl
    | succ k =>
      obtain ⟨weak, hw, hs1, hs2⟩ := h1 (by omega)
      rw [hw, propagated_append (by omega) hs1 hs2]
  rw [hprop, ← childCount_eq, childCount_perm j (recorded_perm hsh hi)]
  rcases Nat.lt_or_ge j st.bund.length with hlt | hge
  · have hpj : st.bund[j]? = some p ∧ (k = 0 ∨ minE < p.energy) := by
      cases k with
      | zero => exact ⟨by rw [(h0 rfl).2, ← (h0 rfl).1]; exact hj, .inl rfl⟩
      | succ k =>
        obtain ⟨weak, hw, hs1, _⟩ := h1 (by omega)
        rw [hw, List.getElem?_append_left hlt] at hj
        exact ⟨hj, .inr (hs1 p (List.mem_of_getElem? hj))⟩
    rw [if_pos hpj.2]
    exact iterate_count hsh hfree hper hone hi hpj.1
  · have hno : ¬ (k = 0 ∨ minE < p.energy) := by
      rintro (rfl | hlt)
      · rw [(h0 rfl).2, ← (h0 rfl).1] at hge
        have := (List.getElem?_eq_some_iff.1 hj).1
        omega
      · cases k with
        | zero =>
          rw [(h0 rfl).2, ← (h0 rfl).1] at hge
          have := (List.getElem?_eq_some_iff.1 hj).1
          omega
        | succ k =>
          obtain ⟨weak, hw, _, hs2⟩ := h1 (by omega)
          rw [hw, List.getElem?_append_right hge] at hj
          exact absurd hlt (not_lt.2 (hs2 p (List.mem_of_getElem? hj)))
    rw [if_neg hno]
    unfold childCount
    rw [List.count_eq_zero]
    intro hm
    obtain ⟨r, hr, hrj⟩ := List.mem_map.1 hm
    obtain ⟨_, _, q, hc⟩ := generated_child hsh hlen hpar hi hr
    have := (List.getElem?_eq_some_iff.1 hc.parent).1
    omega

/-- C09, for every trace with the default policies and surfaces that answer a hit by one ray: no ray of a recorded
bundle has two children exactly when no ray that was traced on has two nearest surfaces. -/
theorem C09_trace_iff (hdef : ∀ o ∈ objs, o.Default)
    (hper : AllSurfs (fun s => s.PerRay (per s)) objs) (hone : AllSurfs Surf.OneChild objs)
    (h : rayTracer objs w b reps minE true = .ok res)
    {k : Nat} {prev lvl : Bundle K E} (hk : res.tree[k]? = some prev) (hk1 : res.tree[k + 1]? = some lvl) :
    (lvl.map Ray.parent).Nodup ↔ ∀ p ∈ prev, k = 0 ∨ minE < p.energy →
      timesHit (cutoff per (objs.flatMap Obj.surfs) (propagated minE k prev)) per (objs.flatMap Obj.surfs) p ≤ 1 := by
  have hobj : ∀ o ∈ objs, o.ShapeOk := fun o ho => (hdef o ho).shapeOk
  have hlen : AllSurfs Surf.LengthOk objs := fun o ho s hs rays => by
    rw [hper o ho s hs]; simp
  have hpar : AllSurfs Surf.ParentsOk objs := fun o ho s hs w rays sel out w' he r hr => by
    rw [← hone o ho s hs _ _ _ _ _ he]; exact List.mem_map.2 ⟨r, hr, rfl⟩
  rw [List.nodup_iff_count_le_one]
  constructor
  · intro hn p hp ht
    obtain ⟨j, hj⟩ := List.getElem?_of_mem hp
    have := C09_children hdef hper hone h hk hk1 hj
    rw [if_pos ht, ← childCount_eq] at this
    rw [← this]
    exact hn j
  · intro hn j
    cases hj : prev[j]? with
    | none =>
      have hz : (lvl.map Ray.parent).count j = 0 := by
        rw [List.count_eq_zero]
        intro hm
        obtain ⟨r, hr, rfl⟩ := List.mem_map.1 hm
        obtain ⟨prev', q, hp', hq, _⟩ := C06_parents_valid hobj hlen hpar h hk1 hr
        rw [hk] at hp'; cases hp'
        rw [hj] at hq
        cases hq
      omega
    | some p =>
      have := C09_children hdef hper hone h hk hk1 hj
      rw [← childCount_eq] at this
      change childCount j lvl ≤ 1
      rw [this]
      split
      · rename_i ht
        exact hn p (List.mem_of_getElem? hj) ht
      · omega

theorem Examples.coincident_one : AllSurfs Surf.OneChild Examples.coincident := by
  intro o ho s hs
  simp only [Examples.coincident, List.mem_cons, List.not_mem_nil, or_false, or_self] at ho
  subst ho
  simp only [Examples.lower, List.mem_cons, List.not_mem_nil, or_false] at hs
  subst hs
  exact mkSurf_oneChild (K := ℚ) _ (fun _ _ _ _ _ => reflective_one (1/2 : ℚ) _ _ _ _ _) _

theorem Examples.coincident_default : ∀ o ∈ Examples.coincident, o.Default := by
  intro o ho
  simp only [Examples.coincident, List.mem_cons, List.not_mem_nil, or_false, or_self] at ho
  subst ho
  exact ⟨rfl, rfl⟩

theorem Examples.coincident_perRay : AllSurfs (fun s => s.PerRay s.single) Examples.coincident := by
  intro o ho s hs
  simp only [Examples.coincident, List.mem_cons, List.not_mem_nil, or_false, or_self] at ho
  subst ho
  simp only [Examples.lower, List.mem_cons, List.not_mem_nil, or_false] at hs
  subst hs
  exact (mkSurf_perRay flatGM_perRay _ _).single

/-! Both surfaces of the coincident pair are nearest to each ray of the source, since each has two children. -/
example : ∃ (prev : Bundle ℚ Unit) (p : Ray ℚ Unit), prev[1]? = some p ∧
    timesHit (cutoff Surf.single (Examples.coincident.flatMap Obj.surfs) (propagated (1/5) 0 prev)) Surf.single
      (Examples.coincident.flatMap Obj.surfs) p = 2 := by
  have h := C09_counterexample
  cases hr : rayTracer Examples.coincident () Examples.source 1 (1/5) true with
  | error e => rw [hr] at h; simp [Except.toOption] at h
  | ok res =>
    rw [hr] at h
    simp only [Except.toOption, Option.map_some, Option.some.injEq] at h
    have g := fun n : Nat => congrArg (fun l => l[n]?) h
    have g0 := g 0
    have g1 := g 1
    simp only [List.getElem?_map, List.getElem?_cons_zero, List.getElem?_cons_succ, Option.map_eq_some_iff] at g0 g1
    obtain ⟨prev, hp, e0⟩ := g0
    obtain ⟨lvl, hl, e1⟩ := g1
    have q0 := congrArg (fun l => l[1]?) e0
    simp only [List.getElem?_map, List.getElem?_cons_zero, List.getElem?_cons_succ, Option.map_eq_some_iff] at q0
    obtain ⟨p, hj, _⟩ := q0
    refine ⟨prev, p, hj, ?_⟩
    have hc := C09_children Examples.coincident_default Examples.coincident_perRay Examples.coincident_one hr hp hl hj
    rw [if_pos (.inl rfl)] at hc
    rw [← hc, ← childCount_eq]
    unfold childCount
    have : lvl.map Ray.parent = [0, 1, 0, 1] := by
      have := congrArg (List.map Prod.fst) e1
      simpa [List.map_map, Function.comp_def] using this
    rw [this]
    decide

/-! And some ray of the source has two nearest surfaces, as two rays of the next bundle have the same parent. -/
example : ∃ (prev : Bundle ℚ Unit), ∃ p ∈ prev,
    1 < timesHit (cutoff Surf.single (Examples.coincident.flatMap Obj.surfs) (propagated (1/5) 0 prev)) Surf.single
      (Examples.coincident.flatMap Obj.surfs) p := by
  have h := C09_counterexample
  cases hr : rayTracer Examples.coincident () Examples.source 1 (1/5) true with
  | error e => rw [hr] at h; simp [Except.toOption] at h
  | ok res =>
    rw [hr] at h
    simp only [Except.toOption, Option.map_some, Option.some.injEq] at h
    have g := fun n : Nat => congrArg (fun l => l[n]?) h
    have g0 := g 0
    have g1 := g 1
    simp only [List.getElem?_map, List.getElem?_cons_zero, List.getElem?_cons_succ, Option.map_eq_some_iff] at g0 g1
    obtain ⟨prev, hp, e0⟩ := g0
    obtain ⟨lvl, hl, e1⟩ := g1
    have hi := C09_trace_iff Examples.coincident_default Examples.coincident_perRay Examples.coincident_one hr hp hl
    have : lvl.map Ray.parent = [0, 1, 0, 1] := by
      have := congrArg (List.map Prod.fst) e1
      simpa [List.map_map, Function.comp_def] using this
    rw [this] at hi
    by_contra hno
    push Not at hno
    exact absurd (hi.2 fun p hp _ => hno prev p hp) (by decide)

/-! The lower of the two facing plates alone is marked for the second ray, so no other ties with it. -/
example : ∀ (k k' : Nat) (t : ℚ),
    Answer Examples.source (Examples.facing.flatMap Obj.surfs) (surfOwnership Examples.facing)
      (initState Examples.facing Examples.source ()).rayOwn (initState Examples.facing Examples.source ()).relev k 1 t →
    Answer Examples.source (Examples.facing.flatMap Obj.surfs) (surfOwnership Examples.facing)
      (initState Examples.facing Examples.source ()).rayOwn (initState Examples.facing Examples.source ()).relev k' 1 t →
    threshold Examples.source (Examples.facing.flatMap Obj.surfs) (surfOwnership Examples.facing)
      (initState Examples.facing Examples.source ()).rayOwn (initState Examples.facing Examples.source ()).relev < t →
    (∀ k'' (t'' : ℚ), Answer Examples.source (Examples.facing.flatMap Obj.surfs) (surfOwnership Examples.facing)
      (initState Examples.facing Examples.source ()).rayOwn (initState Examples.facing Examples.source ()).relev k'' 1 t'' →
      threshold Examples.source (Examples.facing.flatMap Obj.surfs) (surfOwnership Examples.facing)
      (initState Examples.facing Examples.source ()).rayOwn (initState Examples.facing Examples.source ()).relev < t'' →
      t ≤ t'') → k = k' := by
  refine (C09_iff Examples.facing_shape0 Examples.facing_len Examples.facing_intersect 1).1 ?_
  rintro k k' ⟨r, hr, ht⟩ ⟨r', hr', ht'⟩
  have key : ∀ (k : Nat) (r : List Bool), ([[true, true], [false, false]] : List (List Bool))[k]? = some r →
      r[1]? = some true → k = 0 := by
    intro k r hr ht
    match k with
    | 0 => rfl
    | 1 => simp at hr; subst hr; simp at ht
    | k + 2 => simp at hr
  rw [key k r hr ht, key k' r' hr' ht']

end Tracer
