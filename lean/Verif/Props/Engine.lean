import Verif.Lemmas.Level
import Verif.Examples.Scene

/-!
# Properties of the tracing engine (C06 - C12, C16, C18 - C21)

The theorems are about every assembly whose objects and surfaces obey the documented protocol
(`Spec/Trace.lean`); `Lemmas/Contracts.lean` and its companions show that the package's own
surfaces do.  The examples use the scene of `Examples/Scene.lean`.
-/

set_option linter.unusedSectionVars false

namespace Tracer

variable {K E σ : Type _} [Field K] [LinearOrder K] [IsStrictOrderedRing K]
  {objs : List (Obj σ K E)} {w : σ} {b : Bundle K E} {reps : Nat} {minE : K}
  {res : TraceResult σ K E}

/-! ### C06 -/

/-- C06: every ray recorded after the source has a parent in the previous recorded bundle, which
is the source or above the energy threshold. -/
theorem C06_parents_valid (hobj : ∀ o ∈ objs, o.ShapeOk) (hlen : AllSurfs Surf.LengthOk objs)
    (hpar : AllSurfs Surf.ParentsOk objs)
    (h : rayTracer objs w b reps minE true = .ok res)
    {k : Nat} {lvl : Bundle K E} (hk : res.tree[k + 1]? = some lvl) {r : Ray K E} (hr : r ∈ lvl) :
    ∃ prev p, res.tree[k]? = some prev ∧ prev[r.parent]? = some p ∧ (0 < k → minE < p.energy) := by
  obtain ⟨st, st', gen, steps, prev, _, _, hsh, hi, _, hprev, h0, h1⟩ := tree_level hobj h hk
  have hmem : r ∈ gen := by
    have hf := iterate_ok hsh hi
    rw [hf.recorded, hf.strong] at hr
    rcases List.mem_append.1 hr with hr | hr <;> exact (List.mem_filter.1 hr).1
  obtain ⟨_, _, p, hc⟩ := generated_child hsh hlen hpar hi hmem
  refine ⟨prev, p, hprev, ?_, ?_⟩
  · cases k with
    | zero => rw [(h0 rfl).1, ← (h0 rfl).2]; exact hc.parent
    | succ k =>
      obtain ⟨weak, hw, _, _⟩ := h1 (by omega)
      rw [hw, List.getElem?_append_left (List.getElem?_eq_some_iff.1 hc.parent).1]
      exact hc.parent
  · intro hk0
    obtain ⟨weak, _, hs, _⟩ := h1 hk0
    exact hs p (List.mem_of_getElem? hc.parent)

example : ∃ res, rayTracer Examples.facing () Examples.source 4 (1/5) true = .ok res ∧
    ∃ lvl, res.tree[2]? = some lvl ∧ ∃ r ∈ lvl, r.parent = 1 := by
  obtain ⟨res, h, ht⟩ := Examples.facing_ok
  refine ⟨res, h, ?_⟩
  have h2 := congrArg (fun l => l[2]?) ht
  simp only [List.getElem?_map] at h2
  cases hl : res.tree[2]? with
  | none => rw [hl] at h2; simp at h2
  | some lvl =>
    rw [hl] at h2
    refine ⟨lvl, rfl, ?_⟩
    cases lvl with
    | nil => simp at h2
    | cons r l => simp at h2; exact ⟨r, by simp, h2.1.1⟩

/-! ### C07 -/

/-- C07: every ray recorded after the source starts on its parent's ray, in front of the parent's
starting point, at a parameter some surface of the assembly answered. -/
theorem C07_starts_on_parent (hobj : ∀ o ∈ objs, o.ShapeOk) (hlen : AllSurfs Surf.LengthOk objs)
    (hpar : AllSurfs Surf.ParentsOk objs) (hon : AllSurfs Surf.OnRay objs)
    (h : rayTracer objs w b reps minE true = .ok res)
    {k : Nat} {lvl : Bundle K E} (hk : res.tree[k + 1]? = some lvl) {r : Ray K E} (hr : r ∈ lvl) :
    ∃ prev p, res.tree[k]? = some prev ∧ prev[r.parent]? = some p ∧
      ∃ t : K, 1 / 10 ^ 10 < t ∧ r.vertex = p.at t ∧
      ∃ s ∈ objs.flatMap Obj.surfs, ∃ (rays : Bundle K E) (i : Nat), rays[i]? = some p ∧
        (∀ q ∈ rays, q ∈ prev) ∧ (s.register rays)[i]? = some (t : WithTop K) := by
  obtain ⟨st, st', gen, steps, prev, _, _, hsh, hi, _, hprev, h0, h1⟩ := tree_level hobj h hk
  have hmem : r ∈ gen := by
    have hf := iterate_ok hsh hi
    rw [hf.recorded, hf.strong] at hr
    rcases List.mem_append.1 hr with hr | hr <;> exact (List.mem_filter.1 hr).1
  obtain ⟨kk, s, p, hc⟩ := generated_child hsh hlen hpar hi hmem
  have hsub : ∀ q ∈ st.bund, q ∈ prev := by
    cases k with
    | zero => rw [(h0 rfl).1, (h0 rfl).2]; exact fun q hq => hq
    | succ k =>
      obtain ⟨weak, hw, _, _⟩ := h1 (by omega)
      rw [hw]; exact fun q hq => List.mem_append_left _ hq
  have hpp : prev[r.parent]? = some p := by
    cases k with
    | zero => rw [(h0 rfl).1, ← (h0 rfl).2]; exact hc.parent
    | succ k =>
      obtain ⟨weak, hw, _, _⟩ := h1 (by omega)
      rw [hw, List.getElem?_append_left (List.getElem?_eq_some_iff.1 hc.parent).1]
      exact hc.parent
  refine ⟨prev, p, hprev, hpp, ?_⟩
  obtain ⟨w1, w2, rays, raw, sel, r0, t, hout, _, hr0, hr0s, hreq, hp0, hreg, hall, hthr, ha, _⟩ := hc.raw
  obtain ⟨q, t', hq, ht', hv⟩ := mem_allSurfs hon (List.mem_of_getElem? hc.surf) w1 rays sel raw w2
    (fun i hi => by
      obtain ⟨t, ht, hlt⟩ := hall i hi
      exact ⟨t, ht, selfTol_pos.trans hlt⟩) hout r0 hr0
  rw [hp0] at hq; cases hq
  have htt : t' = t := by
    have := ht'.symm.trans hreg
    simpa using this
  subst htt
  refine ⟨t', lt_of_le_of_lt (selfTol_le_threshold _ _ _ _ _) hthr, by rw [hreq]; exact hv, s,
    List.mem_of_getElem? hc.surf, ?_⟩
  obtain ⟨s', i, hs', hi', hp'⟩ := ha
  rw [hc.surf] at hs'; cases hs'
  refine ⟨_, i, ?_, ?_, hp'⟩
  · obtain ⟨i0, hi0⟩ : ∃ ro, (surfOwnership objs)[kk]? = some ro := by
      obtain ⟨so, _, _, hso, _⟩ := hc.tested
      exact ⟨so, hso⟩
    have hkl : kk < (objs.flatMap Obj.surfs).length := (List.getElem?_eq_some_iff.1 hc.surf).1
    obtain ⟨o, ho⟩ : ∃ o, (List.zipWith (ownedMask st.rayOwn) (surfOwnership objs) st.relev)[kk]? = some o := by
      obtain ⟨row, hrow, _⟩ := (owned_getElem kk r.parent).2 hc.tested
      exact ⟨row, hrow⟩
    rw [testedRays_eq hsh ho, Np.mask_getElem? (owned_row_length hsh ho)]
    rw [testedIdx_eq hsh ho] at hi'
    simp [hi', hc.parent]
  · intro q hq
    obtain ⟨j, _, hj⟩ := List.mem_filterMap.1 hq
    exact hsub q (List.mem_of_getElem? hj)

example : ∃ res lvl r, rayTracer Examples.facing () Examples.source 4 (1/5) true = .ok res ∧
    res.tree[3]? = some lvl ∧ r ∈ lvl ∧ ∃ prev p, res.tree[2]? = some prev ∧
      prev[r.parent]? = some p ∧ ∃ t : ℚ, 1 / 10 ^ 10 < t ∧ r.vertex = p.at t := by
  obtain ⟨res, lvl, r, h, hk, hr⟩ := Examples.facing_last
  obtain ⟨prev, p, h1, h2, t, h3, h4, _⟩ := C07_starts_on_parent Examples.facing_shape
    Examples.facing_length Examples.facing_parents Examples.facing_onRay h hk hr
  exact ⟨res, lvl, r, h, hk, hr, prev, p, h1, h2, t, h3, h4⟩

/-- C07 for per-ray surfaces: the parameter is the one the surface answers about the parent. -/
theorem C07_starts_on_parent_perRay (hobj : ∀ o ∈ objs, o.ShapeOk)
    {per : Surf σ K E → Ray K E → WithTop K} (hper : AllSurfs (fun s => s.PerRay (per s)) objs)
    (hpar : AllSurfs Surf.ParentsOk objs) (hon : AllSurfs Surf.OnRay objs)
    (h : rayTracer objs w b reps minE true = .ok res)
    {k : Nat} {lvl : Bundle K E} (hk : res.tree[k + 1]? = some lvl) {r : Ray K E} (hr : r ∈ lvl) :
    ∃ prev p, res.tree[k]? = some prev ∧ prev[r.parent]? = some p ∧
      ∃ t : K, 1 / 10 ^ 10 < t ∧ r.vertex = p.at t ∧
      ∃ s ∈ objs.flatMap Obj.surfs, per s p = (t : WithTop K) := by
  have hlen : AllSurfs Surf.LengthOk objs := fun o ho s hs rays => by
    rw [hper o ho s hs]; simp
  obtain ⟨prev, p, h1, h2, t, h3, h4, s, hs, rays, i, hi, _, ht⟩ :=
    C07_starts_on_parent hobj hlen hpar hon h hk hr
  refine ⟨prev, p, h1, h2, t, h3, h4, s, hs, ?_⟩
  rw [mem_allSurfs hper hs] at ht
  simpa [hi] using ht

example : ∃ res lvl r, rayTracer Examples.facing () Examples.source 4 (1/5) true = .ok res ∧
    res.tree[3]? = some lvl ∧ r ∈ lvl ∧ ∃ p : Ray ℚ Unit, ∃ t : ℚ,
      ∃ s ∈ Examples.facing.flatMap Obj.surfs, s.single p = (t : WithTop ℚ) ∧ r.vertex = p.at t := by
  obtain ⟨res, lvl, r, h, hk, hr⟩ := Examples.facing_last
  obtain ⟨prev, p, _, _, t, _, h4, s, hs, h5⟩ := C07_starts_on_parent_perRay Examples.facing_shape
    Examples.facing_perRay Examples.facing_parents Examples.facing_onRay h hk hr
  exact ⟨res, lvl, r, h, hk, hr, p, t, s, hs, h5, h4⟩

/-! ### C08 -/

/-- C08: which (surface, ray) pairs a call of `intersect_ray` marks. -/
theorem C08_nearest_iff {surfs : List (Surf σ K E)} {surfOwn : List Nat}
    {rayOwn : List (Option Nat)} {relev : List (List Bool)}
    (hshape : IShape b.length surfs surfOwn rayOwn relev) (hlen : ∀ s ∈ surfs, s.LengthOk)
    {front owned : List (List Bool)}
    (h : intersectRay b surfs surfOwn rayOwn relev = .ok (front, owned)) (k j : Nat) :
    Marked front k j ↔ ∃ t : K, Answer b surfs surfOwn rayOwn relev k j t ∧
      threshold b surfs surfOwn rayOwn relev < t ∧
      ∀ k' (t' : K), Answer b surfs surfOwn rayOwn relev k' j t' →
        threshold b surfs surfOwn rayOwn relev < t' → t ≤ t' := by
  rw [(intersectRay_ok h).2]
  exact front_iff hshape hlen k j

example : ∃ t : ℚ, Answer Examples.source (Examples.facing.flatMap Obj.surfs)
    (surfOwnership Examples.facing) (initState Examples.facing Examples.source ()).rayOwn
    (initState Examples.facing Examples.source ()).relev 0 1 t := by
  obtain ⟨t, h, _⟩ := (C08_nearest_iff Examples.facing_shape0 Examples.facing_len
    Examples.facing_intersect 0 1).1 ⟨_, rfl, rfl⟩
  exact ⟨t, h⟩

/-- C08: rays that all tested surfaces miss are not marked. -/
theorem C08_all_miss {surfs : List (Surf σ K E)} {surfOwn : List Nat}
    {rayOwn : List (Option Nat)} {relev : List (List Bool)}
    (hshape : IShape b.length surfs surfOwn rayOwn relev) (hlen : ∀ s ∈ surfs, s.LengthOk)
    {front owned : List (List Bool)}
    (h : intersectRay b surfs surfOwn rayOwn relev = .ok (front, owned)) (j : Nat)
    (hmiss : ∀ k p, Answer b surfs surfOwn rayOwn relev k j p → p = ⊤) (k : Nat) :
    ¬ Marked front k j := by
  rw [C08_nearest_iff hshape hlen h]
  rintro ⟨t, ha, _⟩
  exact absurd (hmiss k t ha) (by simp)

/-- Both rays miss the upper plate when it is alone. -/
example : ¬ Marked [[false, false]] 0 0 := by
  have hint : intersectRay Examples.source [mkSurf (finiteFlatGM (rectOutside 4 4))
      (reflective (1/4) : Optics Unit ℚ Unit) ⟨1, ⟨0, 0, 2⟩⟩] [0] [none, none] [[true, true]] =
      .ok ([[false, false]], [[true, true]]) := by
    have h : (intersectRay Examples.source [mkSurf (finiteFlatGM (rectOutside 4 4))
      (reflective (1/4) : Optics Unit ℚ Unit) ⟨1, ⟨0, 0, 2⟩⟩] [0] [none, none] [[true, true]]).toOption =
      some ([[false, false]], [[true, true]]) := by decide +kernel
    revert h
    cases intersectRay Examples.source [mkSurf (finiteFlatGM (rectOutside 4 4))
      (reflective (1/4) : Optics Unit ℚ Unit) ⟨1, ⟨0, 0, 2⟩⟩] [0] [none, none] [[true, true]] with
    | error e => intro h; simp [Except.toOption] at h
    | ok r => intro h; simpa [Except.toOption] using h
  have hsh : IShape Examples.source.length [mkSurf (finiteFlatGM (rectOutside 4 4))
      (reflective (1/4) : Optics Unit ℚ Unit) ⟨1, ⟨0, 0, 2⟩⟩] [0] [none, none] [[true, true]] :=
    ⟨rfl, rfl, rfl, by simp [Examples.source]⟩
  have hlen : ∀ s ∈ [mkSurf (finiteFlatGM (rectOutside 4 4))
      (reflective (1/4) : Optics Unit ℚ Unit) ⟨1, ⟨0, 0, 2⟩⟩], s.LengthOk := by
    intro s hs
    rw [List.mem_singleton.1 hs]
    exact mkSurf_lengthOk (finiteFlatGM_perRay _).lengthOk _ _
  refine C08_all_miss hsh hlen hint 0 ?_ 0
  have hfree : AllFree [none, none] [[true, true]] :=
    ⟨by simp, by simp⟩
  intro k p hp
  rw [hfree.answer hsh] at hp
  obtain ⟨s, hs, _, hp⟩ := hp
  cases k with
  | succ k => simp at hs
  | zero =>
    simp only [List.getElem?_cons_zero, Option.some.injEq] at hs
    subst hs
    have : (mkSurf (finiteFlatGM (rectOutside 4 4)) (reflective (1/4) : Optics Unit ℚ Unit)
      ⟨1, ⟨0, 0, 2⟩⟩).register Examples.source = [⊤, ⊤] := by decide +kernel
    rw [this] at hp
    simpa using hp.symm

/-- C08 in a trace with the default policies and per-ray surfaces: a recorded ray was produced at
the nearest usable intersection of its parent. -/
theorem C08_trace_nearest (hdef : ∀ o ∈ objs, o.Default)
    {per : Surf σ K E → Ray K E → WithTop K} (hper : AllSurfs (fun s => s.PerRay (per s)) objs)
    (hpar : AllSurfs Surf.ParentsOk objs) (hon : AllSurfs Surf.OnRay objs)
    (h : rayTracer objs w b reps minE true = .ok res)
    {k : Nat} {lvl : Bundle K E} (hk : res.tree[k + 1]? = some lvl) {r : Ray K E} (hr : r ∈ lvl) :
    ∃ prev p, res.tree[k]? = some prev ∧ prev[r.parent]? = some p ∧
      ∃ t : K, r.vertex = p.at t ∧
      cutoff per (objs.flatMap Obj.surfs) (propagated minE k prev) < t ∧
      (∃ s ∈ objs.flatMap Obj.surfs, per s p = (t : WithTop K)) ∧
      ∀ s ∈ objs.flatMap Obj.surfs, ∀ t' : K, per s p = (t' : WithTop K) →
        cutoff per (objs.flatMap Obj.surfs) (propagated minE k prev) < t' → t ≤ t' := by
  have hobj : ∀ o ∈ objs, o.ShapeOk := fun o ho => (hdef o ho).shapeOk
  have hlen : AllSurfs Surf.LengthOk objs := fun o ho s hs rays => by
    rw [hper o ho s hs]; simp
  have hper' : ∀ s ∈ objs.flatMap Obj.surfs, s.PerRay (per s) := fun s hs => mem_allSurfs hper hs
  obtain ⟨st, st', gen, steps, prev, hrun, _, hsh, hi, _, hprev, h0, h1⟩ := tree_level hobj h hk
  have hfree := hrun.free hdef (initState_shape objs b w) (initState_free objs b w)
  have hmem : r ∈ gen := by
    have hf := iterate_ok hsh hi
    rw [hf.recorded, hf.strong] at hr
    rcases List.mem_append.1 hr with hr | hr <;> exact (List.mem_filter.1 hr).1
  obtain ⟨kk, s, p, hc⟩ := generated_child hsh hlen hpar hi hmem
  have hbund : st.bund = propagated minE k prev := by
    cases k with
    | zero => rw [(h0 rfl).1, (h0 rfl).2]; simp [propagated]
    | succ k =>
      obtain ⟨weak, hw, hw1, hw2⟩ := h1 (by omega)
      rw [hw, propagated_append (by omega) hw1 hw2]
  have hpp : prev[r.parent]? = some p := by
    cases k with
    | zero => rw [(h0 rfl).1, ← (h0 rfl).2]; exact hc.parent
    | succ k =>
      obtain ⟨weak, hw, _, _⟩ := h1 (by omega)
      rw [hw, List.getElem?_append_left (List.getElem?_eq_some_iff.1 hc.parent).1]
      exact hc.parent
  refine ⟨prev, p, hprev, hpp, ?_⟩
  obtain ⟨w1, w2, rays, raw, sel, r0, t, hout, _, hr0, hr0s, hreq, hp0, hreg, hall, hthr, ha, hmin⟩ := hc.raw
  obtain ⟨q, t', hq, ht', hv⟩ := mem_allSurfs hon (List.mem_of_getElem? hc.surf) w1 rays sel raw w2
    (fun i hi => by
      obtain ⟨t, ht, hlt⟩ := hall i hi
      exact ⟨t, ht, selfTol_pos.trans hlt⟩) hout r0 hr0
  rw [hp0] at hq; cases hq
  have htt : t' = t := by
    have := ht'.symm.trans hreg
    simpa using this
  subst htt
  rw [← hbund, ← hfree.threshold hsh hper']
  refine ⟨t', by rw [hreq]; exact hv, hthr, ?_, ?_⟩
  · rw [hfree.answer_perRay hsh hper'] at ha
    obtain ⟨s', r', hs', hr', hp'⟩ := ha
    rw [hc.parent] at hr'; cases hr'
    exact ⟨s', List.mem_of_getElem? hs', hp'⟩
  · intro s' hs' t'' hp' hlt
    obtain ⟨k', hk'⟩ := List.getElem?_of_mem hs'
    refine hmin k' t'' ?_ hlt
    rw [hfree.answer_perRay hsh hper']
    exact ⟨s', p, hk', hc.parent, hp'⟩

example : ∃ res lvl r, rayTracer Examples.facing () Examples.source 4 (1/5) true = .ok res ∧
    res.tree[3]? = some lvl ∧ r ∈ lvl ∧ ∃ p : Ray ℚ Unit, ∃ t : ℚ, r.vertex = p.at t ∧
      ∃ s ∈ Examples.facing.flatMap Obj.surfs, s.single p = (t : WithTop ℚ) := by
  obtain ⟨res, lvl, r, h, hk, hr⟩ := Examples.facing_last
  obtain ⟨_, p, _, _, t, h4, _, h5, _⟩ := C08_trace_nearest Examples.facing_default
    Examples.facing_perRay Examples.facing_parents Examples.facing_onRay h hk hr
  exact ⟨res, lvl, r, h, hk, hr, p, t, h4, h5⟩

/-! ### C09 -/

/-- C09, partial: if no two tested surfaces answer the same usable parameter about the ray, at most
one surface is marked for it.  Missing: ties, see `C09_counterexample`. -/
theorem C09_one_surface_partial {surfs : List (Surf σ K E)} {surfOwn : List Nat}
    {rayOwn : List (Option Nat)} {relev : List (List Bool)}
    (hshape : IShape b.length surfs surfOwn rayOwn relev) (hlen : ∀ s ∈ surfs, s.LengthOk)
    {front owned : List (List Bool)}
    (h : intersectRay b surfs surfOwn rayOwn relev = .ok (front, owned)) (j : Nat)
    (hties : ∀ (k k' : Nat) (t : K), Answer b surfs surfOwn rayOwn relev k j t →
      Answer b surfs surfOwn rayOwn relev k' j t →
      threshold b surfs surfOwn rayOwn relev < t → k = k')
    {k k' : Nat} (hk : Marked front k j) (hk' : Marked front k' j) : k = k' := by
  rw [C08_nearest_iff hshape hlen h] at hk hk'
  obtain ⟨t, ha, hthr, hmin⟩ := hk
  obtain ⟨t', ha', hthr', hmin'⟩ := hk'
  have : t = t' := le_antisymm (hmin _ _ ha' hthr') (hmin' _ _ ha hthr)
  subst this
  exact hties k k' t ha ha' hthr

example : ∀ k k', Marked [[true, true], [false, false]] k 1 →
    Marked [[true, true], [false, false]] k' 1 → k = k' := by
  intro k k' hk hk'
  refine C09_one_surface_partial Examples.facing_shape0 Examples.facing_len
    Examples.facing_intersect 1 ?_ hk hk'
  have key : ∀ k (t : ℚ), Answer Examples.source (Examples.facing.flatMap Obj.surfs)
      (surfOwnership Examples.facing) (initState Examples.facing Examples.source ()).rayOwn
      (initState Examples.facing Examples.source ()).relev k 1 t → k = 0 := by
    intro k t h
    rw [(initState_free Examples.facing Examples.source ()).answer Examples.facing_shape0] at h
    obtain ⟨s, hs, _, hp⟩ := h
    match k with
    | 0 => rfl
    | 1 =>
      have hnone : ((Examples.facing.flatMap Obj.surfs)[1]?.map fun s => s.register Examples.source) =
          some [⊤, ⊤] := by decide +kernel
      rw [hs] at hnone
      simp only [Option.map_some, Option.some.injEq] at hnone
      rw [hnone] at hp
      simp at hp
    | k + 2 => simp [Examples.facing, Examples.lower, Examples.upper] at hs
  intro k k' t h h' _
  rw [key k t h, key k' t h']

/-- Two coincident plates. -/
def Examples.coincident : List (Obj Unit ℚ Unit) := [Examples.lower, Examples.lower]

/-- C09 fails on ties: with two coincident mirrors, each ray of unit energy gets two children, one
from each surface. -/
theorem C09_counterexample :
    ((rayTracer Examples.coincident () Examples.source 1 (1/5) true).toOption.map fun r =>
      r.tree.map fun l => l.map fun q => (q.parent, q.energy)) =
    some [[(0, 1), (0, 1)], [(0, 1/2), (1, 1/2), (0, 1/2), (1, 1/2)]] := by
  decide +kernel

/-! ### C10 -/

/-- C10: recorded bundle `k+1` holds the rays generated by iteration `k+1` -- which is what a run of
`k+1` iterations with `tree=False` records -- those above the threshold first, each group in the
order of generation; and the rays handed to the next iteration, whose vertices and directions a
run of `k+1` iterations returns, are exactly those above the threshold. -/
theorem C10_low_energy (hobj : ∀ o ∈ objs, o.ShapeOk)
    (h : rayTracer objs w b reps minE true = .ok res)
    {k : Nat} {lvl : Bundle K E} (hk : res.tree[k + 1]? = some lvl) :
    ∃ (gen : Bundle K E) (res' : TraceResult σ K E),
      rayTracer objs w b (k + 1) minE false = .ok res' ∧ res'.tree = [gen] ∧
      lvl = gen.filter (fun r => decide (minE < r.energy)) ++
        gen.filter (fun r => decide (r.energy ≤ minE)) ∧
      res'.vertices = (gen.filter fun r => decide (minE < r.energy)).map Ray.vertex ∧
      res'.directions = (gen.filter fun r => decide (minE < r.energy)).map Ray.dir := by
  obtain ⟨hne, steps, stf, hrun, hlen, htree, _, _, _, hdl, hend⟩ := rayTracer_run h
  have hsh := initState_shape objs b w
  rw [htree] at hk
  simp only [List.getElem?_cons_succ, List.getElem?_map, Option.map_eq_some_iff] at hk
  obtain ⟨s, hs, rfl⟩ := hk
  have hkl : k < steps.length := lt_of_lt_of_le (List.getElem?_eq_some_iff.1 hs).1 (List.length_filter_le _ _)
  have hsk : steps[k]? = some s := by
    obtain ⟨s', hs'⟩ : ∃ x, steps[k]? = some x := ⟨_, List.getElem?_eq_getElem hkl⟩
    have := steps_filter hobj hsh hrun hdl hs'
    rw [hs] at this
    split at this
    · simp at this
    · rw [hs', this]
  obtain ⟨gen, rec, st1⟩ := s
  have hsplit : steps = steps.take k ++ (gen, rec, st1) :: steps.drop (k+1) := by
    conv_lhs => rw [← List.take_append_drop k steps]
    rw [List.drop_eq_getElem_cons hkl]
    rw [List.getElem?_eq_getElem hkl, Option.some.injEq] at hsk
    rw [hsk]
  have hrun' := hrun
  rw [hsplit] at hrun'
  obtain ⟨st, hr1, hr2⟩ := hrun'.append_inv
  cases hr2 with
  | cons hi hr3 =>
    have hf := iterate_ok (hr1.shape hobj hsh) hi
    have hrun2 : Run objs minE (initState objs b w) (steps.take k ++ [(gen, rec, st1)]) st1 :=
      hr1.append (Run.cons hi (Run.nil _))
    have hl2 : (steps.take k ++ [(gen, rec, st1)]).length = k + 1 := by simp; omega
    have h2 := (rayTracer_of_run hne hrun2 hl2.le (by
      intro s hs
      rw [List.dropLast_concat] at hs
      apply hdl s
      rw [hsplit]
      cases hd : steps.drop (k+1) with
      | nil => rw [List.dropLast_concat]; exact hs
      | cons a l =>
        rw [List.dropLast_append_of_ne_nil (by simp)]
        exact List.mem_append_left _ hs) (by omega)).2
    rw [List.getLast?_concat] at h2
    refine ⟨gen, _, h2, rfl, ?_, ?_, ?_⟩
    · rw [← hf.strong]; exact hf.recorded
    · rw [← hf.strong]
    · rw [← hf.strong]

example : ∃ gen res', rayTracer Examples.facing () Examples.source 3 (1/5) false = .ok res' ∧
    res'.tree = [gen] := by
  obtain ⟨res, lvl, r, h, hk, hr⟩ := Examples.facing_last
  obtain ⟨gen, res', h1, h2, _⟩ := C10_low_energy Examples.facing_shape h hk
  exact ⟨gen, res', h1, h2⟩

/-! ### C11 -/

/-- C11: the tree starts with the source, has at most `reps + 1` bundles, and all bundles after the
source are non-empty. -/
theorem C11_iteration_limit (hobj : ∀ o ∈ objs, o.ShapeOk)
    (h : rayTracer objs w b reps minE true = .ok res) :
    res.tree.head? = some b ∧ res.tree.length ≤ reps + 1 ∧
      ∀ (k : Nat) lvl, res.tree[k + 1]? = some lvl → lvl ≠ [] := by
  obtain ⟨hne, steps, stf, hrun, hlen, htree, _, _, _, hdl, hend⟩ := rayTracer_run h
  refine ⟨by simp [htree], ?_, ?_⟩
  · rw [htree]
    have := List.length_filter_le (fun s : Bundle K E × Bundle K E × TraceState σ K E => ! s.1.isEmpty) steps
    simp only [List.length_cons, List.length_map]
    omega
  · intro k lvl hk hlvl
    obtain ⟨st, st', gen, _, _, _, _, hsh, hi, hgen, _⟩ := tree_level hobj h hk
    have hf := iterate_ok hsh hi
    have hnil := hf.recorded.symm
    rw [hlvl, hf.strong, List.append_eq_nil_iff] at hnil
    apply hgen
    cases gen with
    | nil => rfl
    | cons r l =>
      simp only [List.filter_eq_nil_iff] at hnil
      have h1 := hnil.1 r (by simp)
      have h2 := hnil.2 r (by simp)
      simp only [decide_eq_true_eq, not_lt] at h1 h2
      exact absurd h1 h2

example : ∃ res, rayTracer Examples.facing () Examples.source 4 (1/5) true = .ok res ∧
    res.tree.length ≤ 5 := by
  obtain ⟨res, h, _⟩ := Examples.facing_ok
  exact ⟨res, h, (C11_iteration_limit Examples.facing_shape h).2.1⟩

/-- C11: without iterations the result is the source. -/
theorem C11_no_iterations (h : rayTracer objs w b 0 minE true = .ok res) :
    res.tree = [b] ∧ res.vertices = b.map Ray.vertex ∧ res.directions = b.map Ray.dir := by
  obtain ⟨hne, steps, stf, hrun, hlen, htree, hv, hd, _⟩ := rayTracer_run h
  have : steps = [] := by simpa using hlen
  subst this
  cases hrun
  exact ⟨by simpa using htree, by simpa [initState] using hv, by simpa [initState] using hd⟩

example : ∃ res, rayTracer Examples.facing () Examples.source 0 (1/5) true = .ok res :=
  ⟨_, rfl⟩

/-- C11: the trace ends where no ray is left to propagate. -/
theorem C11_stops (hobj : ∀ o ∈ objs, o.ShapeOk)
    (h : rayTracer objs w b reps minE true = .ok res)
    {k : Nat} {lvl : Bundle K E} (hk : res.tree[k + 1]? = some lvl)
    (hweak : ∀ r ∈ lvl, r.energy ≤ minE) : res.tree.length = k + 2 := by
  have hlt := (List.getElem?_eq_some_iff.1 hk).1
  by_contra hne
  obtain ⟨lvl', hlvl'⟩ : ∃ l, res.tree[k + 1 + 1]? = some l :=
    ⟨_, List.getElem?_eq_getElem (by omega)⟩
  obtain ⟨st, st', gen, steps, prev, hrun, hl, hsh, hi, hgen, hprev, _, h1⟩ := tree_level hobj h hlvl'
  obtain ⟨weak, hw, hs, _⟩ := h1 (by omega)
  rw [hk] at hprev; cases hprev
  have hnil : st.bund = [] := by
    cases hb : st.bund with
    | nil => rfl
    | cons r l =>
      have e1 := hs r (by simp [hb])
      have e2 := hweak r (by rw [hw, hb]; simp)
      exact absurd e2 (not_le.2 e1)
  -- an iteration from an empty bundle generates nothing
  obtain ⟨⟨front, owned, cs, hint, _, hg, _, _, _, hf⟩, _, _⟩ := iterate_ok hsh hi
  apply hgen
  rw [hg]
  cases hcs : cs with
  | nil => rfl
  | cons c l =>
    exfalso
    obtain ⟨j, s, f, o, _, _, _, hfj, hoj, hany, _⟩ := hf c (by simp [hcs])
    have hol : o.length = st.bund.length := by
      obtain ⟨hO, _⟩ := intersectRay_ok hint
      subst hO
      exact owned_row_length hsh hoj
    rw [hnil] at hol
    have : o = [] := by simpa using hol
    subst this
    simp [Np.mask] at hany

/-- With the threshold 1/2 all rays of the first bundle are weak. -/
example : ∃ res, rayTracer Examples.facing () Examples.source 4 (1/2) true = .ok res ∧
    res.tree.length = 0 + 2 := by
  have h : ((rayTracer Examples.facing () Examples.source 4 (1/2) true).toOption.map fun r =>
      (r.tree[0 + 1]?).map fun l => l.all fun q => decide (q.energy ≤ 1/2)) = some (some true) := by
    decide +kernel
  cases hr : rayTracer Examples.facing () Examples.source 4 (1/2) true with
  | error e => rw [hr] at h; simp [Except.toOption] at h
  | ok res =>
    rw [hr] at h
    simp only [Except.toOption, Option.map_some, Option.some.injEq, Option.map_eq_some_iff] at h
    obtain ⟨lvl, hk, hall⟩ := h
    exact ⟨res, rfl, C11_stops Examples.facing_shape hr hk (by simpa [List.all_eq_true] using hall)⟩

/-- C11: a larger iteration limit only appends to the tree. -/
theorem C11_prefix (hobj : ∀ o ∈ objs, o.ShapeOk)
    {reps' : Nat} (hle : reps ≤ reps') {res' : TraceResult σ K E}
    (h' : rayTracer objs w b reps' minE true = .ok res') :
    ∃ res, rayTracer objs w b reps minE true = .ok res ∧ res.tree = res'.tree.take (reps + 1) := by
  obtain ⟨hne, steps, stf, hrun, hlen, htree, _, _, _, hdl, hend⟩ := rayTracer_run h'
  have hsh := initState_shape objs b w
  rcases Nat.lt_or_ge reps steps.length with hlt | hge
  · have hrun2 := hrun
    rw [← List.take_append_drop reps steps] at hrun2
    obtain ⟨m, hm1, _⟩ := hrun2.append_inv
    have hdl2 : ∀ s ∈ steps.take reps, s.2.2.bund ≠ [] := by
      intro s hs
      apply hdl s
      rw [List.dropLast_eq_take]
      obtain ⟨i, hi⟩ := List.getElem?_of_mem hs
      have hil : i < reps := by
        have := (List.getElem?_eq_some_iff.1 hi).1
        simp at this; omega
      rw [List.getElem?_take_of_lt hil] at hi
      apply List.mem_of_getElem? (i := i)
      rw [List.getElem?_take_of_lt (by omega)]
      exact hi
    have h2 := (rayTracer_of_run (reps := reps) hne hm1 (by simp)
      (fun s hs => hdl2 s (List.dropLast_subset _ hs)) (by simp; omega)).1
    refine ⟨_, h2, ?_⟩
    rw [htree]
    simp only [List.take_succ_cons, List.cons.injEq, true_and]
    rw [← List.map_take]
    congr 1
    -- all of the taken steps are non-empty
    have hall : (steps.take reps).filter (fun s => ! s.1.isEmpty) = steps.take reps := by
      rw [List.filter_eq_self]
      intro s hs
      have := Run.gen_ne_nil hobj hrun hsh (gen := s.1) (rec := s.2.1) (st1 := s.2.2)
        (List.mem_of_mem_take hs) (hdl2 s hs)
      simpa using this
    conv_rhs => rw [← List.take_append_drop reps steps, List.filter_append, hall]
    rw [List.take_append_of_le_length (by simp; omega), hall, List.take_take]
    simp
  · have h2 := (rayTracer_of_run (reps := reps) hne hrun hge hdl (by
      intro hl
      exact hend (by omega))).1
    refine ⟨_, h2, ?_⟩
    rw [htree, List.take_of_length_le]
    have := List.length_filter_le (fun s : Bundle K E × Bundle K E × TraceState σ K E => ! s.1.isEmpty) steps
    simp only [List.length_cons, List.length_map]
    omega

example : ∃ res, rayTracer Examples.facing () Examples.source 2 (1/5) true = .ok res := by
  obtain ⟨res', h, _⟩ := Examples.facing_ok
  obtain ⟨res, h, _⟩ := C11_prefix Examples.facing_shape (by norm_num : 2 ≤ 4) h
  exact ⟨res, h⟩

/-! ### C12 -/

/-- C12: in a trace with the default policies and per-ray surfaces that answer all selected rays, a
propagated ray has a child in the next recorded bundle if and only if some surface answers a
usable parameter about it. -/
theorem C12_children_iff (hdef : ∀ o ∈ objs, o.Default)
    {per : Surf σ K E → Ray K E → WithTop K} (hper : AllSurfs (fun s => s.PerRay (per s)) objs)
    (hpar : AllSurfs Surf.ParentsOk objs) (htot : AllSurfs Surf.Total objs)
    (h : rayTracer objs w b reps minE true = .ok res)
    {k : Nat} {prev : Bundle K E} (hk : res.tree[k]? = some prev) (hkr : k < reps)
    {j : Nat} {p : Ray K E} (hj : prev[j]? = some p) (hp : k = 0 ∨ minE < p.energy) :
    (∃ lvl, res.tree[k + 1]? = some lvl ∧ ∃ r ∈ lvl, r.parent = j) ↔
      ∃ s ∈ objs.flatMap Obj.surfs, ∃ t : K, per s p = (t : WithTop K) ∧
        cutoff per (objs.flatMap Obj.surfs) (propagated minE k prev) < t := by
  have hobj : ∀ o ∈ objs, o.ShapeOk := fun o ho => (hdef o ho).shapeOk
  have hlen : AllSurfs Surf.LengthOk objs := fun o ho s hs rays => by
    rw [hper o ho s hs]; simp
  have hper' : ∀ s ∈ objs.flatMap Obj.surfs, s.PerRay (per s) := fun s hs => mem_allSurfs hper hs
  have hprop : k = 0 ∨ propagated minE k prev ≠ [] := by
    rcases hp with hp | hp
    · exact Or.inl hp
    · by_cases hk0 : k = 0
      · exact Or.inl hk0
      · right
        unfold propagated
        rw [if_neg hk0]
        intro hnil
        rw [List.filter_eq_nil_iff] at hnil
        exact hnil p (List.mem_of_getElem? hj) (by simpa using hp)
  obtain ⟨st, st', gen, rec, steps, weak, hrun, hl, hsh, hb, hprev, hi, hnext, hsw⟩ :=
    tree_step hobj h hk hkr hprop
  have hfree := hrun.free hdef (initState_shape objs b w) (initState_free objs b w)
  have hpj : st.bund[j]? = some p := by
    rcases Nat.lt_or_ge j st.bund.length with hlt | hge
    · rw [hprev, List.getElem?_append_left hlt] at hj
      exact hj
    · exfalso
      by_cases hk0 : k = 0
      · have : st.bund.length = prev.length := by rw [hb, propagated, if_pos hk0]
        have := (List.getElem?_eq_some_iff.1 hj).1
        omega
      · rcases hp with hp | hp
        · exact hk0 hp
        · rw [hprev, List.getElem?_append_right hge] at hj
          exact absurd ((hsw (by omega)).2 p (List.mem_of_getElem? hj)) (not_le.2 hp)
  have hf := iterate_ok hsh hi
  have hmem : ∀ r, r ∈ rec ↔ r ∈ gen := by
    intro r
    rw [hf.recorded, hf.strong]
    simp only [List.mem_append, List.mem_filter, decide_eq_true_eq]
    constructor
    · rintro (h | h) <;> exact h.1
    · intro hr
      rcases lt_or_ge minE r.energy with h | h
      · exact Or.inl ⟨hr, h⟩
      · exact Or.inr ⟨hr, h⟩
  rw [← hb, ← hfree.threshold hsh hper']
  constructor
  · rintro ⟨lvl, hlvl, r, hr, rfl⟩
    rw [hnext] at hlvl
    split at hlvl
    · simp at hlvl
    · simp only [Option.some.injEq] at hlvl
      subst hlvl
      obtain ⟨kk, s, p', hc⟩ := generated_child hsh hlen hpar hi ((hmem r).1 hr)
      obtain ⟨w1, w2, rays, raw, sel, r0, t, _, _, _, _, _, _, _, _, hthr, ha, _⟩ := hc.raw
      rw [hfree.answer_perRay hsh hper'] at ha
      obtain ⟨s', r', hs', hr', hp'⟩ := ha
      rw [hpj] at hr'; cases hr'
      exact ⟨s', List.mem_of_getElem? hs', t, hp', hthr⟩
  · rintro ⟨s, hs, t, ht, hthr⟩
    obtain ⟨kk, hkk⟩ := List.getElem?_of_mem hs
    obtain ⟨r, hr, hrp⟩ := hit_has_child hsh hlen htot hi (k := kk) (j := j) (t := t)
      ((hfree.answer_perRay hsh hper' kk j t).2 ⟨s, p, hkk, hpj, ht⟩) hthr
    have hne : gen ≠ [] := List.ne_nil_of_mem hr
    rw [if_neg hne] at hnext
    exact ⟨rec, hnext, r, (hmem r).2 hr, hrp⟩

/-- The slanted source ray has a child, so some surface answers about it. -/
example : ∃ s ∈ Examples.facing.flatMap Obj.surfs, ∃ t : ℚ,
    s.single ⟨⟨0, 0, 1⟩, ⟨3/5, 0, -4/5⟩, 1, 0, none, ()⟩ = (t : WithTop ℚ) := by
  obtain ⟨res, h, h0⟩ := Examples.facing_source_tree
  have := (C12_children_iff Examples.facing_default Examples.facing_perRay Examples.facing_parents
    Examples.facing_total h h0 (by norm_num) (j := 0) rfl (Or.inl rfl)).1 (by
      obtain ⟨res', h', ht⟩ := Examples.facing_ok
      rw [h] at h'; cases h'
      have h2 := congrArg (fun l => l[1]?) ht
      simp only [List.getElem?_map] at h2
      cases hl : res.tree[1]? with
      | none => rw [hl] at h2; simp at h2
      | some lvl =>
        rw [hl] at h2
        refine ⟨lvl, rfl, ?_⟩
        cases lvl with
        | nil => simp at h2
        | cons r l => simp at h2; exact ⟨r, by simp, h2.1.1⟩)
  obtain ⟨s, hs, t, ht, _⟩ := this
  exact ⟨s, hs, t, ht⟩

/-- C12: a ray that all surfaces miss has no child. -/
theorem C12_escape (hdef : ∀ o ∈ objs, o.Default)
    {per : Surf σ K E → Ray K E → WithTop K} (hper : AllSurfs (fun s => s.PerRay (per s)) objs)
    (hpar : AllSurfs Surf.ParentsOk objs)
    (h : rayTracer objs w b reps minE true = .ok res)
    {k : Nat} {prev lvl : Bundle K E} (hk : res.tree[k]? = some prev)
    (hk1 : res.tree[k + 1]? = some lvl) {r : Ray K E} (hr : r ∈ lvl)
    {p : Ray K E} (hp : prev[r.parent]? = some p) :
    ∃ s ∈ objs.flatMap Obj.surfs, per s p ≠ ⊤ := by
  have hobj : ∀ o ∈ objs, o.ShapeOk := fun o ho => (hdef o ho).shapeOk
  have hlen : AllSurfs Surf.LengthOk objs := fun o ho s hs rays => by
    rw [hper o ho s hs]; simp
  have hper' : ∀ s ∈ objs.flatMap Obj.surfs, s.PerRay (per s) := fun s hs => mem_allSurfs hper hs
  obtain ⟨st, st', gen, steps, prev', hrun, _, hsh, hi, _, hprev, h0, h1⟩ := tree_level hobj h hk1
  rw [hk] at hprev; cases hprev
  have hfree := hrun.free hdef (initState_shape objs b w) (initState_free objs b w)
  have hmem : r ∈ gen := by
    have hf := iterate_ok hsh hi
    rw [hf.recorded, hf.strong] at hr
    rcases List.mem_append.1 hr with hr | hr <;> exact (List.mem_filter.1 hr).1
  obtain ⟨kk, s, p', hc⟩ := generated_child hsh hlen hpar hi hmem
  have hpp : prev[r.parent]? = some p' := by
    cases k with
    | zero => rw [(h0 rfl).1, ← (h0 rfl).2]; exact hc.parent
    | succ k =>
      obtain ⟨weak, hw, _, _⟩ := h1 (by omega)
      rw [hw, List.getElem?_append_left (List.getElem?_eq_some_iff.1 hc.parent).1]
      exact hc.parent
  rw [hp] at hpp; cases hpp
  obtain ⟨w1, w2, rays, raw, sel, r0, t, _, _, _, _, _, _, _, _, hthr, ha, _⟩ := hc.raw
  rw [hfree.answer_perRay hsh hper'] at ha
  obtain ⟨s', r', hs', hr', hp'⟩ := ha
  rw [hc.parent] at hr'; cases hr'
  exact ⟨s', List.mem_of_getElem? hs', by rw [hp']; simp⟩

example : ∃ p : Ray ℚ Unit, ∃ s ∈ Examples.facing.flatMap Obj.surfs, s.single p ≠ ⊤ := by
  obtain ⟨res, lvl, r, h, hk, hr⟩ := Examples.facing_last
  obtain ⟨prev, p, h1, h2, _⟩ := C06_parents_valid Examples.facing_shape Examples.facing_length
    Examples.facing_parents h hk hr
  exact ⟨p, C12_escape Examples.facing_default Examples.facing_perRay Examples.facing_parents
    h h1 hk hr h2⟩

/-! ### C16 -/

/-- C16: with at least one iteration, `tree=False` fails exactly when `tree=True` does, returns
the same vertices and directions, leaves the optics in the same state, and records exactly one
bundle: the rays of the last iteration, of which `tree=True` records the same rays, if any. -/
theorem C16_tree_false (hobj : ∀ o ∈ objs, o.ShapeOk) (hreps : 0 < reps) :
    (∀ res, rayTracer objs w b reps minE true = .ok res →
      ∃ res' gen, rayTracer objs w b reps minE false = .ok res' ∧ res'.tree = [gen] ∧
        res'.vertices = res.vertices ∧ res'.directions = res.directions ∧ res'.world = res.world ∧
        (gen ≠ [] → ∃ lvl, res.tree.getLast? = some lvl ∧ lvl.Perm gen) ∧
        (gen = [] → res.vertices = [])) ∧
    (∀ res', rayTracer objs w b reps minE false = .ok res' →
      ∃ res, rayTracer objs w b reps minE true = .ok res) := by
  refine ⟨?_, ?_⟩
  · intro res h
    obtain ⟨hne, steps, stf, hrun, hlen, htree, hv, hd, hw, hdl, hend⟩ := rayTracer_run h
    have hsne : steps ≠ [] := by
      intro h0
      exact (hend (by rw [h0]; simpa using hreps)).2 h0
    have h2 := (rayTracer_of_run hne hrun hlen hdl hend).2
    rcases List.eq_nil_or_concat steps with h0 | ⟨l, a, ha⟩
    · exact absurd h0 hsne
    · rw [List.concat_eq_append] at ha
      rw [ha, List.getLast?_concat] at h2
      obtain ⟨gen, rec, st1⟩ := a
      have hrun2 := hrun
      rw [ha] at hrun2
      obtain ⟨m, hm1, hm2⟩ := hrun2.append_inv
      cases hm2 with
      | cons hi hr0 =>
        cases hr0
        have hf := iterate_ok (hm1.shape hobj (initState_shape objs b w)) hi
        refine ⟨_, gen, h2, rfl, hv.symm, hd.symm, hw.symm, ?_, ?_⟩
        · intro hg
          have hsk : steps[l.length]? = some (gen, rec, stf) := by rw [ha]; simp
          have hflt := steps_filter hobj (initState_shape objs b w) hrun hdl hsk
          rw [if_neg hg] at hflt
          refine ⟨rec, ?_, ?_⟩
          · rw [htree, ha, List.filter_append]
            have : ([(gen, rec, stf)] : List (Bundle K E × Bundle K E × TraceState σ K E)).filter
                (fun s => ! s.1.isEmpty) = [(gen, rec, stf)] := by simp [hg]
            rw [this, List.map_append]
            simp only [List.map_cons, List.map_nil]
            rw [← List.cons_append, List.getLast?_concat]
          · rw [hf.recorded, hf.strong]
            have hfun : (fun r : Ray K E => decide (r.energy ≤ minE)) = fun r => ! decide (minE < r.energy) := by
              funext r
              simp [← not_lt]
            rw [hfun]
            exact List.filter_append_perm _ _
        · intro hg
          rw [hv, hf.strong, hg]
          rfl
  · intro res' h
    obtain ⟨hne, steps, stf, hrun, hlen, hdl, hend⟩ := rayTracer_run_false h
    exact ⟨_, (rayTracer_of_run hne hrun hlen hdl hend).1⟩

example : ∃ res', rayTracer Examples.facing () Examples.source 4 (1/5) false = .ok res' := by
  obtain ⟨res, h, _⟩ := Examples.facing_ok
  obtain ⟨res', _, h', _⟩ := (C16_tree_false Examples.facing_shape (by norm_num)).1 res h
  exact ⟨res', h'⟩

/-- C16 does not extend to zero iterations: the call fails on an unbound variable. -/
theorem C16_no_iterations (hne : objs ≠ []) :
    rayTracer objs w b 0 minE false = .error .name := by
  have := (rayTracer_of_run (reps := 0) (minE := minE) hne (Run.nil (initState objs b w)) (by simp)
    (by simp) (by simp)).2
  simpa using this

example : rayTracer Examples.facing () Examples.source 0 (1/5) false = .error .name :=
  C16_no_iterations (by simp [Examples.facing])

/-! ### C19 -/

/-- C19: surface number `k` of the assembly is surface number `k - surfs_until_obj[o]` of object
`o = surf_ownership[k]`, for every surface. -/
theorem C19_numbering (objs : List (Obj σ K E)) (k : Nat) (s : Surf σ K E)
    (h : (objs.flatMap Obj.surfs)[k]? = some s) :
    ∃ o obj before, (surfOwnership objs)[k]? = some o ∧ objs[o]? = some obj ∧
      (surfsUntilObj objs)[o]? = some before ∧ before ≤ k ∧ obj.surfs[k - before]? = some s := by
  obtain ⟨o, ho⟩ := surfOwnership_some (List.getElem?_eq_some_iff.1 h).1
  obtain ⟨obj, before, h1, h2, h3, _, h5⟩ := numbering ho
  exact ⟨o, obj, before, ho, h1, h2, h3, by rw [← h5]; exact h⟩

example : ∃ o obj before, (surfOwnership Examples.facing)[1]? = some o ∧ Examples.facing[o]? = some obj ∧
    (surfsUntilObj Examples.facing)[o]? = some before ∧ before ≤ 1 := by
  obtain ⟨o, obj, before, h1, h2, h3, h4, _⟩ := C19_numbering Examples.facing 1 _ rfl
  exact ⟨o, obj, before, h1, h2, h3, h4⟩

/-- C19, the other direction: surface `i` of object `o` has the number `surfs_until_obj[o] + i`, and
that number is owned by `o`; so the numbering is a bijection. -/
theorem C19_numbering_inv (objs : List (Obj σ K E)) {o i : Nat} {obj : Obj σ K E} {s : Surf σ K E}
    (ho : objs[o]? = some obj) (hi : obj.surfs[i]? = some s) :
    ∃ before, (surfsUntilObj objs)[o]? = some before ∧
      (objs.flatMap Obj.surfs)[before + i]? = some s ∧
      (surfOwnership objs)[before + i]? = some o := by
  have hol : o < objs.length := (List.getElem?_eq_some_iff.1 ho).1
  have hil : i < obj.surfs.length := (List.getElem?_eq_some_iff.1 hi).1
  have hac := accumulate_spec (surfsPerObj objs) 0 o (by simp [surfsPerObj]; omega)
  rw [Nat.zero_add] at hac
  refine ⟨_, hac, ?_, ?_⟩
  · have := flatMap_getElem? Obj.surfs objs o i obj ho hil
    rw [← hi, ← this]
    rfl
  · rw [surfOwnership, repeatArange_spec]
    refine ⟨o, by simp, by simp [surfsPerObj, hol], by omega, ?_⟩
    rw [List.take_add_one]
    simp [surfsPerObj, ho]
    omega

example : ∃ before, (surfsUntilObj Examples.facing)[1]? = some before ∧
    (surfOwnership Examples.facing)[before + 0]? = some 1 := by
  obtain ⟨b, h1, _, h2⟩ := C19_numbering_inv Examples.facing (o := 1) (i := 0) rfl rfl
  exact ⟨b, h1, h2⟩

/-! ### C20 -/

/-- C20: `intersect_ray` raises `ValueError` exactly when a surface it asked answered below
`-1e-16`, or when there are rays but no surfaces; it raises nothing else. -/
theorem C20_rejects {surfs : List (Surf σ K E)} {surfOwn : List Nat}
    {rayOwn : List (Option Nat)} {relev : List (List Bool)}
    (hshape : IShape b.length surfs surfOwn rayOwn relev) (hlen : ∀ s ∈ surfs, s.LengthOk) :
    (∀ e, intersectRay b surfs surfOwn rayOwn relev = .error e → e = .value) ∧
    ((∃ e, intersectRay b surfs surfOwn rayOwn relev = .error e) ↔
      (∃ k j p, Answer b surfs surfOwn rayOwn relev k j p ∧ p < ((-(1 / 10 ^ 16) : K) : WithTop K)) ∨
      (surfs = [] ∧ b ≠ [])) := by
  have htol : (1 / 10 ^ 16 : K) = negTol := rfl
  rw [htol]
  have hany : ((rawStack b surfs surfOwn rayOwn relev).any fun row => row.any fun p =>
      decide (p < ((-negTol : K) : WithTop K))) = true ↔
      ∃ k j p, Answer b surfs surfOwn rayOwn relev k j p ∧ p < ((-negTol : K) : WithTop K) := by
    rw [any_any_entry]
    constructor
    · rintro ⟨k, j, p, he, hp⟩
      rw [decide_eq_true_eq] at hp
      rcases (rawStack_entry hshape hlen k j p).1 he with ha | ⟨_, _, _, rfl⟩
      · exact ⟨k, j, p, ha, hp⟩
      · exfalso
        have : (0 : K) < -negTol := by exact_mod_cast hp
        have := negTol_pos (K := K)
        linarith
    · rintro ⟨k, j, p, ha, hp⟩
      exact ⟨k, j, p, (rawStack_entry hshape hlen k j p).2 (Or.inl ha), by rw [decide_eq_true_eq]; exact hp⟩
  unfold intersectRay
  simp only
  change (∀ e, (if ((rawStack b surfs surfOwn rayOwn relev).any fun row => row.any fun p =>
      decide (p < ((-negTol : K) : WithTop K))) = true then _ else _) = _ → _) ∧
    ((∃ e, (if ((rawStack b surfs surfOwn rayOwn relev).any fun row => row.any fun p =>
      decide (p < ((-negTol : K) : WithTop K))) = true then _ else _) = _) ↔ _)
  rw [← hany]
  refine ⟨?_, ?_⟩
  · intro e he
    split at he
    · simpa using he.symm
    · split at he
      · simpa using he.symm
      · simp at he
  · constructor
    · rintro ⟨e, he⟩
      split at he
      · left; assumption
      · split at he
        · rename_i hc
          right; simpa using hc
        · simp at he
    · rintro (hneg | hemp)
      · exact ⟨.value, by rw [if_pos hneg]⟩
      · refine ⟨.value, ?_⟩
        split
        · rfl
        · rw [if_pos (by simpa using hemp)]

/-- The hypotheses hold of the first call in the example trace, which raises nothing. -/
example : ¬ ∃ k j p, Answer Examples.source (Examples.facing.flatMap Obj.surfs)
    (surfOwnership Examples.facing) (initState Examples.facing Examples.source ()).rayOwn
    (initState Examples.facing Examples.source ()).relev k j p ∧ p < ((-(1 / 10 ^ 16) : ℚ) : WithTop ℚ) := by
  intro h
  obtain ⟨e, he⟩ := (C20_rejects Examples.facing_shape0 Examples.facing_len).2.2 (Or.inl h)
  rw [Examples.facing_intersect] at he
  cases he

/-- A surface that answers a negative parameter is rejected. -/
example : (intersectRay Examples.source
    [(⟨fun l => l.map fun _ => ((-1 : ℚ) : WithTop ℚ), fun w _ _ => .ok ([], w)⟩ : Surf Unit ℚ Unit)]
    [0] [none, none] [[true, true]]).toOption = none := by decide +kernel

/-- C20: otherwise both masks have one row per surface and one column per ray, and the second
says which surfaces were asked about which rays. -/
theorem C20_shape {surfs : List (Surf σ K E)} {surfOwn : List Nat}
    {rayOwn : List (Option Nat)} {relev : List (List Bool)}
    (hshape : IShape b.length surfs surfOwn rayOwn relev)
    {front owned : List (List Bool)}
    (h : intersectRay b surfs surfOwn rayOwn relev = .ok (front, owned)) :
    front.length = surfs.length ∧ (∀ row ∈ front, row.length = b.length) ∧
    owned.length = surfs.length ∧ (∀ row ∈ owned, row.length = b.length) ∧
    ∀ k j, Marked owned k j ↔ Tested surfOwn rayOwn relev k j := by
  obtain ⟨hO, hF⟩ := intersectRay_ok h
  subst hO
  refine ⟨?_, ?_, ?_, ?_, ?_⟩
  · rw [hF]
    simp [frontMask, dropSelfHits_length, rawStack, hshape.surf_len, hshape.relev_len]
  · rw [hF]
    exact frontMask_row_length (dropSelfHits_row_length (fun row hr => rawStack_row_length hr))
  · simp [hshape.surf_len, hshape.relev_len]
  · intro row hr
    obtain ⟨k, hk⟩ := List.getElem?_of_mem hr
    exact owned_row_length hshape hk
  · exact fun k j => owned_getElem k j

example : Tested (surfOwnership Examples.facing) (initState Examples.facing Examples.source ()).rayOwn
    (initState Examples.facing Examples.source ()).relev 1 0 :=
  ((C20_shape Examples.facing_shape0 Examples.facing_intersect).2.2.2.2 1 0).1 ⟨_, rfl, rfl⟩

/-! ### C21 -/

/-- C21: a marked surface answered more than `1e-10` about the ray. -/
theorem C21_no_self_hit {surfs : List (Surf σ K E)} {surfOwn : List Nat}
    {rayOwn : List (Option Nat)} {relev : List (List Bool)}
    (hshape : IShape b.length surfs surfOwn rayOwn relev) (hlen : ∀ s ∈ surfs, s.LengthOk)
    {front owned : List (List Bool)}
    (h : intersectRay b surfs surfOwn rayOwn relev = .ok (front, owned)) {k j : Nat}
    (hm : Marked front k j) {p : WithTop K} (ha : Answer b surfs surfOwn rayOwn relev k j p) :
    ((1 / 10 ^ 10 : K) : WithTop K) < p := by
  rw [C08_nearest_iff hshape hlen h] at hm
  obtain ⟨t, ha', hthr, _⟩ := hm
  have e1 := (rawStack_entry hshape hlen k j p).2 (Or.inl ha)
  have e2 := (rawStack_entry hshape hlen k j t).2 (Or.inl ha')
  rw [e1.unique e2]
  exact WithTop.coe_lt_coe.2 (lt_of_le_of_lt (selfTol_le_threshold b surfs surfOwn rayOwn relev) hthr)

example : ∃ t : ℚ, 1 / 10 ^ 10 < t ∧ Answer Examples.source (Examples.facing.flatMap Obj.surfs)
    (surfOwnership Examples.facing) (initState Examples.facing Examples.source ()).rayOwn
    (initState Examples.facing Examples.source ()).relev 0 1 t := by
  obtain ⟨t, h, _⟩ := (C08_nearest_iff Examples.facing_shape0 Examples.facing_len
    Examples.facing_intersect 0 1).1 ⟨_, rfl, rfl⟩
  exact ⟨t, WithTop.coe_lt_coe.1 (C21_no_self_hit Examples.facing_shape0 Examples.facing_len
    Examples.facing_intersect ⟨_, rfl, rfl⟩ h), h⟩

/-- C21: a ray about which some surface answered more than `1e-6` (and finite) is marked for some
surface, at a parameter no greater. -/
theorem C21_far_kept {surfs : List (Surf σ K E)} {surfOwn : List Nat}
    {rayOwn : List (Option Nat)} {relev : List (List Bool)}
    (hshape : IShape b.length surfs surfOwn rayOwn relev) (hlen : ∀ s ∈ surfs, s.LengthOk)
    {front owned : List (List Bool)}
    (h : intersectRay b surfs surfOwn rayOwn relev = .ok (front, owned)) {k j : Nat} {t : K}
    (ha : Answer b surfs surfOwn rayOwn relev k j t) (ht : 1 / 10 ^ 6 < t) :
    ∃ k' t', Marked front k' j ∧ Answer b surfs surfOwn rayOwn relev k' j (t' : K) ∧ t' ≤ t := by
  have hthr : threshold b surfs surfOwn rayOwn relev < t :=
    lt_of_le_of_lt (threshold_le_dropTol b surfs surfOwn rayOwn relev) ht
  obtain ⟨k0, t0, ha0, hthr0, hmin0⟩ := nearest_exists hshape hlen ha hthr
  exact ⟨k0, t0, (C08_nearest_iff hshape hlen h k0 j).2 ⟨t0, ha0, hthr0, hmin0⟩, ha0, hmin0 k t ha hthr⟩

example : ∃ k' t', Marked [[true, true], [false, false]] k' 1 ∧
    Answer Examples.source (Examples.facing.flatMap Obj.surfs)
    (surfOwnership Examples.facing) (initState Examples.facing Examples.source ()).rayOwn
    (initState Examples.facing Examples.source ()).relev k' 1 (t' : ℚ) ∧ t' ≤ 1 :=
  C21_far_kept (k := 0) (j := 1) (t := 1) Examples.facing_shape0 Examples.facing_len
    Examples.facing_intersect
    (((initState_free Examples.facing Examples.source ()).answer Examples.facing_shape0 0 1 _).2
      ⟨_, rfl, by simp [Examples.source], by decide +kernel⟩) (by norm_num)

end Tracer
