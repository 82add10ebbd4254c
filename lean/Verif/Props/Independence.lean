import Verif.Lemmas.Generation
import Verif.Props.Energy

/-!
# Rays do not influence each other (C14)

For objects with the default policies and surfaces that treat rays one by one, a recorded tree is,
up to the order of rays and their parent indices, the per-ray recursion `generation` of
`Spec/Generation.lean`.  So tracing a union of bundles gives the union of the trees.  This needs the
rays either to start on a surface or to avoid the window (1e-10, 1e-6] of the self-hit test; `C14_counterexample` shows why.
-/

set_option linter.unusedSectionVars false

namespace Tracer

variable {K E σ : Type _} [Field K] [LinearOrder K] [IsStrictOrderedRing K]
  {objs : List (Obj σ K E)} {w : σ} {b : Bundle K E} {reps : Nat} {minE : K}
  {res : TraceResult σ K E} {per : Surf σ K E → Ray K E → WithTop K}
  {out : Surf σ K E → Ray K E → Bundle K E}

section
variable {surfs : List (Surf σ K E)}

theorem propagated_strip {minE : K} {k : Nat} {l l' : Bundle K E}
    (h : (l.map Ray.strip).Perm (l'.map Ray.strip)) :
    ((propagated minE k l).map Ray.strip).Perm ((propagated minE k l').map Ray.strip) := by
  unfold propagated
  split
  · exact h
  · have hf : ∀ l : Bundle K E, (l.filter fun r => decide (minE < r.energy)).map Ray.strip =
        (l.map Ray.strip).filter fun r => decide (minE < r.energy) := by
      intro l
      rw [List.filter_map]
      rfl
    rw [hf, hf]
    exact h.filter _

theorem Blind.nearest (hb : Blind per out surfs) {s : Surf σ K E} (hs : s ∈ surfs) (p : Ray K E) :
    NearestHit per surfs s p.strip ↔ NearestHit per surfs s p := by
  unfold NearestHit
  rw [(hb s hs p).1]
  constructor
  · rintro ⟨t, h1, h2, h3⟩
    refine ⟨t, h1, h2, fun s' hs' t' ht' => h3 s' hs' t' ?_⟩
    rw [(hb s' hs' p).1]; exact ht'
  · rintro ⟨t, h1, h2, h3⟩
    refine ⟨t, h1, h2, fun s' hs' t' ht' => h3 s' hs' t' ?_⟩
    rw [← (hb s' hs' p).1]; exact ht'

theorem Blind.children (hb : Blind per out surfs) (p : Ray K E) :
    ((children per out surfs p.strip).map Ray.strip).Perm
      ((children per out surfs p).map Ray.strip) := by
  unfold Tracer.children
  rw [List.map_flatMap, List.map_flatMap]
  refine List.Perm.flatMap_left _ ?_
  intro s hs
  by_cases h : NearestHit per surfs s p
  · rw [if_pos h, if_pos ((hb.nearest hs p).2 h)]
    exact (hb s hs p).2
  · rw [if_neg h, if_neg (fun h' => h ((hb.nearest hs p).1 h'))]

theorem Blind.flatMap_children (hb : Blind per out surfs) {l l' : Bundle K E}
    (h : (l.map Ray.strip).Perm (l'.map Ray.strip)) :
    ((l.flatMap (Tracer.children per out surfs)).map Ray.strip).Perm
      ((l'.flatMap (Tracer.children per out surfs)).map Ray.strip) := by
  have hf : ∀ l : Bundle K E, ((l.flatMap (Tracer.children per out surfs)).map Ray.strip).Perm
      ((l.map Ray.strip).flatMap fun p => (Tracer.children per out surfs p).map Ray.strip) := by
    intro l
    rw [List.map_flatMap, List.flatMap_map]
    exact List.Perm.flatMap_left _ fun p _ => (hb.children p).symm
  exact ((hf l).trans (h.flatMap_right _)).trans (hf l').symm

theorem Blind.settled (hb : Blind per out surfs) {p q : Ray K E} (h : p.strip = q.strip)
    (hp : Settled per surfs p) : Settled per surfs q := by
  have e : ∀ s ∈ surfs, per s p = per s q := by
    intro s hs
    rw [← (hb s hs p).1, h, (hb s hs q).1]
  rcases hp with ⟨s, hs, hle⟩ | hp
  · exact Or.inl ⟨s, hs, by rw [← e s hs]; exact hle⟩
  · exact Or.inr fun s hs t ht => hp s hs t (by rw [e s hs]; exact ht)

end

theorem refines_aux (hdef : ∀ o ∈ objs, o.Default)
    (hper : AllSurfs (fun s => s.PerRay (per s)) objs) (hpar : AllSurfs Surf.ParentsOk objs)
    (hout : AllSurfs (fun s => s.PerHit (out s)) objs)
    (hb : Blind per out (objs.flatMap Obj.surfs))
    (h : rayTracer objs w b reps minE true = .ok res)
    (hwin : ∀ k < reps, ∀ prev, res.tree[k]? = some prev →
      (prev.map Ray.strip).Perm
        ((generation per out (objs.flatMap Obj.surfs) minE b k).map Ray.strip) →
      ∀ p ∈ propagated minE k prev, Settled per (objs.flatMap Obj.surfs) p)
    {k : Nat} (hk : k ≤ reps) :
    (((res.tree[k]?).getD []).map Ray.strip).Perm
      ((generation per out (objs.flatMap Obj.surfs) minE b k).map Ray.strip) := by
  have hobj : ∀ o ∈ objs, o.ShapeOk := fun o ho => (hdef o ho).shapeOk
  induction k with
  | zero =>
    have := (C11_iteration_limit hobj h).1
    rw [List.head?_eq_getElem?] at this
    rw [this]
    exact List.Perm.refl _
  | succ k ih =>
    have ih' := ih (by omega)
    have hstop : ∀ l : Bundle K E, propagated minE k l = [] →
        (l.map Ray.strip).Perm
          ((generation per out (objs.flatMap Obj.surfs) minE b k).map Ray.strip) →
        generation per out (objs.flatMap Obj.surfs) minE b (k + 1) = [] := by
      intro l hl hp
      have := propagated_strip (minE := minE) (k := k) hp
      rw [hl, List.map_nil] at this
      have hnil := this.symm.eq_nil
      rw [List.map_eq_nil_iff] at hnil
      show (propagated minE k _).flatMap _ = []
      rw [hnil]
      rfl
    cases hprev : res.tree[k]? with
    | none =>
      rw [hprev] at ih'
      have hnone : res.tree[k + 1]? = none := by
        rw [List.getElem?_eq_none_iff] at hprev ⊢
        omega
      rw [hnone, hstop [] (by unfold propagated; split <;> rfl) ih']
      exact List.Perm.refl _
    | some prev =>
      rw [hprev] at ih'
      simp only [Option.getD_some] at ih'
      by_cases hprop : propagated minE k prev = []
      · rw [hstop prev hprop ih']
        by_cases hk0 : k = 0
        · subst hk0
          have hb0 : prev = [] := by simpa [propagated] using hprop
          obtain ⟨st, st', gen, rec, steps, weak, hrun, hl, hsh, hbu, _, hi, hnext, _⟩ :=
            tree_step hobj h hprev (by omega) (Or.inl rfl)
          have hgen : gen = [] := by
            rw [List.eq_nil_iff_forall_not_mem]
            intro r hr
            have hlen : AllSurfs Surf.LengthOk objs := fun o ho s hs rays => by
              rw [hper o ho s hs]; simp
            obtain ⟨_, _, p, hc⟩ := generated_child hsh hlen hpar hi hr
            have := hc.parent
            rw [hbu, hprop] at this
            simp at this
          rw [hnext, if_pos hgen]
          exact List.Perm.refl _
        · have hlen := C11_stops hobj h (k := k - 1) (lvl := prev)
            (by rw [show k - 1 + 1 = k by omega]; exact hprev) (by
              intro r hr
              unfold propagated at hprop
              rw [if_neg hk0, List.filter_eq_nil_iff] at hprop
              simpa using hprop r hr)
          have : res.tree[k + 1]? = none := by
            rw [List.getElem?_eq_none_iff]
            omega
          rw [this]
          exact List.Perm.refl _
      · obtain ⟨st, st', gen, rec, steps, weak, hrun, hl, hsh, hbu, _, hi, hnext, _⟩ :=
          tree_step hobj h hprev (by omega) (Or.inr hprop)
        have hfree := hrun.free hdef (initState_shape objs b w) (initState_free objs b w)
        have hps := propagated_strip (minE := minE) (k := k) ih'
        rw [← hbu] at hps
        have hstep := iterate_strip hsh hfree (out := out) (fun s hs => mem_allSurfs hper hs)
          (fun s hs => mem_allSurfs hout hs) (by
            intro p hp
            rw [hbu] at hp
            exact hwin k (by omega) prev hprev ih' p hp) hi
        have hnext' : ((res.tree[k + 1]?).getD []).Perm gen := by
          rw [hnext]
          split
          · rename_i hg
            rw [hg]
            exact List.Perm.refl _
          · exact recorded_perm hsh hi
        exact ((hnext'.map _).trans hstep).trans (hb.flatMap_children hps)

/-- The rays of the first `reps` bundles of a tree that set out again are settled. -/
def TreeSettled (per : Surf σ K E → Ray K E → WithTop K) (surfs : List (Surf σ K E)) (minE : K)
    (reps : Nat) (tree : List (Bundle K E)) : Prop :=
  ∀ k < reps, ∀ lvl, tree[k]? = some lvl → ∀ p ∈ propagated minE k lvl, Settled per surfs p

/-- C14, partial: every recorded bundle consists of the rays of the per-ray recursion.  Missing:
rays that meet a surface at a parameter in (1e-10, 1e-6] and none at a smaller one, see `C14_counterexample`. -/
theorem C14_refines_partial (hdef : ∀ o ∈ objs, o.Default)
    (hper : AllSurfs (fun s => s.PerRay (per s)) objs) (hpar : AllSurfs Surf.ParentsOk objs)
    (hout : AllSurfs (fun s => s.PerHit (out s)) objs)
    (hb : Blind per out (objs.flatMap Obj.surfs))
    (h : rayTracer objs w b reps minE true = .ok res)
    (hwin : TreeSettled per (objs.flatMap Obj.surfs) minE reps res.tree)
    {k : Nat} (hk : k ≤ reps) :
    (((res.tree[k]?).getD []).map Ray.strip).Perm
      ((generation per out (objs.flatMap Obj.surfs) minE b k).map Ray.strip) :=
  refines_aux hdef hper hpar hout hb h (fun k hk prev hp _ => hwin k hk prev hp) hk

/-- If a tree is settled, so are the generations of its source. -/
theorem generation_settled (hdef : ∀ o ∈ objs, o.Default)
    (hper : AllSurfs (fun s => s.PerRay (per s)) objs) (hpar : AllSurfs Surf.ParentsOk objs)
    (hout : AllSurfs (fun s => s.PerHit (out s)) objs)
    (hb : Blind per out (objs.flatMap Obj.surfs))
    (h : rayTracer objs w b reps minE true = .ok res)
    (hwin : TreeSettled per (objs.flatMap Obj.surfs) minE reps res.tree)
    {k : Nat} (hk : k < reps) :
    ∀ p ∈ propagated minE k (generation per out (objs.flatMap Obj.surfs) minE b k),
      Settled per (objs.flatMap Obj.surfs) p := by
  intro p hp
  have hr := C14_refines_partial hdef hper hpar hout hb h hwin hk.le
  have hps := propagated_strip (minE := minE) (k := k) hr
  obtain ⟨q, hq, hqp⟩ := List.mem_map.1 (hps.symm.subset (List.mem_map.2 ⟨p, hp, rfl⟩))
  refine hb.settled hqp ?_
  cases hl : res.tree[k]? with
  | none =>
    rw [hl] at hq
    simp [propagated] at hq
  | some lvl =>
    rw [hl] at hq
    exact hwin k hk lvl hl q hq

/-- The same for any source whose generations are among those of a settled tree. -/
theorem refines_of_subset (hdef : ∀ o ∈ objs, o.Default)
    (hper : AllSurfs (fun s => s.PerRay (per s)) objs) (hpar : AllSurfs Surf.ParentsOk objs)
    (hout : AllSurfs (fun s => s.PerHit (out s)) objs)
    (hb : Blind per out (objs.flatMap Obj.surfs)) {b' : Bundle K E} {w' : σ}
    {res' : TraceResult σ K E}
    (h : rayTracer objs w b reps minE true = .ok res)
    (hwin : TreeSettled per (objs.flatMap Obj.surfs) minE reps res.tree)
    (h' : rayTracer objs w' b' reps minE true = .ok res')
    (hsub : ∀ k, ∀ p ∈ generation per out (objs.flatMap Obj.surfs) minE b' k,
      p ∈ generation per out (objs.flatMap Obj.surfs) minE b k) {k : Nat} (hk : k ≤ reps) :
    (((res'.tree[k]?).getD []).map Ray.strip).Perm
      ((generation per out (objs.flatMap Obj.surfs) minE b' k).map Ray.strip) := by
  refine refines_aux hdef hper hpar hout hb h' ?_ hk
  intro k hk prev _ hperm p hp
  have hps := propagated_strip (minE := minE) (k := k) hperm
  obtain ⟨q, hq, hqp⟩ := List.mem_map.1 (hps.subset (List.mem_map.2 ⟨p, hp, rfl⟩))
  refine hb.settled hqp (generation_settled hdef hper hpar hout hb h hwin hk q ?_)
  unfold propagated at hq ⊢
  split
  · rename_i hk; rw [if_pos hk] at hq; exact hsub k q hq
  · rename_i hk
    rw [if_neg hk] at hq
    exact List.mem_filter.2 ⟨hsub k q (List.mem_filter.1 hq).1, (List.mem_filter.1 hq).2⟩

theorem generation_append (surfs : List (Surf σ K E)) (minE : K) (b1 b2 : Bundle K E) (k : Nat) :
    generation per out surfs minE (b1 ++ b2) k =
      generation per out surfs minE b1 k ++ generation per out surfs minE b2 k := by
  induction k with
  | zero => rfl
  | succ k ih =>
    have hp : ∀ l l' : Bundle K E, propagated minE k (l ++ l') = propagated minE k l ++ propagated minE k l' := by
      intro l l'
      unfold propagated
      split
      · rfl
      · rw [List.filter_append]
    simp only [generation, ih, hp, List.flatMap_append]

/-- C14, partial: the tree of a union of two bundles is the union of their trees, level by level, up
to order and parent indices. -/
theorem C14_union_partial (hdef : ∀ o ∈ objs, o.Default)
    (hper : AllSurfs (fun s => s.PerRay (per s)) objs) (hpar : AllSurfs Surf.ParentsOk objs)
    (hout : AllSurfs (fun s => s.PerHit (out s)) objs)
    (hb : Blind per out (objs.flatMap Obj.surfs)) {b1 b2 : Bundle K E}
    {w1 w2 : σ} {res1 res2 : TraceResult σ K E}
    (h : rayTracer objs w (b1 ++ b2) reps minE true = .ok res)
    (hwin : TreeSettled per (objs.flatMap Obj.surfs) minE reps res.tree)
    (h1 : rayTracer objs w1 b1 reps minE true = .ok res1)
    (h2 : rayTracer objs w2 b2 reps minE true = .ok res2) (k : Nat) :
    (((res.tree[k]?).getD []).map Ray.strip).Perm
      (((res1.tree[k]?).getD [] ++ (res2.tree[k]?).getD []).map Ray.strip) := by
  have hobj : ∀ o ∈ objs, o.ShapeOk := fun o ho => (hdef o ho).shapeOk
  rcases Nat.lt_or_ge reps k with hk | hk
  · have hnone : ∀ {w b res}, rayTracer objs w b reps minE true = .ok res → res.tree[k]? = none := by
      intro w b res h
      have := (C11_iteration_limit hobj h).2.1
      rw [List.getElem?_eq_none_iff]
      omega
    rw [hnone h, hnone h1, hnone h2]
    exact List.Perm.refl _
  · have e := C14_refines_partial hdef hper hpar hout hb h hwin hk
    have e1 := refines_of_subset hdef hper hpar hout hb h hwin h1 (by
      intro k p hp
      rw [generation_append]
      exact List.mem_append_left _ hp) hk
    have e2 := refines_of_subset hdef hper hpar hout hb h hwin h2 (by
      intro k p hp
      rw [generation_append]
      exact List.mem_append_right _ hp) hk
    rw [generation_append, List.map_append] at e
    rw [List.map_append]
    exact e.trans (e1.append e2).symm

theorem Examples.facing_settled : ∃ res, rayTracer facing () source 4 (1/5) true = .ok res ∧
    TreeSettled Surf.single (facing.flatMap Obj.surfs) (1/5) 4 res.tree := by
  have h : ((rayTracer facing () source 4 (1/5) true).toOption.map fun r =>
      r.tree.all fun lvl => lvl.all fun p => (facing.flatMap Obj.surfs).all fun s =>
        decide (s.single p ≤ ((selfTol : ℚ) : WithTop ℚ)) || decide (((dropTol : ℚ) : WithTop ℚ) < s.single p)) =
      some true := by
    decide +kernel
  cases hr : rayTracer facing () source 4 (1/5) true with
  | error e => rw [hr] at h; simp [Except.toOption] at h
  | ok res =>
    rw [hr] at h
    simp only [Except.toOption, Option.map_some, Option.some.injEq, List.all_eq_true,
      decide_eq_true_eq, Bool.or_eq_true] at h
    refine ⟨res, rfl, ?_⟩
    intro k _ lvl hl p hp
    refine Or.inr fun s hs t ht => ?_
    have hmem : p ∈ lvl := by
      unfold propagated at hp
      split at hp
      · exact hp
      · exact (List.mem_filter.1 hp).1
    have := h lvl (List.mem_of_getElem? hl) p hmem s hs
    rw [ht] at this
    exact this.imp (fun h => WithTop.coe_le_coe.1 h) (fun h => WithTop.coe_lt_coe.1 h)

/-- The tree of the two-ray source is the union of the trees of its rays. -/
example : ∃ res res1 res2, rayTracer Examples.facing () Examples.source 4 (1/5) true = .ok res ∧
    rayTracer Examples.facing () (Examples.source.take 1) 4 (1/5) true = .ok res1 ∧
    rayTracer Examples.facing () (Examples.source.drop 1) 4 (1/5) true = .ok res2 ∧
    ∀ k : Nat, (((res.tree[k]?).getD []).map Ray.strip).Perm
      (((res1.tree[k]?).getD [] ++ (res2.tree[k]?).getD []).map Ray.strip) := by
  obtain ⟨res, h, hw⟩ := Examples.facing_settled
  have e1 : ((rayTracer Examples.facing () (Examples.source.take 1) 4 (1/5) true).toOption.map
      fun r => r.tree.map List.length) = some [1, 1] := by decide +kernel
  have e2 : ((rayTracer Examples.facing () (Examples.source.drop 1) 4 (1/5) true).toOption.map
      fun r => r.tree.map List.length) = some [1, 1, 1, 1] := by decide +kernel
  cases h1 : rayTracer Examples.facing () (Examples.source.take 1) 4 (1/5) true with
  | error e => rw [h1] at e1; simp [Except.toOption] at e1
  | ok res1 =>
    cases h2 : rayTracer Examples.facing () (Examples.source.drop 1) 4 (1/5) true with
    | error e => rw [h2] at e2; simp [Except.toOption] at e2
    | ok res2 =>
      exact ⟨res, res1, res2, h, rfl, rfl, C14_union_partial Examples.facing_default
        Examples.facing_perRay Examples.facing_parents Examples.facing_perHit Examples.facing_blind
        h hw h1 h2⟩

/-- C14 fails in the window: a ray 1e-8 above a mirror is reflected if it is traced alone, and lost
if it is traced together with a ray that starts on the mirror and leaves it. -/
theorem C14_counterexample :
    ((rayTracer [Examples.lower] () [⟨⟨0, 0, 1/10^8⟩, ⟨0, 0, -1⟩, 1, 0, none, ()⟩] 1 0 true).toOption.map
      fun r => r.tree.map List.length) = some [1, 1] ∧
    ((rayTracer [Examples.lower] () [⟨⟨0, 0, 0⟩, ⟨0, 0, 1⟩, 1, 0, none, ()⟩] 1 0 true).toOption.map
      fun r => r.tree.map List.length) = some [1] ∧
    ((rayTracer [Examples.lower] () [⟨⟨0, 0, 1/10^8⟩, ⟨0, 0, -1⟩, 1, 0, none, ()⟩,
        ⟨⟨0, 0, 0⟩, ⟨0, 0, 1⟩, 1, 0, none, ()⟩] 1 0 true).toOption.map
      fun r => r.tree.map List.length) = some [2] := by
  decide +kernel

end Tracer
