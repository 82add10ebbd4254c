import Verif.Lemmas.Exact
import Verif.Lemmas.Variation

/-!
# Scenes and thresholds that give the same rays (C14, C81, C82, C83)

All about objects with the default policies and surfaces that treat rays one by one.  `C14_exact` describes every recorded
bundle without any condition on where rays meet surfaces; the other theorems compare two traces.
-/

set_option linter.unusedSectionVars false

namespace Tracer

variable {K E σ : Type _} [Field K] [LinearOrder K] [IsStrictOrderedRing K]
  {objs objs' : List (Obj σ K E)} {w w' : σ} {b : Bundle K E} {reps : Nat} {minE minE' : K}
  {res res' : TraceResult σ K E} {per : Surf σ K E → Ray K E → WithTop K}
  {out : Surf σ K E → Ray K E → Bundle K E}

/-- C14: every recorded bundle consists of the rays of the recursion over generations. -/
theorem C14_exact (hdef : ∀ o ∈ objs, o.Default)
    (hper : AllSurfs (fun s => s.PerRay (per s)) objs) (hpar : AllSurfs Surf.ParentsOk objs)
    (hout : AllSurfs (fun s => s.PerHit (out s)) objs)
    (hb : Blind per out (objs.flatMap Obj.surfs))
    (h : rayTracer objs w b reps minE true = .ok res) {k : Nat} (hk : k ≤ reps) :
    (((res.tree[k]?).getD []).map Ray.strip).Perm
      ((exactGeneration per out (objs.flatMap Obj.surfs) minE b k).map Ray.strip) := by
  induction k with
  | zero => rw [tree_zero (fun o ho => (hdef o ho).shapeOk) h]; exact List.Perm.refl _
  | succ k ih =>
    exact (refines_step hdef hper hpar hout h hk).trans
      (hb.nextRays (propagated_strip (ih (by omega))))

/-- C14: the order of the source rays does not matter. -/
theorem C14_order (hdef : ∀ o ∈ objs, o.Default)
    (hper : AllSurfs (fun s => s.PerRay (per s)) objs) (hpar : AllSurfs Surf.ParentsOk objs)
    (hout : AllSurfs (fun s => s.PerHit (out s)) objs)
    (hb : Blind per out (objs.flatMap Obj.surfs)) {b' : Bundle K E} (hperm : b.Perm b')
    (h : rayTracer objs w b reps minE true = .ok res)
    (h' : rayTracer objs w' b' reps minE true = .ok res') (k : Nat) :
    (((res.tree[k]?).getD []).map Ray.strip).Perm (((res'.tree[k]?).getD []).map Ray.strip) := by
  have hobj : ∀ o ∈ objs, o.ShapeOk := fun o ho => (hdef o ho).shapeOk
  rcases Nat.lt_or_ge reps k with hk | hk
  · rw [tree_beyond hobj h hk, tree_beyond hobj h' hk]
  · refine (C14_exact hdef hper hpar hout hb h hk).trans (List.Perm.trans ?_ (C14_exact hdef hper hpar hout hb h' hk).symm)
    clear hk
    induction k with
    | zero => exact hperm.map _
    | succ k ih => exact hb.nextRays (propagated_strip ih)

/-- C81: the same surfaces, listed in any order and grouped into objects in any way, give the same tree, level by level, up to
the order of the rays and their parent indices. -/
theorem C81_construction (hdef : ∀ o ∈ objs, o.Default) (hdef' : ∀ o ∈ objs', o.Default)
    (hsame : (objs.flatMap Obj.surfs).Perm (objs'.flatMap Obj.surfs))
    (hper : AllSurfs (fun s => s.PerRay (per s)) objs) (hpar : AllSurfs Surf.ParentsOk objs)
    (hout : AllSurfs (fun s => s.PerHit (out s)) objs)
    (hb : Blind per out (objs.flatMap Obj.surfs))
    (h : rayTracer objs w b reps minE true = .ok res)
    (h' : rayTracer objs' w' b reps minE true = .ok res') (k : Nat) :
    (((res.tree[k]?).getD []).map Ray.strip).Perm (((res'.tree[k]?).getD []).map Ray.strip) := by
  have hall : ∀ {P : Surf σ K E → Prop}, AllSurfs P objs → AllSurfs P objs' := by
    intro P hP o ho s hs
    exact mem_allSurfs hP (hsame.symm.subset (List.mem_flatMap.2 ⟨o, ho, hs⟩))
  rcases Nat.lt_or_ge reps k with hk | hk
  · rw [tree_beyond (fun o ho => (hdef o ho).shapeOk) h hk, tree_beyond (fun o ho => (hdef' o ho).shapeOk) h' hk]
  · induction k with
    | zero =>
      rw [tree_zero (fun o ho => (hdef o ho).shapeOk) h, tree_zero (fun o ho => (hdef' o ho).shapeOk) h']
    | succ k ih =>
      refine (refines_step hdef hper hpar hout h hk).trans ?_
      refine List.Perm.trans ?_ (refines_step hdef' (hall hper) (hall hpar) (hall hout) h' hk).symm
      exact (hb.nextRays (propagated_strip (ih (by omega)))).trans ((nextRays_perm_surfs hsame _).map _)

/-- Surfaces that a ray does not reach take no part in what becomes of it. -/
theorem nextRays_unreached {surfs extra : List (Surf σ K E)} {l : Bundle K E}
    (hu : ∀ p ∈ l, ∀ e ∈ extra, Unreached per surfs e p) :
    nextRays per out (surfs ++ extra) l = nextRays per out surfs l := by
  classical
  have hd : (selfTol : K) < dropTol := selfTol_lt_dropTol
  have hcut : cutoff per (surfs ++ extra) l = cutoff per surfs l := by
    unfold cutoff
    congr 1
    apply propext
    constructor
    · rintro ⟨s, hs, q, hq, hle⟩
      rcases List.mem_append.1 hs with hs | hs
      · exact ⟨s, hs, q, hq, hle⟩
      · exfalso
        rcases hu q hq s hs with e | ⟨t, e, s0, _, t0, _, h0, h1⟩
        · rw [e] at hle
          exact absurd hle (not_le.2 (WithTop.coe_lt_top _))
        · rw [e] at hle
          have := WithTop.coe_le_coe.1 hle
          exact absurd (hd.trans (h0.trans h1)) (not_lt.2 this)
    · rintro ⟨s, hs, q, hq, hle⟩
      exact ⟨s, List.mem_append_left _ hs, q, hq, hle⟩
  have hc2 : cutoff per surfs l ≤ (dropTol : K) := by
    unfold cutoff
    split
    · exact le_refl _
    · exact hd.le
  unfold nextRays
  rw [hcut]
  refine List.flatMap_congr fun p hp => ?_
  unfold childrenBeyond
  have hold : ∀ s, (∃ t, NearestBeyond (cutoff per surfs l) per (surfs ++ extra) s p t) ↔
      ∃ t, NearestBeyond (cutoff per surfs l) per surfs s p t := by
    intro s
    constructor
    · rintro ⟨t, h1, h2, h3⟩
      exact ⟨t, h1, h2, fun s' hs' => h3 s' (List.mem_append_left _ hs')⟩
    · rintro ⟨t, h1, h2, h3⟩
      refine ⟨t, h1, h2, fun s' hs' t' ht' hlt => ?_⟩
      rcases List.mem_append.1 hs' with hs' | hs'
      · exact h3 s' hs' t' ht' hlt
      · rcases hu p hp s' hs' with e | ⟨t1, e, s0, hs0, t0, e0, h0, h01⟩
        · rw [e] at ht'
          exact absurd ht' (by simp)
        · rw [e] at ht'
          have : t1 = t' := WithTop.coe_injective ht'
          subst this
          exact (h3 s0 hs0 t0 e0 (lt_of_le_of_lt hc2 h0)).trans h01.le
  have hnew : ∀ s ∈ extra, ¬ ∃ t, NearestBeyond (cutoff per surfs l) per surfs s p t := by
    rintro s hs ⟨t, h1, h2, h3⟩
    rcases hu p hp s hs with e | ⟨t1, e, s0, hs0, t0, e0, h0, h01⟩
    · rw [e] at h1
      exact absurd h1 (by simp)
    · rw [e] at h1
      have : t1 = t := WithTop.coe_injective h1
      subst this
      exact absurd h01 (not_lt.2 (h3 s0 hs0 t0 e0 (lt_of_le_of_lt hc2 h0)))
  rw [List.flatMap_append]
  have e1 : (extra.flatMap fun s => if ∃ t, NearestBeyond (cutoff per surfs l) per (surfs ++ extra) s p t then out s p else []) = [] := by
    rw [List.flatMap_eq_nil_iff]
    intro s hs
    exact if_neg fun h => hnew s hs ((hold s).1 h)
  rw [e1, List.append_nil]
  refine List.flatMap_congr fun s _ => ?_
  by_cases h : ∃ t, NearestBeyond (cutoff per surfs l) per surfs s p t
  · rw [if_pos h, if_pos ((hold s).2 h)]
  · rw [if_neg h, if_neg fun h' => h ((hold s).1 h')]

/-- C82: surfaces added to a scene, in new objects or in the old ones, change nothing if no ray that sets out in the old scene
reaches them: each of these rays misses each of them or meets it behind an old surface. -/
theorem C82_unreached (hdef : ∀ o ∈ objs, o.Default) (hdef' : ∀ o ∈ objs', o.Default)
    {extra : List (Surf σ K E)}
    (hsame : (objs'.flatMap Obj.surfs).Perm (objs.flatMap Obj.surfs ++ extra))
    (hper : AllSurfs (fun s => s.PerRay (per s)) objs') (hpar : AllSurfs Surf.ParentsOk objs')
    (hout : AllSurfs (fun s => s.PerHit (out s)) objs')
    (hb : Blind per out (objs'.flatMap Obj.surfs))
    (h : rayTracer objs w b reps minE true = .ok res)
    (h' : rayTracer objs' w' b reps minE true = .ok res')
    (hu : ∀ k < reps, ∀ lvl, res.tree[k]? = some lvl → ∀ p ∈ propagated minE k lvl, ∀ e ∈ extra,
      Unreached per (objs.flatMap Obj.surfs) e p) (k : Nat) :
    (((res.tree[k]?).getD []).map Ray.strip).Perm (((res'.tree[k]?).getD []).map Ray.strip) := by
  have hall : ∀ {P : Surf σ K E → Prop}, AllSurfs P objs' → AllSurfs P objs := by
    intro P hP o ho s hs
    exact mem_allSurfs hP (hsame.symm.subset (List.mem_append_left _ (List.mem_flatMap.2 ⟨o, ho, hs⟩)))
  rcases Nat.lt_or_ge reps k with hk | hk
  · rw [tree_beyond (fun o ho => (hdef o ho).shapeOk) h hk, tree_beyond (fun o ho => (hdef' o ho).shapeOk) h' hk]
  · induction k with
    | zero =>
      rw [tree_zero (fun o ho => (hdef o ho).shapeOk) h, tree_zero (fun o ho => (hdef' o ho).shapeOk) h']
    | succ k ih =>
      refine (refines_step hdef (hall hper) (hall hpar) (hall hout) h hk).trans ?_
      refine List.Perm.trans ?_ (refines_step hdef' hper hpar hout h' hk).symm
      refine List.Perm.trans ?_ (hb.nextRays (propagated_strip (ih (by omega))))
      refine List.Perm.trans (List.Perm.of_eq ?_) ((nextRays_perm_surfs hsame.symm _).map _)
      rw [nextRays_unreached]
      intro p hp e he
      cases hl : res.tree[k]? with
      | none =>
        rw [hl] at hp
        simp [propagated] at hp
      | some lvl =>
        rw [hl] at hp
        exact hu k hk lvl hl p hp e he

/-! ### The energy threshold -/

theorem propagated_le (hm : minE ≤ minE') {k : Nat} (l : Bundle K E) :
    (propagated minE' k l).Sublist (propagated minE k l) := by
  unfold propagated
  split
  · exact List.Sublist.refl _
  · refine List.monotone_filter_right _ fun r hr => ?_
    have hr' : minE' < r.energy := by simpa using hr
    simpa using lt_of_le_of_lt hm hr'

theorem propagated_subperm (hm : minE ≤ minE') {k : Nat} {l l' : Bundle K E} (h : (l'.map Ray.strip).Subperm (l.map Ray.strip)) :
    ((propagated minE' k l').map Ray.strip).Subperm ((propagated minE k l).map Ray.strip) := by
  refine List.Subperm.trans ((propagated_le hm l').map Ray.strip).subperm ?_
  unfold propagated
  split
  · exact h
  · have hf : ∀ l : Bundle K E, (l.filter fun r => decide (minE < r.energy)).map Ray.strip =
        (l.map Ray.strip).filter fun r => decide (minE < r.energy) := by
      intro l
      rw [List.filter_map]
      rfl
    rw [hf, hf]
    exact h.filter _

theorem flatMap_children_strip {surfs : List (Surf σ K E)} (hb : Blind per out surfs) (l : Bundle K E) :
    ((l.flatMap (children per out surfs)).map Ray.strip).Perm
      ((l.map Ray.strip).flatMap fun p => (children per out surfs p).map Ray.strip) := by
  rw [List.map_flatMap, List.flatMap_map]
  exact List.Perm.flatMap_left _ fun p _ => (hb.children p).symm

theorem subperm_flatMap {α β : Type _} {l l' : List α} (h : l'.Subperm l) (f : α → List β) :
    (l'.flatMap f).Subperm (l.flatMap f) := by
  obtain ⟨m, hm, hs⟩ := h
  exact (hm.symm.flatMap_right f).subperm.trans (hs.flatMap f).subperm

/-- The rays of the bundles after the source, up to bundle number `reps`, that set out again are settled. -/
def LaterSettled (per : Surf σ K E → Ray K E → WithTop K) (surfs : List (Surf σ K E)) (minE : K)
    (reps : Nat) (tree : List (Bundle K E)) : Prop :=
  ∀ k < reps, 0 < k → ∀ lvl, tree[k]? = some lvl → ∀ p ∈ propagated minE k lvl, Settled per surfs p

theorem LaterSettled.mem {surfs : List (Surf σ K E)} {tree : List (Bundle K E)} (hset : LaterSettled per surfs minE reps tree)
    {k : Nat} (hk : k < reps) (h0 : 0 < k) : ∀ p ∈ propagated minE k ((tree[k]?).getD []), Settled per surfs p := by
  intro p hp
  cases hl : tree[k]? with
  | none =>
    rw [hl] at hp
    simp [propagated] at hp
  | some lvl =>
    rw [hl] at hp
    exact hset k hk h0 lvl hl p hp

section
variable (hm : minE ≤ minE') (hdef : ∀ o ∈ objs, o.Default)
    (hper : AllSurfs (fun s => s.PerRay (per s)) objs) (hpar : AllSurfs Surf.ParentsOk objs)
    (hout : AllSurfs (fun s => s.PerHit (out s)) objs)
    (hb : Blind per out (objs.flatMap Obj.surfs))
    (h : rayTracer objs w b reps minE true = .ok res)
    (h' : rayTracer objs w' b reps minE' true = .ok res')
    (hset : LaterSettled per (objs.flatMap Obj.surfs) minE reps res.tree)
include hm hdef hper hpar hout hb h h' hset

/-- C83, partial: raising `min_energy` only removes rays.  Missing: rays after the source that are not settled, see
`C83_counterexample`. -/
theorem C83_prunes_partial (k : Nat) :
    (((res'.tree[k]?).getD []).map Ray.strip).Subperm (((res.tree[k]?).getD []).map Ray.strip) := by
  have hobj : ∀ o ∈ objs, o.ShapeOk := fun o ho => (hdef o ho).shapeOk
  rcases Nat.lt_or_ge reps k with hk | hk
  · rw [tree_beyond hobj h hk, tree_beyond hobj h' hk]
  · induction k with
    | zero => rw [tree_zero hobj h, tree_zero hobj h']
    | succ k ih =>
      have e := refines_step hdef hper hpar hout h hk
      have e' := refines_step hdef hper hpar hout h' hk
      refine e'.subperm.trans (List.Subperm.trans ?_ e.symm.subperm)
      rcases Nat.eq_zero_or_pos k with rfl | h0
      · rw [tree_zero hobj h, tree_zero hobj h']
        exact (List.Perm.refl _).subperm
      · have hsub := propagated_subperm hm (k := k) (ih (by omega))
        have hs := hset.mem (by omega : k < reps) h0
        have hs' : ∀ p ∈ propagated minE' k ((res'.tree[k]?).getD []), Settled per (objs.flatMap Obj.surfs) p := by
          intro p hp
          obtain ⟨q, hq, hqp⟩ := List.mem_map.1 (hsub.subset (List.mem_map.2 ⟨p, hp, rfl⟩))
          exact hb.settled hqp (hs q hq)
        rw [nextRays_settled hs, nextRays_settled hs']
        exact (flatMap_children_strip hb _).subperm.trans
          ((subperm_flatMap hsub _).trans (flatMap_children_strip hb _).symm.subperm)

/-- C83, partial: if no child carries more energy than its parent, the rays above the higher threshold are the same for both
thresholds. -/
theorem C83_strong_partial
    (hE : ∀ s ∈ objs.flatMap Obj.surfs, ∀ p, 0 ≤ p.energy → ∀ q ∈ out s p, 0 ≤ q.energy ∧ q.energy ≤ p.energy)
    (hsrc : ∀ p ∈ b, 0 ≤ p.energy) (k : Nat) :
    ((((res.tree[k]?).getD []).filter fun r => decide (minE' < r.energy)).map Ray.strip).Perm
      ((((res'.tree[k]?).getD []).filter fun r => decide (minE' < r.energy)).map Ray.strip) := by
  have hobj : ∀ o ∈ objs, o.ShapeOk := fun o ho => (hdef o ho).shapeOk
  have hsub := C83_prunes_partial hm hdef hper hpar hout hb h h' hset
  have hmemc : ∀ c p q, q ∈ childrenBeyond c per out (objs.flatMap Obj.surfs) p →
      ∃ s ∈ objs.flatMap Obj.surfs, q ∈ out s p := by
    intro c p q hq
    unfold childrenBeyond at hq
    obtain ⟨s, hs, hq⟩ := List.mem_flatMap.1 hq
    split at hq
    · exact ⟨s, hs, hq⟩
    · simp at hq
  have hmem : ∀ (m : K) (k : Nat) (l : Bundle K E), ∀ p ∈ propagated m k l, p ∈ l := by
    intro m k l p hp
    unfold propagated at hp
    split at hp
    · exact hp
    · exact (List.mem_filter.1 hp).1
  have hpos : ∀ k ≤ reps, ∀ p ∈ (res.tree[k]?).getD [], 0 ≤ p.energy := by
    intro k
    induction k with
    | zero =>
      intro _ p hp
      rw [tree_zero hobj h] at hp
      exact hsrc p hp
    | succ k ih =>
      intro hk p hp
      obtain ⟨q, hq, hqp⟩ := List.mem_map.1
        ((refines_step hdef hper hpar hout h hk).subset (List.mem_map.2 ⟨p, hp, rfl⟩))
      have e : q.strip.energy = p.strip.energy := by rw [hqp]
      change q.energy = p.energy at e
      rw [← e]
      unfold nextRays at hq
      obtain ⟨p0, hp0, hq⟩ := List.mem_flatMap.1 hq
      obtain ⟨s, hs, hq⟩ := hmemc _ _ _ hq
      exact (hE s hs p0 (ih (by omega) p0 (hmem _ _ _ _ hp0)) q hq).1
  have hfs : ∀ l : Bundle K E, (l.filter fun r => decide (minE' < r.energy)).map Ray.strip =
      (l.map Ray.strip).filter fun r => decide (minE' < r.energy) := by
    intro l
    rw [List.filter_map]
    rfl
  rcases Nat.lt_or_ge reps k with hk | hk
  · rw [tree_beyond hobj h hk, tree_beyond hobj h' hk]
  · induction k with
    | zero => rw [tree_zero hobj h, tree_zero hobj h']
    | succ k ih =>
      have e := refines_step hdef hper hpar hout h hk
      have e' := refines_step hdef hper hpar hout h' hk
      rw [hfs, hfs]
      refine (e.filter _).trans (List.Perm.trans ?_ (e'.filter _).symm)
      rcases Nat.eq_zero_or_pos k with rfl | h0
      · rw [tree_zero hobj h, tree_zero hobj h']
        exact List.Perm.refl _
      · have hs := hset.mem (by omega : k < reps) h0
        have hs' : ∀ p ∈ propagated minE' k ((res'.tree[k]?).getD []), Settled per (objs.flatMap Obj.surfs) p := by
          intro p hp
          obtain ⟨q, hq, hqp⟩ := List.mem_map.1
            ((propagated_subperm hm (k := k) (hsub k)).subset (List.mem_map.2 ⟨p, hp, rfl⟩))
          exact hb.settled hqp (hs q hq)
        rw [nextRays_settled hs, nextRays_settled hs']
        refine ((flatMap_children_strip hb _).filter _).trans (List.Perm.trans ?_ ((flatMap_children_strip hb _).filter _).symm)
        rw [List.filter_flatMap, List.filter_flatMap]
        have ih' := ih (by omega)
        have hk0 : k ≠ 0 := by omega
        have hp' : propagated minE' k ((res'.tree[k]?).getD []) =
            ((res'.tree[k]?).getD []).filter fun r => decide (minE' < r.energy) := by
          unfold propagated
          rw [if_neg hk0]
        rw [hp']
        refine List.Perm.trans (List.Perm.of_eq ?_) (ih'.flatMap_right _)
        have hdrop : ∀ l : Bundle K E, (∀ p ∈ l, 0 ≤ p.energy) →
            ((l.map Ray.strip).flatMap fun p => List.filter (fun r => decide (minE' < r.energy))
              ((children per out (objs.flatMap Obj.surfs) p).map Ray.strip)) =
            (((l.filter fun r => decide (minE' < r.energy)).map Ray.strip).flatMap fun p =>
              List.filter (fun r => decide (minE' < r.energy))
                ((children per out (objs.flatMap Obj.surfs) p).map Ray.strip)) := by
          intro l hl
          induction l with
          | nil => rfl
          | cons p l ihl =>
            have ihl' := ihl fun q hq => hl q (List.mem_cons_of_mem _ hq)
            by_cases hp : minE' < p.energy
            · rw [List.filter_cons_of_pos (by simpa using hp), List.map_cons, List.map_cons, List.flatMap_cons,
                List.flatMap_cons, ihl']
            · rw [List.filter_cons_of_neg (by simpa using hp), List.map_cons, List.flatMap_cons, ihl']
              have : List.filter (fun r => decide (minE' < r.energy))
                  ((children per out (objs.flatMap Obj.surfs) p.strip).map Ray.strip) = [] := by
                rw [List.filter_eq_nil_iff]
                intro r hr
                obtain ⟨q, hq, rfl⟩ := List.mem_map.1 hr
                unfold children at hq
                obtain ⟨s, hs, hq⟩ := List.mem_flatMap.1 hq
                split at hq
                · have := (hE s hs p.strip (hl p (by simp)) q hq).2
                  have hle : q.strip.energy ≤ minE' := this.trans (not_lt.1 hp)
                  simpa using hle
                · simp at hq
              rw [this, List.nil_append]
        have hp0 : propagated minE k ((res.tree[k]?).getD []) =
            ((res.tree[k]?).getD []).filter fun r => decide (minE < r.energy) := by
          unfold propagated
          rw [if_neg hk0]
        rw [hp0, hdrop _ fun p hp => hpos k (by omega) p (List.mem_filter.1 hp).1, List.filter_filter]
        congr 2
        refine List.filter_congr fun r _ => ?_
        by_cases hr : minE' < r.energy
        · simp [hr, lt_of_le_of_lt hm hr]
        · simp [hr]

end

/-! ### Flat mirrors -/

/-- In a scene of flat mirrors, all rays after the source are settled. -/
theorem flat_later_settled {w0 : σ} (hdef : ∀ o ∈ objs, o.Default) (hflat : AllSurfs FlatMirror objs)
    (h : rayTracer objs w b reps minE true = .ok res) :
    LaterSettled Surf.single (objs.flatMap Obj.surfs) minE reps res.tree := by
  have hb : Blind Surf.single (Surf.alone w0) (objs.flatMap Obj.surfs) := fun s hs =>
    ((mem_allSurfs hflat hs).spec w0).2.2.2.1
  intro k hk h0 lvl hl p hp
  obtain ⟨j, rfl⟩ : ∃ j, k = j + 1 := ⟨k - 1, by omega⟩
  have hpl : p ∈ (res.tree[j + 1]?).getD [] := by
    rw [hl]
    unfold propagated at hp
    rw [if_neg (by omega)] at hp
    exact (List.mem_filter.1 hp).1
  obtain ⟨q, hq, hqp⟩ := List.mem_map.1 ((refines_step (out := Surf.alone w0) hdef
    (fun o ho s hs => ((hflat o ho s hs).spec w0).1) (fun o ho s hs => ((hflat o ho s hs).spec w0).2.1)
    (fun o ho s hs => ((hflat o ho s hs).spec w0).2.2.1) h (by omega)).subset (List.mem_map.2 ⟨p, hpl, rfl⟩))
  refine hb.settled hqp (Or.inl ?_)
  unfold nextRays at hq
  obtain ⟨p0, _, hq⟩ := List.mem_flatMap.1 hq
  unfold childrenBeyond at hq
  obtain ⟨s, hs, hq⟩ := List.mem_flatMap.1 hq
  split at hq
  · refine ⟨s, hs, ?_⟩
    rw [((mem_allSurfs hflat hs).spec w0).2.2.2.2 p0 q hq]
    refine WithTop.coe_le_coe.2 ?_
    unfold selfTol
    positivity
  · simp at hq

/-- C14, partial: in a scene of flat mirrors the union of two bundles whose rays are settled gives the union of the trees, with
no condition on later rays. -/
theorem C14_flat_partial (hdef : ∀ o ∈ objs, o.Default) (hflat : AllSurfs FlatMirror objs)
    {b1 b2 : Bundle K E} {w1 w2 : σ} {res1 res2 : TraceResult σ K E}
    (hsrc : ∀ p ∈ b1 ++ b2, Settled Surf.single (objs.flatMap Obj.surfs) p)
    (h : rayTracer objs w (b1 ++ b2) reps minE true = .ok res)
    (h1 : rayTracer objs w1 b1 reps minE true = .ok res1)
    (h2 : rayTracer objs w2 b2 reps minE true = .ok res2) (k : Nat) :
    (((res.tree[k]?).getD []).map Ray.strip).Perm
      (((res1.tree[k]?).getD [] ++ (res2.tree[k]?).getD []).map Ray.strip) := by
  refine C14_union_partial (per := Surf.single) (out := Surf.alone w) hdef
    (fun o ho s hs => ((hflat o ho s hs).spec w).1) (fun o ho s hs => ((hflat o ho s hs).spec w).2.1)
    (fun o ho s hs => ((hflat o ho s hs).spec w).2.2.1)
    (fun s hs => ((mem_allSurfs hflat hs).spec w).2.2.2.1) h ?_ h1 h2 k
  intro k hk lvl hl p hp
  rcases Nat.eq_zero_or_pos k with rfl | h0
  · rw [tree_zero (fun o ho => (hdef o ho).shapeOk) h] at hl
    cases hl
    exact hsrc p (by simpa [propagated] using hp)
  · exact flat_later_settled (w0 := w) hdef hflat h k hk h0 lvl hl p hp

/-- C83 in a scene of flat mirrors: raising `min_energy` only removes rays, and none of those above the higher threshold. -/
theorem C83_flat (hm : minE ≤ minE') (hdef : ∀ o ∈ objs, o.Default) (hflat : AllSurfs FlatMirror objs)
    (henergy : AllSurfs Surf.EnergyOk objs) (hsrc : ∀ p ∈ b, 0 ≤ p.energy)
    (h : rayTracer objs w b reps minE true = .ok res)
    (h' : rayTracer objs w' b reps minE' true = .ok res') (k : Nat) :
    (((res'.tree[k]?).getD []).map Ray.strip).Subperm (((res.tree[k]?).getD []).map Ray.strip) ∧
    ((((res.tree[k]?).getD []).filter fun r => decide (minE' < r.energy)).map Ray.strip).Perm
      ((((res'.tree[k]?).getD []).filter fun r => decide (minE' < r.energy)).map Ray.strip) := by
  have hper : AllSurfs (fun s => s.PerRay s.single) objs := fun o ho s hs => ((hflat o ho s hs).spec w).1
  have hpar : AllSurfs Surf.ParentsOk objs := fun o ho s hs => ((hflat o ho s hs).spec w).2.1
  have hout : AllSurfs (fun s => s.PerHit (s.alone w)) objs := fun o ho s hs => ((hflat o ho s hs).spec w).2.2.1
  have hb : Blind Surf.single (Surf.alone w) (objs.flatMap Obj.surfs) := fun s hs =>
    ((mem_allSurfs hflat hs).spec w).2.2.2.1
  have hset := flat_later_settled (w0 := w) hdef hflat h
  refine ⟨C83_prunes_partial hm hdef hper hpar hout hb h h' hset k,
    C83_strong_partial hm hdef hper hpar hout hb h h' hset ?_ hsrc k⟩
  intro s hs p hp q hq
  unfold Surf.alone at hq
  split at hq
  · rename_i raw w1 hr
    obtain ⟨e1, e2⟩ := mem_allSurfs henergy hs w [p] [0] raw w1 (by simp) (by simpa using hp) hr
    refine ⟨e1 q hq, ?_⟩
    have e3 := e2 0 p rfl
    have hall : raw.filter (fun r => r.parent == 0) = raw := by
      rw [List.filter_eq_self]
      intro r hr'
      have := mem_allSurfs hpar hs w [p] [0] raw w1 hr r hr'
      simpa using this
    rw [hall] at e3
    refine le_trans ?_ e3
    exact List.single_le_sum (by
      intro x hx
      obtain ⟨r, hr', rfl⟩ := List.mem_map.1 hx
      exact e1 r hr') _ (List.mem_map.2 ⟨q, hq, rfl⟩)
  · simp at hq

/-! ### Concrete cases -/

namespace Examples

theorem lower_flat : ∀ s ∈ lower.surfs, FlatMirror s := by
  intro s hs
  simp only [lower, List.mem_cons, List.not_mem_nil, or_false] at hs
  exact ⟨_, _, _, hs, .flat, .mirror _, by decide +kernel⟩

theorem upper_flat : ∀ s ∈ upper.surfs, FlatMirror s := by
  intro s hs
  simp only [upper, List.mem_cons, List.not_mem_nil, or_false] at hs
  exact ⟨_, _, _, hs, .rect 4 4 _ (by unfold rectPlateGM; norm_num), .mirror _, by decide +kernel⟩

theorem facing_flat : AllSurfs FlatMirror facing := by
  intro o ho
  simp only [facing, List.mem_cons, List.not_mem_nil, or_false] at ho
  rcases ho with rfl | rfl
  · exact lower_flat
  · exact upper_flat

/-- The facing mirrors as one object, listed the other way round. -/
def facingTogether : List (Obj Unit ℚ Unit) :=
  [⟨upper.surfs ++ lower.surfs, Obj.defaultOwn, Obj.defaultNext 2⟩]

theorem facingTogether_default : ∀ o ∈ facingTogether, o.Default := by
  intro o ho
  simp only [facingTogether, List.mem_cons, List.not_mem_nil, or_false] at ho
  subst ho
  exact ⟨rfl, rfl⟩

/-- The facing mirrors with a plate at z = -1, which no ray reaches. -/
def facingAbove : List (Obj Unit ℚ Unit) :=
  facing ++ [⟨[mkSurf (finiteFlatGM (rectOutside 4 4)) (reflective (1/4)) ⟨1, ⟨0, 0, -1⟩⟩], Obj.defaultOwn, Obj.defaultNext 1⟩]

theorem facingAbove_flat : AllSurfs FlatMirror facingAbove := by
  intro o ho
  rcases List.mem_append.1 ho with ho | ho
  · exact facing_flat o ho
  · intro s hs
    simp only [List.mem_cons, List.not_mem_nil, or_false] at ho
    subst ho
    simp only [List.mem_cons, List.not_mem_nil, or_false] at hs
    exact ⟨_, _, _, hs, .rect 4 4 _ (by unfold rectPlateGM; norm_num), .mirror _, by decide +kernel⟩

theorem facingAbove_default : ∀ o ∈ facingAbove, o.Default := by
  intro o ho
  rcases List.mem_append.1 ho with ho | ho
  · exact facing_default o ho
  · simp only [List.mem_cons, List.not_mem_nil, or_false] at ho
    subst ho
    exact ⟨rfl, rfl⟩

/-- The traces of these scenes return. -/
theorem exists_trace {objs : List (Obj Unit ℚ Unit)} {b : Bundle ℚ Unit} {reps : Nat} {minE : ℚ} {n : List Nat}
    (h : ((rayTracer objs () b reps minE true).toOption.map fun r => r.tree.map List.length) = some n) :
    ∃ res, rayTracer objs () b reps minE true = .ok res ∧ res.tree.map List.length = n := by
  cases hr : rayTracer objs () b reps minE true with
  | error e => rw [hr] at h; simp [Except.toOption] at h
  | ok res =>
    rw [hr] at h
    simp only [Except.toOption, Option.map_some, Option.some.injEq] at h
    exact ⟨res, rfl, h⟩

end Examples

/-- The facing mirrors give the same rays as one object. -/
example : ∃ res res', rayTracer Examples.facing () Examples.source 4 (1/5) true = .ok res ∧
    rayTracer Examples.facingTogether () Examples.source 4 (1/5) true = .ok res' ∧
    res.tree.map List.length = [2, 2, 1, 1] ∧
    ∀ k : Nat, (((res.tree[k]?).getD []).map Ray.strip).Perm (((res'.tree[k]?).getD []).map Ray.strip) := by
  obtain ⟨res, h, hl⟩ := Examples.exists_trace (objs := Examples.facing) (b := Examples.source) (reps := 4) (minE := 1/5)
    (n := [2, 2, 1, 1]) (by decide +kernel)
  obtain ⟨res', h', _⟩ := Examples.exists_trace (objs := Examples.facingTogether) (b := Examples.source) (reps := 4)
    (minE := 1/5) (n := [2, 2, 1, 1]) (by decide +kernel)
  refine ⟨res, res', h, h', hl, C81_construction Examples.facing_default Examples.facingTogether_default ?_
    Examples.facing_perRay Examples.facing_parents Examples.facing_perHit Examples.facing_blind h h'⟩
  show (Examples.lower.surfs ++ (Examples.upper.surfs ++ [])).Perm ((Examples.upper.surfs ++ Examples.lower.surfs) ++ [])
  rw [List.append_nil, List.append_nil]
  exact List.perm_append_comm

/-- The plate behind the lower mirror changes nothing. -/
example : ∃ res res', rayTracer Examples.facing () Examples.source 4 (1/5) true = .ok res ∧
    rayTracer Examples.facingAbove () Examples.source 4 (1/5) true = .ok res' ∧
    ∀ k : Nat, (((res.tree[k]?).getD []).map Ray.strip).Perm (((res'.tree[k]?).getD []).map Ray.strip) := by
  obtain ⟨res, h, _⟩ := Examples.exists_trace (objs := Examples.facing) (b := Examples.source) (reps := 4) (minE := 1/5)
    (n := [2, 2, 1, 1]) (by decide +kernel)
  obtain ⟨res', h', _⟩ := Examples.exists_trace (objs := Examples.facingAbove) (b := Examples.source) (reps := 4)
    (minE := 1/5) (n := [2, 2, 1, 1]) (by decide +kernel)
  have hflat := Examples.facingAbove_flat
  refine ⟨res, res', h, h', C82_unreached (per := Surf.single) (out := Surf.alone ())
    (extra := [mkSurf (finiteFlatGM (rectOutside 4 4)) (reflective (1/4)) ⟨1, ⟨0, 0, -1⟩⟩])
    Examples.facing_default Examples.facingAbove_default ?_
    (fun o ho s hs => ((hflat o ho s hs).spec ()).1) (fun o ho s hs => ((hflat o ho s hs).spec ()).2.1)
    (fun o ho s hs => ((hflat o ho s hs).spec ()).2.2.1)
    (fun s hs => ((mem_allSurfs hflat hs).spec ()).2.2.2.1) h h' ?_⟩
  · exact List.Perm.refl _
  · have hall : ((rayTracer Examples.facing () Examples.source 4 (1/5) true).toOption.map fun r =>
        r.tree.all fun lvl => lvl.all fun p =>
          let t := (mkSurf (finiteFlatGM (rectOutside 4 4)) (reflective (1/4)) ⟨1, ⟨0, 0, -1⟩⟩ : Surf Unit ℚ Unit).single p
          decide (t = ⊤) || (Examples.facing.flatMap Obj.surfs).any fun s =>
            decide (((dropTol : ℚ) : WithTop ℚ) < s.single p) && decide (s.single p < t)) = some true := by
      decide +kernel
    rw [h] at hall
    simp only [Except.toOption, Option.map_some, Option.some.injEq, List.all_eq_true, Bool.or_eq_true,
      decide_eq_true_eq, List.any_eq_true, Bool.and_eq_true] at hall
    intro k _ lvl hl p hp e he
    rw [List.mem_singleton] at he
    subst he
    have hmem : p ∈ lvl := by
      unfold propagated at hp
      split at hp
      · exact hp
      · exact (List.mem_filter.1 hp).1
    rcases hall lvl (List.mem_of_getElem? hl) p hmem with h0 | ⟨s, hs, h1, h2⟩
    · exact Or.inl h0
    · generalize hx : (mkSurf (finiteFlatGM (rectOutside 4 4)) (reflective (1/4)) ⟨1, ⟨0, 0, -1⟩⟩ : Surf Unit ℚ Unit).single p = x at h2
      generalize hy : s.single p = y at h1 h2
      cases x with
      | top => exact Or.inl hx
      | coe t =>
        cases y with
        | top => simp at h2
        | coe t0 =>
          exact Or.inr ⟨t, hx, s, hs, t0, hy, WithTop.coe_lt_coe.1 h1, WithTop.coe_lt_coe.1 h2⟩

/-- The facing mirrors, with two thresholds. -/
example : ∃ res res', rayTracer Examples.facing () Examples.source 4 (1/5) true = .ok res ∧
    rayTracer Examples.facing () Examples.source 4 (2/5) true = .ok res' ∧
    res.tree.map List.length = [2, 2, 1, 1] ∧ res'.tree.map List.length = [2, 2, 1] ∧
    ∀ k : Nat, (((res'.tree[k]?).getD []).map Ray.strip).Subperm (((res.tree[k]?).getD []).map Ray.strip) := by
  obtain ⟨res, h, hl⟩ := Examples.exists_trace (objs := Examples.facing) (b := Examples.source) (reps := 4) (minE := 1/5)
    (n := [2, 2, 1, 1]) (by decide +kernel)
  obtain ⟨res', h', hl'⟩ := Examples.exists_trace (objs := Examples.facing) (b := Examples.source) (reps := 4)
    (minE := 2/5) (n := [2, 2, 1]) (by decide +kernel)
  exact ⟨res, res', h, h', hl, hl', fun k => (C83_flat (by norm_num) Examples.facing_default Examples.facing_flat
    Examples.facing_energy (by decide +kernel) h h' k).1⟩

namespace Examples

/-- A plane that, like the package's quadrics (`prm > 0`, quadric.py:106), does not answer about rays that start on it. -/
def openPlane : Geometry ℚ Unit where
  find frame rays := rays.map fun r =>
    match flatParam frame r.vertex r.dir with
    | none => ⊤
    | some t => if t ≤ 0 then ⊤ else (t : WithTop ℚ)
  normal := flatNormal

/-- The rotation that turns the z axis into the x axis. -/
def upright : M3 ℚ := ⟨⟨0, 1, 0⟩, ⟨0, 0, 1⟩, ⟨1, 0, 0⟩⟩

/-- An open mirror at z = 0, a poor mirror at x = 20, and a plate at x = 6e-9 above the open mirror. -/
def corner : List (Obj Unit ℚ Unit) :=
  [⟨[mkSurf openPlane (reflective 0) 1, mkSurf (finiteFlatGM (rectOutside 2 2)) (reflective (9/10)) ⟨upright, ⟨20, 0, 5⟩⟩,
     mkSurf (finiteFlatGM (rectOutside 2 2)) (reflective 0) ⟨upright, ⟨6/10^9, 0, 1⟩⟩],
    Obj.defaultOwn, Obj.defaultNext 3⟩]

/-- A ray to the foot of the plate, and one to the poor mirror. -/
def cornerSource : Bundle ℚ Unit :=
  [⟨⟨-3, 0, 4⟩, ⟨3/5, 0, -4/5⟩, 1, 0, none, ()⟩, ⟨⟨19, 0, 5⟩, ⟨1, 0, 0⟩, 1, 0, none, ()⟩]

end Examples

/-- C83 fails for rays that are not settled: with the lower threshold, the ray that the poor mirror returns raises the
self-hit cutoff, and the other ray passes through the plate it is 1e-8 in front of; with the higher one it is reflected. -/
theorem C83_counterexample :
    ((rayTracer Examples.corner () Examples.cornerSource 2 0 true).toOption.map fun r => r.tree.map List.length) = some [2, 2] ∧
    ((rayTracer Examples.corner () Examples.cornerSource 2 (1/2) true).toOption.map fun r => r.tree.map List.length) =
      some [2, 2, 1] := by
  decide +kernel

end Tracer
