import Verif.Props.Independence

/-! Every recorded bundle of a trace of free rays is the generation of `Spec/Exact.lean`, without conditions on where the rays
meet the surfaces. -/

set_option linter.unusedSectionVars false

namespace Tracer

variable {K E σ : Type _} [Field K] [LinearOrder K] [IsStrictOrderedRing K]
  {objs : List (Obj σ K E)} {w : σ} {b : Bundle K E} {reps : Nat} {minE : K}
  {res : TraceResult σ K E} {per : Surf σ K E → Ray K E → WithTop K}
  {out : Surf σ K E → Ray K E → Bundle K E} {surfs : List (Surf σ K E)}

theorem Blind.cutoff (hb : Blind per out surfs) {l l' : Bundle K E}
    (h : (l.map Ray.strip).Perm (l'.map Ray.strip)) : cutoff per surfs l = cutoff per surfs l' := by
  have key : ∀ {l l' : Bundle K E}, (l.map Ray.strip).Perm (l'.map Ray.strip) →
      (∃ s ∈ surfs, ∃ q ∈ l, per s q ≤ ((selfTol : K) : WithTop K)) →
      ∃ s ∈ surfs, ∃ q ∈ l', per s q ≤ ((selfTol : K) : WithTop K) := by
    rintro l l' h ⟨s, hs, q, hq, hle⟩
    obtain ⟨q', hq', e⟩ := List.mem_map.1 (h.subset (List.mem_map.2 ⟨q, hq, rfl⟩))
    refine ⟨s, hs, q', hq', ?_⟩
    rw [← (hb s hs q').1, e, (hb s hs q).1]
    exact hle
  unfold Tracer.cutoff
  congr 1
  exact propext ⟨key h, key h.symm⟩

theorem Blind.nearestBeyond (hb : Blind per out surfs) {s : Surf σ K E} (hs : s ∈ surfs) (c : K) (p : Ray K E) :
    (∃ t, NearestBeyond c per surfs s p.strip t) ↔ ∃ t, NearestBeyond c per surfs s p t := by
  unfold NearestBeyond
  rw [(hb s hs p).1]
  constructor
  · rintro ⟨t, h1, h2, h3⟩
    refine ⟨t, h1, h2, fun s' hs' t' ht' => h3 s' hs' t' ?_⟩
    rw [(hb s' hs' p).1]; exact ht'
  · rintro ⟨t, h1, h2, h3⟩
    refine ⟨t, h1, h2, fun s' hs' t' ht' => h3 s' hs' t' ?_⟩
    rw [← (hb s' hs' p).1]; exact ht'

theorem Blind.childrenBeyond (hb : Blind per out surfs) (c : K) (p : Ray K E) :
    ((childrenBeyond c per out surfs p.strip).map Ray.strip).Perm
      ((childrenBeyond c per out surfs p).map Ray.strip) := by
  unfold Tracer.childrenBeyond
  rw [List.map_flatMap, List.map_flatMap]
  refine List.Perm.flatMap_left _ ?_
  intro s hs
  by_cases h : ∃ t, NearestBeyond c per surfs s p t
  · rw [if_pos h, if_pos ((hb.nearestBeyond hs c p).2 h)]
    exact (hb s hs p).2
  · rw [if_neg h, if_neg (fun h' => h ((hb.nearestBeyond hs c p).1 h'))]

theorem Blind.nextRays (hb : Blind per out surfs) {l l' : Bundle K E}
    (h : (l.map Ray.strip).Perm (l'.map Ray.strip)) :
    ((nextRays per out surfs l).map Ray.strip).Perm ((nextRays per out surfs l').map Ray.strip) := by
  unfold Tracer.nextRays
  rw [hb.cutoff h]
  generalize Tracer.cutoff per surfs l' = c
  have hf : ∀ l : Bundle K E, ((l.flatMap (Tracer.childrenBeyond c per out surfs)).map Ray.strip).Perm
      ((l.map Ray.strip).flatMap fun p => (Tracer.childrenBeyond c per out surfs p).map Ray.strip) := by
    intro l
    rw [List.map_flatMap, List.flatMap_map]
    exact List.Perm.flatMap_left _ fun p _ => (hb.childrenBeyond c p).symm
  exact ((hf l).trans (h.flatMap_right _)).trans (hf l').symm

theorem nextRays_nil : nextRays per out surfs [] = [] := rfl

/-- Any sequence that starts with the source and makes each generation out of what is recorded is recorded. -/
theorem refines_step (hdef : ∀ o ∈ objs, o.Default)
    (hper : AllSurfs (fun s => s.PerRay (per s)) objs) (hpar : AllSurfs Surf.ParentsOk objs)
    (hout : AllSurfs (fun s => s.PerHit (out s)) objs)
    (h : rayTracer objs w b reps minE true = .ok res) {k : Nat} (hk : k < reps) :
    (((res.tree[k + 1]?).getD []).map Ray.strip).Perm
      ((nextRays per out (objs.flatMap Obj.surfs) (propagated minE k ((res.tree[k]?).getD []))).map Ray.strip) := by
  have hobj : ∀ o ∈ objs, o.ShapeOk := fun o ho => (hdef o ho).shapeOk
  cases hprev : res.tree[k]? with
  | none =>
    have hnone : res.tree[k + 1]? = none := by
      rw [List.getElem?_eq_none_iff] at hprev ⊢
      omega
    have hp : propagated minE k ([] : Bundle K E) = [] := by unfold propagated; split <;> rfl
    rw [hnone, Option.getD_none, hp, nextRays_nil]
  | some prev =>
    rw [Option.getD_some]
    by_cases hprop : propagated minE k prev = []
    · rw [hprop, nextRays_nil]
      by_cases hk0 : k = 0
      · subst hk0
        obtain ⟨st, st', gen, rec, steps, weak, hrun, hl, hsh, hbu, _, hi, hnext, _⟩ :=
          tree_step hobj h hprev (by omega) (Or.inl rfl)
        have hgen : gen = [] := by
          rw [List.eq_nil_iff_forall_not_mem]
          intro r hr
          have hlen : AllSurfs Surf.LengthOk objs := fun o ho s hs rays => by
            rw [hper o ho s hs]; simp
          obtain ⟨_, _, p, hc⟩ := generated_child hsh hlen hpar hi hr
          have := hc.parent
          rw [hbu, hprop] at this
          simp at this
        rw [hnext, if_pos hgen]
        exact List.Perm.refl _
      · have hlen := C11_stops hobj h (k := k - 1) (lvl := prev)
          (by rw [show k - 1 + 1 = k by omega]; exact hprev) (by
            intro r hr
            unfold propagated at hprop
            rw [if_neg hk0, List.filter_eq_nil_iff] at hprop
            simpa using hprop r hr)
        have : res.tree[k + 1]? = none := by
          rw [List.getElem?_eq_none_iff]
          omega
        rw [this]
        exact List.Perm.refl _
    · obtain ⟨st, st', gen, rec, steps, weak, hrun, hl, hsh, hbu, _, hi, hnext, _⟩ :=
        tree_step hobj h hprev (by omega) (Or.inr hprop)
      have hfree := hrun.free hdef (initState_shape objs b w) (initState_free objs b w)
      have hstep := iterate_strip_cut hsh hfree (out := out) (fun s hs => mem_allSurfs hper hs)
        (fun s hs => mem_allSurfs hout hs) hi
      have hnext' : ((res.tree[k + 1]?).getD []).Perm gen := by
        rw [hnext]
        split
        · rename_i hg
          rw [hg]
          exact List.Perm.refl _
        · exact recorded_perm hsh hi
      rw [← hbu]
      exact (hnext'.map _).trans hstep

/-- Beyond `reps` bundles nothing is recorded. -/
theorem tree_beyond (hobj : ∀ o ∈ objs, o.ShapeOk) (h : rayTracer objs w b reps minE true = .ok res) {k : Nat} (hk : reps < k) :
    res.tree[k]? = none := by
  have := (C11_iteration_limit hobj h).2.1
  rw [List.getElem?_eq_none_iff]
  omega

theorem tree_zero (hobj : ∀ o ∈ objs, o.ShapeOk) (h : rayTracer objs w b reps minE true = .ok res) :
    res.tree[0]? = some b := by
  have := (C11_iteration_limit hobj h).1
  rwa [List.head?_eq_getElem?] at this

theorem cutoff_perm_surfs {surfs' : List (Surf σ K E)} (hp : surfs.Perm surfs') (l : Bundle K E) :
    cutoff per surfs l = cutoff per surfs' l := by
  unfold cutoff
  simp only [hp.mem_iff]

theorem nextRays_perm_surfs {surfs' : List (Surf σ K E)} (hp : surfs.Perm surfs') (l : Bundle K E) :
    (nextRays per out surfs l).Perm (nextRays per out surfs' l) := by
  unfold nextRays
  rw [cutoff_perm_surfs hp]
  refine List.Perm.flatMap_left _ fun p _ => ?_
  unfold childrenBeyond
  have : ∀ s t, NearestBeyond (cutoff per surfs' l) per surfs s p t ↔
      NearestBeyond (cutoff per surfs' l) per surfs' s p t := by
    intro s t
    unfold NearestBeyond
    simp only [hp.mem_iff]
  refine List.Perm.trans (List.Perm.of_eq (List.flatMap_congr fun s _ => ?_)) (hp.flatMap_right _)
  by_cases h : ∃ t, NearestBeyond (cutoff per surfs' l) per surfs s p t
  · rw [if_pos h, if_pos (h.imp fun t => (this s t).1)]
  · rw [if_neg h, if_neg fun h' => h (h'.imp fun t => (this s t).2)]

end Tracer
