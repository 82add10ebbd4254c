import Verif.Lemmas.Ties

/-! # Energy when surfaces tie (C15, C66) -/

set_option linter.unusedSectionVars false

namespace Tracer

variable {K E σ : Type _} [Field K] [LinearOrder K] [IsStrictOrderedRing K]
  {objs : List (Obj σ K E)} {w : σ} {b : Bundle K E} {reps : Nat} {minE : K}
  {res : TraceResult σ K E} {per : Surf σ K E → Ray K E → WithTop K}

/-- C66, for every trace with the default policies: what is written down and what the childless rays carry is what the
source carried and, for each traced ray, its energy once more for each surface after the first that is nearest to it. -/
theorem C66_exact (hdef : ∀ o ∈ objs, o.Default)
    (hper : AllSurfs (fun s => s.PerRay (per s)) objs) (hpar : AllSurfs Surf.ParentsOk objs)
    (htot : AllSurfs Surf.Total objs) {absorbed : σ → K} (hbal : AllSurfs (Surf.Balanced absorbed) objs)
    (h : rayTracer objs w b reps minE true = .ok res) :
    absorbed res.world + totalEnergy (treeLeaves res.tree) = absorbed w + totalEnergy b +
      ((res.tree.take reps).zipIdx.flatMap fun x =>
        duplicates per (objs.flatMap Obj.surfs) (propagated minE x.2 x.1)).sum := by
  obtain ⟨steps, stf, hrun, hw, hl, hlv⟩ := traced_levels hdef hper h
    (fun x => duplicates per (objs.flatMap Obj.surfs) (propagated minE x.2 x.1)) (fun x hx => by
      rw [hx]; rfl)
  have := hrun.ties hdef hper hpar htot hbal (initState_shape objs b w) (initState_free objs b w) (L := b) (weak := [])
    (k := 0) (by simp [initState]) (by simp [propagated, initState])
  rw [hw, ← hl, this, hlv]
  rfl

theorem duplicates_nonneg (surfs : List (Surf σ K E)) {rays : Bundle K E} (hpos : ∀ p ∈ rays, 0 ≤ p.energy) :
    ∀ x ∈ duplicates per surfs rays, 0 ≤ x := by
  intro x hx
  obtain ⟨p, hp, rfl⟩ := List.mem_map.1 hx
  exact mul_nonneg (Nat.cast_nonneg _) (hpos p hp)

theorem sum_zero_iff {l : List K} (h : ∀ x ∈ l, 0 ≤ x) : l.sum = 0 ↔ ∀ x ∈ l, x = 0 := by
  induction l with
  | nil => simp
  | cons x l ih =>
    have hx := h x (by simp)
    have hl : ∀ y ∈ l, 0 ≤ y := fun y hy => h y (List.mem_cons_of_mem _ hy)
    have hs := List.sum_nonneg hl
    rw [List.sum_cons, List.forall_mem_cons, ← ih hl]
    constructor
    · intro h0; constructor <;> linarith
    · rintro ⟨h1, h2⟩; rw [h1, h2, add_zero]

theorem mem_propagated {k : Nat} {lvl : Bundle K E} {p : Ray K E} (h : p ∈ propagated minE k lvl) : p ∈ lvl := by
  unfold propagated at h
  split at h
  · exact h
  · exact (List.mem_filter.1 h).1

theorem traced_nonneg (hdef : ∀ o ∈ objs, o.Default)
    (hper : AllSurfs (fun s => s.PerRay (per s)) objs) (hpar : AllSurfs Surf.ParentsOk objs)
    (hen : AllSurfs Surf.EnergyOk objs) (hpos : ∀ r ∈ b, 0 ≤ r.energy)
    (h : rayTracer objs w b reps minE true = .ok res) :
    ∀ x ∈ (res.tree.take reps).zipIdx.flatMap fun x =>
        duplicates per (objs.flatMap Obj.surfs) (propagated minE x.2 x.1), 0 ≤ x := by
  intro y hy
  obtain ⟨⟨lvl, k⟩, hx, hy⟩ := List.mem_flatMap.1 hy
  refine duplicates_nonneg _ (fun p hp => ?_) y hy
  have hk := List.mem_zipIdx_iff_getElem?.1 hx
  have hk' : res.tree[k]? = some lvl := by
    rw [List.getElem?_take] at hk
    split at hk
    · exact hk
    · simp at hk
  exact C15_nonneg (fun o ho => (hdef o ho).shapeOk) (fun o ho s hs rays => by rw [hper o ho s hs]; simp) hpar hen hpos h hk' p
    (mem_propagated hp)

/-- C66: whatever ties, no energy is ever lost. -/
theorem C66_no_loss (hdef : ∀ o ∈ objs, o.Default)
    (hper : AllSurfs (fun s => s.PerRay (per s)) objs) (hpar : AllSurfs Surf.ParentsOk objs)
    (htot : AllSurfs Surf.Total objs) {absorbed : σ → K} (hbal : AllSurfs (Surf.Balanced absorbed) objs)
    (hen : AllSurfs Surf.EnergyOk objs) (hpos : ∀ r ∈ b, 0 ≤ r.energy)
    (h : rayTracer objs w b reps minE true = .ok res) :
    absorbed w + totalEnergy b ≤ absorbed res.world + totalEnergy (treeLeaves res.tree) := by
  rw [C66_exact hdef hper hpar htot hbal h]
  have := List.sum_nonneg (traced_nonneg hdef hper hpar hen hpos h)
  linarith

/-- C66: the energy of a trace is balanced exactly when every traced ray that carries energy has at most one nearest
surface. -/
theorem C66_iff (hdef : ∀ o ∈ objs, o.Default)
    (hper : AllSurfs (fun s => s.PerRay (per s)) objs) (hpar : AllSurfs Surf.ParentsOk objs)
    (htot : AllSurfs Surf.Total objs) {absorbed : σ → K} (hbal : AllSurfs (Surf.Balanced absorbed) objs)
    (hen : AllSurfs Surf.EnergyOk objs) (hpos : ∀ r ∈ b, 0 ≤ r.energy)
    (h : rayTracer objs w b reps minE true = .ok res) :
    absorbed res.world + totalEnergy (treeLeaves res.tree) = absorbed w + totalEnergy b ↔
    ∀ (k : Nat) lvl, k < reps → res.tree[k]? = some lvl → ∀ p ∈ propagated minE k lvl, 0 < p.energy →
      timesHit (cutoff per (objs.flatMap Obj.surfs) (propagated minE k lvl)) per (objs.flatMap Obj.surfs) p ≤ 1 := by
  have hn := traced_nonneg hdef hper hpar hen hpos h
  rw [C66_exact hdef hper hpar htot hbal h, add_eq_left, sum_zero_iff hn]
  constructor
  · intro hz k lvl hk hl p hp he
    have := hz _ (List.mem_flatMap.2 ⟨(lvl, k), List.mem_zipIdx_iff_getElem?.2 (by
      rw [List.getElem?_take, if_pos hk]; exact hl), List.mem_map.2 ⟨p, hp, rfl⟩⟩)
    rcases mul_eq_zero.1 this with h1 | h1
    · have := Nat.cast_eq_zero.1 h1
      simp only at this
      omega
    · exact absurd h1 he.ne'
  · intro hz y hy
    obtain ⟨⟨lvl, k⟩, hx, hy⟩ := List.mem_flatMap.1 hy
    obtain ⟨p, hp, rfl⟩ := List.mem_map.1 hy
    have hk := List.mem_zipIdx_iff_getElem?.1 hx
    rw [List.getElem?_take] at hk
    split at hk
    · rename_i hlt
      rcases (C15_nonneg (fun o ho => (hdef o ho).shapeOk) (fun o ho s hs rays => by rw [hper o ho s hs]; simp) hpar hen
        hpos h hk p (mem_propagated hp)).lt_or_eq with he | he
      · have := hz k lvl hlt hk p hp he
        simp only
        rw [show timesHit (cutoff per (objs.flatMap Obj.surfs) (propagated minE k lvl)) per (objs.flatMap Obj.surfs) p - 1 = 0
          by omega]
        simp
      · rw [← he, mul_zero]
    · simp at hk

/-- C15, for every trace with the default policies: the children of a recorded ray carry together at most its energy for
each surface that is nearest to it. -/
theorem C15_children_ties (hdef : ∀ o ∈ objs, o.Default)
    (hper : AllSurfs (fun s => s.PerRay (per s)) objs)
    (hpar : AllSurfs Surf.ParentsOk objs) (hen : AllSurfs Surf.EnergyOk objs)
    (hpos : ∀ r ∈ b, 0 ≤ r.energy)
    (h : rayTracer objs w b reps minE true = .ok res)
    {k : Nat} {prev lvl : Bundle K E} (hk : res.tree[k]? = some prev)
    (hk1 : res.tree[k + 1]? = some lvl) {j : Nat} {p : Ray K E} (hj : prev[j]? = some p) :
    ((lvl.filter fun r => r.parent == j).map Ray.energy).sum ≤
      (timesHit (cutoff per (objs.flatMap Obj.surfs) (propagated minE k prev)) per (objs.flatMap Obj.surfs) p : K) *
        p.energy := by
  have hobj : ∀ o ∈ objs, o.ShapeOk := fun o ho => (hdef o ho).shapeOk
  have hlen : AllSurfs Surf.LengthOk objs := fun o ho s hs rays => by
    rw [hper o ho s hs]; simp
  have hp0 := C15_nonneg hobj hlen hpar hen hpos h hk p (List.mem_of_getElem? hj)
  obtain ⟨st, st', gen, steps, prev', hrun, _, hsh, hi, _, hprev, h0, h1⟩ := tree_level hobj h hk1
  rw [hk] at hprev; cases hprev
  have hst := hrun.nonneg hobj hpar hlen hen (initState_shape objs b w) hpos
  have hfree := hrun.free hdef (initState_shape objs b w) (initState_free objs b w)
  have hprop : propagated minE k prev = st.bund := by
    cases k with
    | zero => rw [(h0 rfl).1, (h0 rfl).2]; rfl
    | succ k =>
      obtain ⟨weak, hw, hs1, hs2⟩ := h1 (by omega)
      rw [hw, propagated_append (by omega) hs1 hs2]
  rw [hprop]
  change childEnergy j lvl ≤ _
  rw [childEnergy_perm j (recorded_perm hsh hi)]
  rcases Nat.lt_or_ge j st.bund.length with hlt | hge
  · have hpj : st.bund[j]? = some p := by
      cases k with
      | zero => rw [(h0 rfl).2, ← (h0 rfl).1]; exact hj
      | succ k =>
        obtain ⟨weak, hw, _⟩ := h1 (by omega)
        rw [hw, List.getElem?_append_left hlt] at hj
        exact hj
    obtain ⟨front, owned, hint, _, hc⟩ := iterate_energy hsh hpar hen hst hi
    refine (hc j p hpj).trans (le_of_eq ?_)
    rw [nearest_front hsh hfree (fun s hs => mem_allSurfs hper hs) hint, List.countP_map]
    congr 2
    unfold timesHit
    refine List.countP_congr fun s _ => ?_
    simp only [Function.comp, List.getElem?_map, hpj, Option.map_some, decide_eq_true_eq, Option.some.injEq]
  · have : (gen.filter fun r => r.parent == j) = [] := by
      rw [List.filter_eq_nil_iff]
      intro r hr hrj
      obtain ⟨_, _, q, hc⟩ := generated_child hsh hlen hpar hi hr
      have := (List.getElem?_eq_some_iff.1 hc.parent).1
      rw [show r.parent = j by simpa using hrj] at this
      omega
    unfold childEnergy
    rw [this]
    exact mul_nonneg (Nat.cast_nonneg _) hp0

/-- A perfect mirror or one of the first `n` receivers, with absorptivity between 0 and 1. -/
def MirrorOrProperReceiver (n : Nat) (s : Surf (Receivers K) K E) : Prop :=
  ∃ (g : Geometry K E) (f : Tf K → V3 K → V3 K → WithTop K) (frame : Tf K), g.PerRay f ∧
    (s = mkSurf g (reflective 0) frame ∨
      ∃ (i : Nat) (a : K), i < n ∧ 0 ≤ a ∧ a ≤ 1 ∧ s = mkSurf g (receiverAt i a) frame)

/-- C66 for scenes of perfect mirrors and receivers of any shape and absorptivity: what the receivers absorb and the
childless rays carry is never less than what the source carried, and it is just that exactly when every traced ray
that carries energy has at most one nearest surface. -/
theorem C66_receivers_iff {objs : List (Obj (Receivers K) K E)} {w : Receivers K}
    {res : TraceResult (Receivers K) K E} {n : Nat} (hdef : ∀ o ∈ objs, o.Default)
    (hs : AllSurfs (MirrorOrProperReceiver n) objs) (hpos : ∀ r ∈ b, 0 ≤ r.energy)
    (h : rayTracer objs w b reps minE true = .ok res) :
    absorbedBy n w + totalEnergy b ≤ absorbedBy n res.world + totalEnergy (treeLeaves res.tree) ∧
    (absorbedBy n res.world + totalEnergy (treeLeaves res.tree) = absorbedBy n w + totalEnergy b ↔
    ∀ (k : Nat) lvl, k < reps → res.tree[k]? = some lvl → ∀ p ∈ propagated minE k lvl, 0 < p.energy →
      timesHit (cutoff Surf.single (objs.flatMap Obj.surfs) (propagated minE k lvl)) Surf.single
        (objs.flatMap Obj.surfs) p ≤ 1) := by
  have hall : ∀ {P : Surf (Receivers K) K E → Prop}, (∀ s, MirrorOrProperReceiver n s → P s) → AllSurfs P objs :=
    fun hp o ho s hso => hp s (hs o ho s hso)
  have h1 : AllSurfs (fun s => s.PerRay s.single) objs := hall fun s ⟨g, f, frame, hg, hc⟩ => by
    rcases hc with rfl | ⟨i, a, _, _, _, rfl⟩ <;> exact (mkSurf_perRay hg _ _).single
  have h2 : AllSurfs Surf.ParentsOk objs := hall fun s ⟨g, f, frame, hg, hc⟩ => by
    rcases hc with rfl | ⟨i, a, _, _, _, rfl⟩
    · exact mkSurf_parentsOk g (reflective_atHit (0 : K)) frame
    · exact mkSurf_parentsOk g (opt := receiverAt i a) (fun w up hits out w' he =>
        reflective_atHit a _ up hits out w' he) frame
  have h3 : AllSurfs Surf.Total objs := hall fun s ⟨g, f, frame, hg, hc⟩ => by
    rcases hc with rfl | ⟨i, a, _, _, _, rfl⟩
    · exact mkSurf_total g (reflective_total (0 : K)) frame
    · exact mkSurf_total g (opt := receiverAt i a) (fun w up hits out w' he =>
        reflective_total a _ up hits out w' he) frame
  have h4 : AllSurfs (Surf.Balanced (absorbedBy n)) objs := hall fun s ⟨g, f, frame, hg, hc⟩ => by
    rcases hc with rfl | ⟨i, a, hi, _, _, rfl⟩
    · exact mkSurf_balanced _ (C66_mirror _) _
    · exact mkSurf_balanced _ (receiverAt_balanced n i hi a) _
  have h5 : AllSurfs Surf.EnergyOk objs := hall fun s ⟨g, f, frame, hg, hc⟩ => by
    rcases hc with rfl | ⟨i, a, hi, ha0, ha1, rfl⟩
    · exact mkSurf_energyOk g (reflective_atHit (0 : K)) (reflective_energyOk le_rfl zero_le_one) frame
    · exact mkSurf_energyOk g (opt := receiverAt i a) (fun w up hits out w' he =>
        reflective_atHit a _ up hits out w' he) (by
          unfold receiverAt reflectiveReceiver
          exact accountant_energyOk (reflective_energyOk ha0 ha1)) frame
  exact ⟨C66_no_loss hdef h1 h2 h3 h4 h5 hpos h, C66_iff hdef h1 h2 h3 h4 h5 hpos h⟩

/-- Two coincident receivers. -/
def Examples.doubled : List (Obj (Receivers ℚ) ℚ Unit) :=
  [⟨[mkSurf flatGM (receiverAt 0 (1/2)) 1], Obj.defaultOwn, Obj.defaultNext 1⟩,
   ⟨[mkSurf flatGM (receiverAt 1 (1/2)) 1], Obj.defaultOwn, Obj.defaultNext 1⟩]

/-! The two receivers absorb what the source carried and it is carried on too: some ray has two nearest surfaces. -/
example : ∃ res, rayTracer Examples.doubled (fun _ => Account.reset) Examples.source 1 0 true = .ok res ∧
    absorbedBy 2 res.world + totalEnergy (treeLeaves res.tree) = 4 ∧ totalEnergy Examples.source = 2 ∧
    ∃ (k : Nat) (lvl : Bundle ℚ Unit), k < 1 ∧ res.tree[k]? = some lvl ∧ ∃ p ∈ propagated 0 k lvl, 0 < p.energy ∧
      2 ≤ timesHit (cutoff Surf.single (Examples.doubled.flatMap Obj.surfs) (propagated 0 k lvl)) Surf.single
        (Examples.doubled.flatMap Obj.surfs) p := by
  have h : ((rayTracer Examples.doubled (fun _ => Account.reset) Examples.source 1 0 true).toOption.map fun r =>
      (absorbedBy 2 r.world, totalEnergy (treeLeaves r.tree))) = some (2, 2) := by
    decide +kernel
  cases hr : rayTracer Examples.doubled (fun _ => Account.reset) Examples.source 1 0 true with
  | error e => rw [hr] at h; simp [Except.toOption] at h
  | ok res =>
    rw [hr] at h
    simp only [Except.toOption, Option.map_some, Option.some.injEq, Prod.mk.injEq] at h
    have hsrc : totalEnergy Examples.source = 2 := by norm_num [totalEnergy, Examples.source]
    have hdef : ∀ o ∈ Examples.doubled, o.Default := by
      intro o ho
      simp only [Examples.doubled, List.mem_cons, List.not_mem_nil, or_false] at ho
      rcases ho with rfl | rfl <;> exact ⟨rfl, rfl⟩
    have hs : AllSurfs (MirrorOrProperReceiver 2) Examples.doubled := by
      intro o ho s hs
      simp only [Examples.doubled, List.mem_cons, List.not_mem_nil, or_false] at ho
      rcases ho with rfl | rfl <;> simp only [List.mem_cons, List.not_mem_nil, or_false] at hs <;> subst hs
      · exact ⟨_, _, _, flatGM_perRay, .inr ⟨0, _, by omega, by norm_num, by norm_num, rfl⟩⟩
      · exact ⟨_, _, _, flatGM_perRay, .inr ⟨1, _, by omega, by norm_num, by norm_num, rfl⟩⟩
    have hpos : ∀ r ∈ Examples.source, 0 ≤ r.energy := by
      intro r hr
      simp only [Examples.source, List.mem_cons, List.not_mem_nil, or_false] at hr
      rcases hr with rfl | rfl <;> norm_num
    have := (C66_receivers_iff hdef hs hpos hr).2
    have h0 : absorbedBy 2 (fun _ => Account.reset : Receivers ℚ) = 0 := by simp [absorbedBy, Account.reset]
    rw [h.1, h.2, h0, hsrc] at this
    have hno := mt this.2 (by norm_num)
    push Not at hno
    obtain ⟨k, lvl, hk, hl, p, hp, he, ht⟩ := hno
    exact ⟨res, rfl, by rw [h.1, h.2]; norm_num, hsrc, k, lvl, hk, hl, p, hp, he, ht⟩

end Tracer
