import Verif.Lemmas.Energy
import Verif.Props.Engine

/-!
# Energy along a trace (C15)
-/

set_option linter.unusedSectionVars false

namespace Tracer

variable {K E σ : Type _} [Field K] [LinearOrder K] [IsStrictOrderedRing K]
  {objs : List (Obj σ K E)} {w : σ} {b : Bundle K E} {reps : Nat} {minE : K}
  {res : TraceResult σ K E}

/-- No two surfaces (by number) meet the ray at the same parameter. -/
def NoTie (per : Surf σ K E → Ray K E → WithTop K) (surfs : List (Surf σ K E)) (p : Ray K E) : Prop :=
  ∀ (k k' : Nat) s s' (t : K), surfs[k]? = some s → surfs[k']? = some s' →
    per s p = (t : WithTop K) → per s' p = (t : WithTop K) → k = k'

theorem countP_le_one {α : Type _} {p : α → Bool} {l : List α}
    (h : ∀ (i j : Nat) a b, l[i]? = some a → l[j]? = some b → p a = true → p b = true → i = j) :
    l.countP p ≤ 1 := by
  induction l with
  | nil => simp
  | cons x l ih =>
    have ih' := ih (fun i j a b hi hj ha hb => by
      have := h (i+1) (j+1) a b (by simpa using hi) (by simpa using hj) ha hb
      omega)
    rw [List.countP_cons]
    split
    · rename_i hx
      have : l.countP p = 0 := by
        rw [List.countP_eq_zero]
        intro y hy hpy
        obtain ⟨i, hi⟩ := List.getElem?_of_mem hy
        have := h 0 (i+1) x y (by simp) (by simpa using hi) hx hpy
        omega
      omega
    · exact ih'

theorem answer_perRay_imp {surfs : List (Surf σ K E)} {surfOwn : List Nat}
    {rayOwn : List (Option Nat)} {relev : List (List Bool)}
    {per : Surf σ K E → Ray K E → WithTop K}
    (hper : ∀ s ∈ surfs, s.PerRay (per s)) {k j : Nat} {p : WithTop K}
    (h : Answer b surfs surfOwn rayOwn relev k j p) :
    ∃ s r, surfs[k]? = some s ∧ b[j]? = some r ∧ per s r = p := by
  obtain ⟨s, i, hs, hi, hp⟩ := h
  rw [hper s (List.mem_of_getElem? hs)] at hp
  simp only [List.getElem?_map, Option.map_eq_some_iff] at hp
  obtain ⟨r, hr, hp⟩ := hp
  refine ⟨s, r, hs, ?_, hp⟩
  have hall : ∀ l : List Nat, (∀ j ∈ l, j < b.length) → ∀ i j : Nat, l[i]? = some j →
      (l.filterMap fun j => b[j]?)[i]? = b[j]? := by
    intro l
    induction l with
    | nil => intro _ i j h; simp at h
    | cons a l ih =>
      intro hl i j hij
      have ha : a < b.length := hl a (by simp)
      rw [List.filterMap_cons_some (List.getElem?_eq_getElem ha)]
      cases i with
      | zero => simp at hij; subst hij; simp [ha]
      | succ i => simpa using ih (fun j hj => hl j (List.mem_cons_of_mem _ hj)) i j (by simpa using hij)
  rw [hall _ (fun j hj => by
    unfold testedIdx at hj
    exact List.mem_range.1 (List.mem_filter.1 hj).1) _ _ hi] at hr
  exact hr

/-- One iteration: the children of a ray that no two surfaces meet at the same parameter carry at
most its energy. -/
theorem iterate_children_energy {st st' : TraceState σ K E} {gen rec : Bundle K E}
    (hs : st.Shape objs) {per : Surf σ K E → Ray K E → WithTop K}
    (hper : AllSurfs (fun s => s.PerRay (per s)) objs)
    (hpar : AllSurfs Surf.ParentsOk objs) (hen : AllSurfs Surf.EnergyOk objs)
    (hpos : ∀ r ∈ st.bund, 0 ≤ r.energy)
    (h : iterate objs (objs.flatMap Obj.surfs) minE st = .ok (st', gen, rec))
    {j : Nat} {p : Ray K E} (hj : st.bund[j]? = some p)
    (hnt : NoTie per (objs.flatMap Obj.surfs) p) : childEnergy j gen ≤ p.energy := by
  have hlen : ∀ s ∈ objs.flatMap Obj.surfs, s.LengthOk := fun s hs rays => by
    rw [mem_allSurfs hper hs]; simp
  obtain ⟨front, owned, hint, _, hc⟩ := iterate_energy hs hpar hen hpos h
  refine (hc j p hj).trans ?_
  have h1 : (front.countP fun f => decide (f[j]? = some true)) ≤ 1 := by
    apply countP_le_one
    intro i i' f f' hi hi' hf hf'
    rw [decide_eq_true_eq] at hf hf'
    refine C09_one_surface_partial hs hlen hint j ?_ ⟨f, hi, hf⟩ ⟨f', hi', hf'⟩
    intro k k' t ha ha' _
    obtain ⟨s, r, e1, e2, e3⟩ := answer_perRay_imp (fun s hs => mem_allSurfs hper hs) ha
    obtain ⟨s', r', e1', e2', e3'⟩ := answer_perRay_imp (fun s hs => mem_allSurfs hper hs) ha'
    rw [hj] at e2 e2'
    cases e2; cases e2'
    exact hnt k k' s s' t e1 e1' e3 e3'
  have hp0 := hpos p (List.mem_of_getElem? hj)
  have h2 : ((front.countP fun f => decide (f[j]? = some true) : Nat) : K) ≤ 1 := by exact_mod_cast h1
  nlinarith

theorem iterate_nonneg {st st' : TraceState σ K E} {gen rec : Bundle K E}
    (hs : st.Shape objs)
    (hpar : AllSurfs Surf.ParentsOk objs) (hlen : AllSurfs Surf.LengthOk objs)
    (hen : AllSurfs Surf.EnergyOk objs)
    (hpos : ∀ r ∈ st.bund, 0 ≤ r.energy)
    (h : iterate objs (objs.flatMap Obj.surfs) minE st = .ok (st', gen, rec)) :
    ∀ r ∈ gen, 0 ≤ r.energy := by
  obtain ⟨front, owned, hint, hg, _⟩ := iterate_energy hs hpar hen hpos h
  by_cases hb : st.bund = []
  · intro r hr
    obtain ⟨_, _, p, hc⟩ := generated_child hs hlen hpar h hr
    have := hc.parent
    rw [hb] at this
    simp at this
  · exact hg hb

/-- The states of a run have rays of non-negative energy. -/
theorem Run.nonneg (hobj : ∀ o ∈ objs, o.ShapeOk)
    (hpar : AllSurfs Surf.ParentsOk objs) (hlen : AllSurfs Surf.LengthOk objs)
    (hen : AllSurfs Surf.EnergyOk objs) {st st' : TraceState σ K E} {steps}
    (hrun : Run objs minE st steps st') (hs : st.Shape objs) (hpos : ∀ r ∈ st.bund, 0 ≤ r.energy) :
    ∀ r ∈ st'.bund, 0 ≤ r.energy := by
  induction hrun with
  | nil => exact hpos
  | cons hi _ ih =>
    refine ih (iterate_shape hobj hs hi) ?_
    intro r hr
    rw [(iterate_ok hs hi).strong] at hr
    exact iterate_nonneg hs hpar hlen hen hpos hi r (List.mem_filter.1 hr).1

theorem recorded_perm {st st' : TraceState σ K E} {gen rec : Bundle K E} (hs : st.Shape objs)
    (h : iterate objs (objs.flatMap Obj.surfs) minE st = .ok (st', gen, rec)) : rec.Perm gen := by
  have hf := iterate_ok hs h
  rw [hf.recorded, hf.strong]
  have hfun : (fun r : Ray K E => decide (r.energy ≤ minE)) = fun r => ! decide (minE < r.energy) := by
    funext r
    simp [← not_lt]
  rw [hfun]
  exact List.filter_append_perm _ _

/-- C15: no ray of a trace has negative energy, if the source has none. -/
theorem C15_nonneg (hobj : ∀ o ∈ objs, o.ShapeOk) (hlen : AllSurfs Surf.LengthOk objs)
    (hpar : AllSurfs Surf.ParentsOk objs) (hen : AllSurfs Surf.EnergyOk objs)
    (hpos : ∀ r ∈ b, 0 ≤ r.energy)
    (h : rayTracer objs w b reps minE true = .ok res)
    {k : Nat} {lvl : Bundle K E} (hk : res.tree[k]? = some lvl) : ∀ r ∈ lvl, 0 ≤ r.energy := by
  cases k with
  | zero =>
    have := (C11_iteration_limit hobj h).1
    rw [List.head?_eq_getElem?, hk] at this
    cases this
    exact hpos
  | succ k =>
    obtain ⟨st, st', gen, steps, prev, hrun, _, hsh, hi, _⟩ := tree_level hobj h hk
    have hst := hrun.nonneg hobj hpar hlen hen (initState_shape objs b w) hpos
    intro r hr
    exact iterate_nonneg hsh hpar hlen hen hst hi r ((recorded_perm hsh hi).subset hr)

/-- C15: the children of any recorded ray carry together at most its energy, if no two surfaces
meet that ray at the same parameter.  (With ties energy is duplicated, see `C09_counterexample`.) -/
theorem C15_children (hobj : ∀ o ∈ objs, o.ShapeOk)
    {per : Surf σ K E → Ray K E → WithTop K} (hper : AllSurfs (fun s => s.PerRay (per s)) objs)
    (hpar : AllSurfs Surf.ParentsOk objs) (hen : AllSurfs Surf.EnergyOk objs)
    (hpos : ∀ r ∈ b, 0 ≤ r.energy)
    (h : rayTracer objs w b reps minE true = .ok res)
    {k : Nat} {prev lvl : Bundle K E} (hk : res.tree[k]? = some prev)
    (hk1 : res.tree[k + 1]? = some lvl) {j : Nat} {p : Ray K E} (hj : prev[j]? = some p)
    (hnt : NoTie per (objs.flatMap Obj.surfs) p) :
    ((lvl.filter fun r => r.parent == j).map Ray.energy).sum ≤ p.energy := by
  have hlen : AllSurfs Surf.LengthOk objs := fun o ho s hs rays => by
    rw [hper o ho s hs]; simp
  obtain ⟨st, st', gen, steps, prev', hrun, _, hsh, hi, _, hprev, h0, h1⟩ := tree_level hobj h hk1
  rw [hk] at hprev; cases hprev
  have hst := hrun.nonneg hobj hpar hlen hen (initState_shape objs b w) hpos
  change childEnergy j lvl ≤ p.energy
  rw [childEnergy_perm j (recorded_perm hsh hi)]
  rcases Nat.lt_or_ge j st.bund.length with hlt | hge
  · have hpj : st.bund[j]? = some p := by
      cases k with
      | zero => rw [(h0 rfl).2, ← (h0 rfl).1]; exact hj
      | succ k =>
        obtain ⟨weak, hw, _⟩ := h1 (by omega)
        rw [hw, List.getElem?_append_left hlt] at hj
        exact hj
    exact iterate_children_energy hsh hper hpar hen hst hi hpj hnt
  · have : (gen.filter fun r => r.parent == j) = [] := by
      rw [List.filter_eq_nil_iff]
      intro r hr hrj
      obtain ⟨_, _, q, hc⟩ := generated_child hsh hlen hpar hi hr
      have := (List.getElem?_eq_some_iff.1 hc.parent).1
      rw [show r.parent = j by simpa using hrj] at this
      omega
    unfold childEnergy
    rw [this]
    exact C15_nonneg hobj hlen hpar hen hpos h hk p (List.mem_of_getElem? hj)

/-- C15: the total energy of a recorded bundle is at most that of the one before, and so at most
that of the source, if no two surfaces meet a ray of the trace at the same parameter. -/
theorem C15_total (hobj : ∀ o ∈ objs, o.ShapeOk)
    {per : Surf σ K E → Ray K E → WithTop K} (hper : AllSurfs (fun s => s.PerRay (per s)) objs)
    (hpar : AllSurfs Surf.ParentsOk objs) (hen : AllSurfs Surf.EnergyOk objs)
    (hpos : ∀ r ∈ b, 0 ≤ r.energy)
    (h : rayTracer objs w b reps minE true = .ok res)
    (hnt : ∀ lvl ∈ res.tree, ∀ p ∈ lvl, NoTie per (objs.flatMap Obj.surfs) p) :
    (∀ (k : Nat) prev lvl, res.tree[k]? = some prev → res.tree[k + 1]? = some lvl →
      (lvl.map Ray.energy).sum ≤ (prev.map Ray.energy).sum) ∧
    ∀ lvl ∈ res.tree, (lvl.map Ray.energy).sum ≤ (b.map Ray.energy).sum := by
  have hstep : ∀ (k : Nat) prev lvl, res.tree[k]? = some prev → res.tree[k + 1]? = some lvl →
      (lvl.map Ray.energy).sum ≤ (prev.map Ray.energy).sum := by
    intro k prev lvl hk hk1
    have hlen : AllSurfs Surf.LengthOk objs := fun o ho s hs rays => by
      rw [hper o ho s hs]; simp
    have hpl : ∀ r ∈ lvl, r.parent < prev.length := by
      intro r hr
      obtain ⟨prev', p, hp, hp', _⟩ := C06_parents_valid hobj hlen hpar h hk1 hr
      rw [hk] at hp; cases hp
      exact (List.getElem?_eq_some_iff.1 hp').1
    rw [total_eq_sum_children lvl prev.length hpl]
    have hl : prev.map Ray.energy = (List.range prev.length).map fun j =>
        ((prev[j]?).map Ray.energy).getD 0 := by
      apply List.ext_getElem?
      intro j
      rcases Nat.lt_or_ge j prev.length with hj | hj
      · simp [hj]
      · simp [hj]
    rw [hl]
    apply List.sum_le_sum
    intro j hj
    have hj' := List.mem_range.1 hj
    have hpj : prev[j]? = some prev[j] := List.getElem?_eq_getElem hj'
    rw [hpj]
    exact C15_children hobj hper hpar hen hpos h hk hk1 hpj
      (hnt prev (List.mem_of_getElem? hk) _ (List.getElem_mem hj'))
  refine ⟨hstep, ?_⟩
  have hall : ∀ (k : Nat) lvl, res.tree[k]? = some lvl → (lvl.map Ray.energy).sum ≤ (b.map Ray.energy).sum := by
    intro k
    induction k with
    | zero =>
      intro lvl hk
      have := (C11_iteration_limit hobj h).1
      rw [List.head?_eq_getElem?, hk] at this
      cases this
      exact le_rfl
    | succ k ih =>
      intro lvl hk
      have hkl : k < res.tree.length := by
        have := (List.getElem?_eq_some_iff.1 hk).1
        omega
      exact (hstep k _ lvl (List.getElem?_eq_getElem hkl) hk).trans (ih _ (List.getElem?_eq_getElem hkl))
  intro lvl hl
  obtain ⟨k, hk⟩ := List.getElem?_of_mem hl
  exact hall k lvl hk

/-- Decidable form of `NoTie`. -/
theorem noTie_of_pairwise {per : Surf σ K E → Ray K E → WithTop K} {surfs : List (Surf σ K E)}
    {p : Ray K E} (h : (surfs.map (per · p)).Pairwise fun x y => x = ⊤ ∨ x ≠ y) : NoTie per surfs p := by
  have key : ∀ (k k' : Nat) s s' (t : K), surfs[k]? = some s → surfs[k']? = some s' →
      per s p = (t : WithTop K) → per s' p = (t : WithTop K) → ¬ k < k' := by
    intro k k' s s' t hk hk' ht ht' hlt
    obtain ⟨h1, e1⟩ := List.getElem?_eq_some_iff.1 hk
    obtain ⟨h2, e2⟩ := List.getElem?_eq_some_iff.1 hk'
    have := List.pairwise_iff_getElem.1 h k k' (by simpa using h1) (by simpa using h2) hlt
    simp [e1, e2, ht, ht'] at this
  intro k k' s s' t hk hk' ht ht'
  have h1 := key k k' s s' t hk hk' ht ht'
  have h2 := key k' k s' s t hk' hk ht' ht
  omega

theorem Examples.facing_noTie : ∃ res, rayTracer facing () source 4 (1/5) true = .ok res ∧
    ∀ lvl ∈ res.tree, ∀ p ∈ lvl, NoTie Surf.single (facing.flatMap Obj.surfs) p := by
  have h : ((rayTracer facing () source 4 (1/5) true).toOption.map fun r =>
      r.tree.all fun lvl => lvl.all fun p => decide
        (((facing.flatMap Obj.surfs).map (Surf.single · p)).Pairwise fun x y => x = ⊤ ∨ x ≠ y)) =
      some true := by
    decide +kernel
  cases hr : rayTracer facing () source 4 (1/5) true with
  | error e => rw [hr] at h; simp [Except.toOption] at h
  | ok res =>
    rw [hr] at h
    simp only [Except.toOption, Option.map_some, Option.some.injEq, List.all_eq_true,
      decide_eq_true_eq] at h
    exact ⟨res, rfl, fun lvl hl p hp => noTie_of_pairwise (h lvl hl p hp)⟩

example : ∃ res, rayTracer Examples.facing () Examples.source 4 (1/5) true = .ok res ∧
    ∀ lvl ∈ res.tree, (lvl.map Ray.energy).sum ≤ (Examples.source.map Ray.energy).sum := by
  obtain ⟨res, h, hnt⟩ := Examples.facing_noTie
  exact ⟨res, h, (C15_total Examples.facing_shape Examples.facing_perRay Examples.facing_parents
    Examples.facing_energy (by simp [Examples.source]) h hnt).2⟩

/-- The tie makes the total grow: two perfect coincident mirrors double the energy. -/
theorem C15_counterexample :
    ((rayTracer [⟨[mkSurf flatGM perfectMirror 1], Obj.defaultOwn, Obj.defaultNext 1⟩,
        ⟨[mkSurf flatGM perfectMirror 1], Obj.defaultOwn, Obj.defaultNext 1⟩]
      () Examples.source 1 (1/5) true).toOption.map fun r =>
      r.tree.map fun l => (l.map Ray.energy).sum) = some [2, 4] := by
  decide +kernel

/-- The same trace: no ray has negative energy, and the children of a ray share at most its energy. -/
example : ∃ res lvl, rayTracer Examples.facing () Examples.source 4 (1/5) true = .ok res ∧ res.tree[3]? = some lvl ∧ lvl ≠ [] ∧
    (∀ r ∈ lvl, 0 ≤ r.energy) ∧ ∃ prev p, res.tree[2]? = some prev ∧ prev[0]? = some p ∧
      ((lvl.filter fun r => r.parent == 0).map Ray.energy).sum ≤ p.energy := by
  obtain ⟨res, h, hnt⟩ := Examples.facing_noTie
  obtain ⟨res', lvl, r, h', hk, hr⟩ := Examples.facing_last
  obtain rfl : res = res' := by rw [h] at h'; exact Except.ok.inj h'
  have hpos : ∀ q ∈ Examples.source, 0 ≤ q.energy := by simp [Examples.source]
  obtain ⟨prev, p, h1, h2, _⟩ := C06_parents_valid Examples.facing_shape Examples.facing_length Examples.facing_parents h hk hr
  obtain ⟨p, hp⟩ : ∃ p, prev[0]? = some p := by
    cases prev with
    | nil => simp at h2
    | cons a l => exact ⟨a, rfl⟩
  exact ⟨res, lvl, h, hk, List.ne_nil_of_mem hr,
    C15_nonneg Examples.facing_shape Examples.facing_length Examples.facing_parents Examples.facing_energy hpos h hk,
    prev, p, h1, hp, C15_children Examples.facing_shape Examples.facing_perRay Examples.facing_parents Examples.facing_energy hpos h h1 hk
      hp (hnt prev (List.mem_of_getElem? h1) p (List.mem_of_getElem? hp))⟩

end Tracer
