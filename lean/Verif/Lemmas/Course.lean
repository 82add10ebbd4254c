import Verif.Lemmas.Relay

/-! Rays that go from surface to surface, each meeting one surface at a time, until nothing is left of them. -/

namespace Tracer

variable {K E σ ι : Type _} [Field K] [LinearOrder K] [IsStrictOrderedRing K]
  {objs : List (Obj σ K E)} {per : Surf σ K E → Ray K E → WithTop K}
  {out : Surf σ K E → Ray K E → Bundle K E} {pol : Nat → Policy K E} {minE : K} {b : Bundle K E}

/-- One leg of a ray's way: the ray, the surface it goes on to, and where it meets it. -/
structure Leg (σ K E : Type _) where
  going : Going K E
  site : Site σ K E
  t : K

/-- The way of a ray: it meets one surface at a time, leaves it as one ray, and after the last of them its energy is not above the threshold. -/
inductive Course (per : Surf σ K E → Ray K E → WithTop K) (out : Surf σ K E → Ray K E → Bundle K E) (pol : Nat → Policy K E)
    (xs : List (Site σ K E)) (minE : K) : Going K E → List (Leg σ K E) → Prop
  | last (g x t) : g.Only per pol xs x t → (∀ r ∈ out x.surf g.ray, r.energy ≤ minE) → Course per out pol xs minE g [⟨g, x, t⟩]
  | step (g x t r P) : g.Only per pol xs x t → out x.surf g.ray = [r] → minE < r.energy →
      Course per out pol xs minE ⟨r, some (x.obj, x.num)⟩ P → Course per out pol xs minE g (⟨g, x, t⟩ :: P)

theorem Course.head {xs : List (Site σ K E)} {g : Going K E} {P : List (Leg σ K E)} (h : Course per out pol xs minE g P) :
    (P[0]?).toList.map Leg.going = [g] := by
  cases h <;> rfl

theorem Course.leg {xs : List (Site σ K E)} {g : Going K E} {P : List (Leg σ K E)} (h : Course per out pol xs minE g P) :
    ∀ (k : Nat) (z : Leg σ K E), P[k]? = some z → z.going.Only per pol xs z.site z.t ∧
      ((out z.site.surf z.going.ray).map fun r => (⟨r, some (z.site.obj, z.site.num)⟩ : Going K E)).filter
        (fun g => decide (minE < g.ray.energy)) = (P[k + 1]?).toList.map Leg.going := by
  induction h with
  | last g x t h hr =>
    intro k z hz
    cases k with
    | succ k => simp at hz
    | zero =>
      simp only [List.getElem?_cons_zero, Option.some.injEq] at hz
      subst hz
      refine ⟨h, ?_⟩
      simp only [zero_add, List.getElem?_cons_succ, List.getElem?_nil, Option.toList_none, List.map_nil]
      rw [List.filter_eq_nil_iff]
      intro q hq
      obtain ⟨r, hr', rfl⟩ := List.mem_map.1 hq
      simpa using hr r hr'
  | step g x t r P h hr he hP ih =>
    intro k z hz
    cases k with
    | succ k =>
      rw [List.getElem?_cons_succ] at hz
      rw [List.getElem?_cons_succ]
      exact ih k z hz
    | zero =>
      simp only [List.getElem?_cons_zero, Option.some.injEq] at hz
      subst hz
      refine ⟨h, ?_⟩
      simp only [zero_add, List.getElem?_cons_succ, hr, List.map_cons, List.map_nil]
      rw [hP.head]
      simp [he]

/-- The legs of generation `k`. -/
def legs (l : List ι) (P : ι → List (Leg σ K E)) (k : Nat) : List (Leg σ K E) := l.flatMap fun i => ((P i)[k]?).toList

section
variable {l : List ι} {G : ι → Going K E} {P : ι → List (Leg σ K E)}

theorem legs_only (h : ∀ i ∈ l, Course per out pol (sites objs) minE (G i) (P i)) (k : Nat) :
    ∀ z ∈ legs l P k, z.going.Only per pol (sites objs) z.site z.t := by
  intro z hz
  obtain ⟨i, hi, hz⟩ := List.mem_flatMap.1 hz
  exact ((h i hi).leg k z (by simpa using hz)).1

/-- The rays that set out in each generation. -/
theorem setOut_course (hb : b.map (fun r => (⟨r, none⟩ : Going K E)) = l.map G)
    (h : ∀ i ∈ l, Course per out pol (sites objs) minE (G i) (P i)) (k : Nat) :
    setOut minE k (goingGeneration per out pol (sites objs) minE b k) = (legs l P k).map Leg.going := by
  induction k with
  | zero =>
    change b.map _ = _
    rw [hb]
    unfold legs
    rw [List.map_flatMap, ← List.flatMap_pure_eq_map]
    exact List.flatMap_congr fun i hi => ((h i hi).head).symm
  | succ k ih =>
    rw [goingGeneration, ih, nextGoing_only (legs_only h k)]
    unfold setOut
    rw [if_neg (by omega), List.filter_flatMap]
    unfold legs
    rw [List.flatMap_assoc, List.map_flatMap]
    refine List.flatMap_congr fun i hi => ?_
    cases hz : (P i)[k]? with
    | none =>
      have : (P i)[k + 1]? = none := by
        rw [List.getElem?_eq_none_iff] at hz ⊢
        omega
      rw [this]
      rfl
    | some z =>
      simp only [Option.toList_some, List.flatMap_cons, List.flatMap_nil, List.append_nil]
      exact ((h i hi).leg k z hz).2

theorem flatMap_comm_perm {α β γ : Type _} (l : List α) (l' : List β) (f : α → β → List γ) :
    (l.flatMap fun a => l'.flatMap fun c => f a c).Perm (l'.flatMap fun c => l.flatMap fun a => f a c) := by
  induction l with
  | nil => simp
  | cons a l ih =>
    simp only [List.flatMap_cons]
    exact (ih.append_left _).trans (List.flatMap_append_perm _ _ _)

theorem range_flatMap_getElem? {α β : Type _} (P : List α) (F : α → List β) {n : Nat} (h : P.length ≤ n) :
    ((List.range n).flatMap fun k => (P[k]?).toList.flatMap F) = P.flatMap F := by
  induction P generalizing n with
  | nil => simp
  | cons a P ih =>
    obtain ⟨m, rfl⟩ : ∃ m, n = m + 1 := ⟨n - 1, by simp at h; omega⟩
    rw [List.range_succ_eq_map, List.flatMap_cons, List.flatMap_map]
    simp only [List.getElem?_cons_zero, Option.toList_some, List.flatMap_cons, List.flatMap_nil, List.append_nil, List.getElem?_cons_succ]
    rw [ih (by simpa using h)]

/-- The rays that go on to a given surface in the course of the trace. -/
theorem traceHits_course (hb : b.map (fun r => (⟨r, none⟩ : Going K E)) = l.map G)
    (h : ∀ i ∈ l, Course per out pol (sites objs) minE (G i) (P i)) {reps : Nat} (hreps : ∀ i ∈ l, (P i).length ≤ reps)
    {y : Site σ K E} (hy : y ∈ sites objs) :
    (traceHits per out pol (sites objs) minE b reps y).Perm
      (l.flatMap fun i => (P i).flatMap fun z => if y.obj = z.site.obj ∧ y.num = z.site.num then [(z.going.ray, z.t)] else []) := by
  unfold traceHits
  have e : ((List.range reps).flatMap fun k => goingHits per pol (sites objs)
      (setOut minE k (goingGeneration per out pol (sites objs) minE b k)) y) =
      (List.range reps).flatMap fun k => l.flatMap fun i => ((P i)[k]?).toList.flatMap fun z =>
        if y.obj = z.site.obj ∧ y.num = z.site.num then [(z.going.ray, z.t)] else [] := by
    refine List.flatMap_congr fun k _ => ?_
    rw [setOut_course hb h k, goingHits_only (legs_only h k) hy]
    unfold legs
    rw [List.flatMap_assoc]
  rw [e]
  refine (flatMap_comm_perm _ _ _).trans (List.Perm.of_eq ?_)
  exact List.flatMap_congr fun i hi => range_flatMap_getElem? _ _ (hreps i hi)

end
end Tracer
