import Verif.Props.Receipts

/-! Rays each of which meets exactly one surface next. -/

namespace Tracer

variable {K E σ ι : Type _} [Field K] [LinearOrder K] [IsStrictOrderedRing K]
  {objs : List (Obj σ K E)} {per : Surf σ K E → Ray K E → WithTop K}
  {out : Surf σ K E → Ray K E → Bundle K E} {pol : Nat → Policy K E}

/-- `x` is the only surface the ray meets next: it is met at `t`, all others only farther away. -/
structure Going.Only (per : Surf σ K E → Ray K E → WithTop K) (pol : Nat → Policy K E) (xs : List (Site σ K E))
    (g : Going K E) (x : Site σ K E) (t : K) : Prop where
  mem : x ∈ xs
  may : g.MayMeet pol x
  met : per x.surf g.ray = (t : WithTop K)
  far : dropTol < t
  others : ∀ y ∈ xs, ¬ (y.obj = x.obj ∧ y.num = x.num) → g.MayMeet pol y →
    ∀ t' : K, per y.surf g.ray = (t' : WithTop K) → selfTol < t' → t < t'

theorem site_unique {x y : Site σ K E} (hx : x ∈ sites objs) (hy : y ∈ sites objs) (h : y.obj = x.obj ∧ y.num = x.num) : y = x := by
  have h1 := sites_single (objs := objs) hx (fun y => [y])
  have h2 : y ∈ (sites objs).flatMap fun y => if y.obj = x.obj ∧ y.num = x.num then [y] else [] :=
    List.mem_flatMap.2 ⟨y, hy, by rw [if_pos h]; simp⟩
  rw [h1] at h2
  simpa using h2

theorem selfTol_le_goingCut (xs : List (Site σ K E)) (gs : List (Going K E)) : (selfTol : K) ≤ goingCut per pol xs gs := by
  unfold goingCut
  split
  · exact selfTol_lt_dropTol.le
  · exact le_refl _

theorem Going.Only.meets {g : Going K E} {x : Site σ K E} {t c : K} (h : g.Only per pol (sites objs) x t)
    (hc1 : selfTol ≤ c) (hc2 : c ≤ dropTol) {y : Site σ K E} (hy : y ∈ sites objs) :
    g.Meets c per pol (sites objs) y ↔ y.obj = x.obj ∧ y.num = x.num := by
  constructor
  · rintro ⟨h0, t', h1, h2, h3⟩
    by_contra hne
    have := h.others y hy hne h0 t' h1 (lt_of_le_of_lt hc1 h2)
    exact absurd (h3 x h.mem h.may t h.met (lt_of_le_of_lt hc2 h.far)) (not_le.2 this)
  · intro he
    rw [site_unique h.mem hy he]
    refine ⟨h.may, t, h.met, lt_of_le_of_lt hc2 h.far, ?_⟩
    intro z hz hm t' ht' hlt
    by_cases hzx : z.obj = x.obj ∧ z.num = x.num
    · rw [site_unique h.mem hz hzx, h.met] at ht'
      exact le_of_eq (WithTop.coe_injective ht')
    · exact (h.others z hz hzx hm t' ht' (lt_of_le_of_lt hc1 hlt)).le

/-- What becomes of rays each of which meets one surface only. -/
theorem nextGoing_only {l : List ι} {G : ι → Going K E} {x : ι → Site σ K E} {t : ι → K}
    (h : ∀ i ∈ l, (G i).Only per pol (sites objs) (x i) (t i)) :
    nextGoing per out pol (sites objs) (l.map G) =
      l.flatMap fun i => (out (x i).surf (G i).ray).map fun r => ⟨r, some ((x i).obj, (x i).num)⟩ := by
  classical
  unfold nextGoing
  have hc1 := selfTol_le_goingCut (per := per) (pol := pol) (sites objs) (l.map G)
  have hc2 := goingCut_le (per := per) (pol := pol) (sites objs) (l.map G)
  generalize goingCut per pol (sites objs) (l.map G) = c at hc1 hc2
  rw [List.flatMap_map]
  refine List.flatMap_congr fun i hi => ?_
  unfold Going.children
  have := sites_single (objs := objs) (h i hi).mem fun y =>
    (out y.surf (G i).ray).map fun r => (⟨r, some (y.obj, y.num)⟩ : Going K E)
  rw [← this]
  refine List.flatMap_congr fun y hy => ?_
  have hm := (h i hi).meets hc1 hc2 hy
  by_cases hyx : y.obj = (x i).obj ∧ y.num = (x i).num
  · rw [if_pos hyx, if_pos (hm.2 hyx)]
  · rw [if_neg hyx, if_neg fun h' => hyx (hm.1 h')]

/-- ... and which of them go on to a given surface. -/
theorem goingHits_only {l : List ι} {G : ι → Going K E} {x : ι → Site σ K E} {t : ι → K}
    (h : ∀ i ∈ l, (G i).Only per pol (sites objs) (x i) (t i)) {y : Site σ K E} (hy : y ∈ sites objs) :
    goingHits per pol (sites objs) (l.map G) y =
      l.flatMap fun i => if y.obj = (x i).obj ∧ y.num = (x i).num then [((G i).ray, t i)] else [] := by
  classical
  unfold goingHits
  have hc1 := selfTol_le_goingCut (per := per) (pol := pol) (sites objs) (l.map G)
  have hc2 := goingCut_le (per := per) (pol := pol) (sites objs) (l.map G)
  generalize goingCut per pol (sites objs) (l.map G) = c at hc1 hc2
  rw [List.flatMap_map]
  refine List.flatMap_congr fun i hi => ?_
  have hm := (h i hi).meets hc1 hc2 hy
  by_cases hyx : y.obj = (x i).obj ∧ y.num = (x i).num
  · rw [if_pos hyx, if_pos (hm.2 hyx), site_unique (h i hi).mem hy hyx, (h i hi).met]
  · rw [if_neg hyx, if_neg fun h' => hyx (hm.1 h')]

end Tracer
