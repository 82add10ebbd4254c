import Verif.Lemmas.Going
import Verif.Props.Variation
import Verif.Model.Mirrors

/-!
# Traces through objects that claim rays or skip surfaces (C84; also C14, C81, C83)

`C84_exact` describes every recorded bundle of a trace whose objects decide about rays one by one (`Obj.Decides`): the default
policies, those of the one-sided mirror and receiver, and any per-ray policy of the user's.  The other theorems are drawn from it.
-/

set_option linter.unusedSectionVars false

namespace Tracer

variable {K E σ : Type _} [Field K] [LinearOrder K] [IsStrictOrderedRing K]
  {objs objs' : List (Obj σ K E)} {w w' : σ} {b : Bundle K E} {reps : Nat} {minE minE' : K}
  {res res' : TraceResult σ K E} {per : Surf σ K E → Ray K E → WithTop K}
  {out : Surf σ K E → Ray K E → Bundle K E} {pol pol' : Nat → Policy K E}

/-- C84: every recorded bundle consists of the rays of the recursion over single rays that remember which surface they left. -/
theorem C84_exact (hdec : AllDecide objs pol) (hpol : ∀ o, (pol o).Blind)
    (hper : AllSurfs (fun s => s.PerRay (per s)) objs) (hpar : AllSurfs Surf.ParentsOk objs)
    (hout : AllSurfs (fun s => s.PerHit (out s)) objs) (hb : Blind per out (objs.flatMap Obj.surfs))
    (h : rayTracer objs w b reps minE true = .ok res) {k : Nat} (hk : k ≤ reps) :
    (((res.tree[k]?).getD []).map Ray.strip).Perm
      ((goingGeneration per out pol (sites objs) minE b k).map fun g => g.ray.strip) :=
  tree_going hdec hpol hper hpar hout hb h hk

/-- C84: the default policies and those of the one-sided models decide about rays one by one. -/
theorem C84_policies (surfs : List (Surf σ K E)) :
    (⟨surfs, Obj.defaultOwn, Obj.defaultNext surfs.length⟩ : Obj σ K E).Decides Policy.free ∧
    (⟨surfs, Obj.defaultOwn, Obj.skipNext surfs.length⟩ : Obj σ K E).Decides Policy.skip ∧
    (Policy.free : Policy K E).Blind ∧ (Policy.skip : Policy K E).Blind := by
  have hown : ∀ rays : Bundle K E, List.replicate rays.length false = rays.map fun _ => false := by
    intro rays
    rw [List.map_const']
  have hrow : ∀ (n : Nat) (x : List Bool), List.replicate n x = (List.range n).map fun _ => x := by
    intro n x
    rw [List.map_const', List.length_range]
  refine ⟨⟨fun rays _ => hown rays, fun rays j => ?_⟩, ⟨fun rays _ => hown rays, fun rays j => ?_⟩, ?_, ?_⟩
  · change List.replicate _ _ = _
    rw [hrow]
    have : List.replicate (List.length rays) true = rays.map fun _ => true := by rw [List.map_const']
    rw [this]
    rfl
  · change List.replicate _ _ = _
    rw [hrow]
    have : List.replicate (List.length rays) false = rays.map fun _ => false := by rw [List.map_const']
    rw [this]
    rfl
  · exact fun _ _ => ⟨rfl, fun _ => rfl⟩
  · exact fun _ _ => ⟨rfl, fun _ => rfl⟩

/-- C84: the order of the source rays does not matter. -/
theorem C84_order (hdec : AllDecide objs pol) (hpol : ∀ o, (pol o).Blind)
    (hper : AllSurfs (fun s => s.PerRay (per s)) objs) (hpar : AllSurfs Surf.ParentsOk objs)
    (hout : AllSurfs (fun s => s.PerHit (out s)) objs) (hb : Blind per out (objs.flatMap Obj.surfs))
    {b' : Bundle K E} (hperm : b.Perm b')
    (h : rayTracer objs w b reps minE true = .ok res)
    (h' : rayTracer objs w' b' reps minE true = .ok res') (k : Nat) :
    (((res.tree[k]?).getD []).map Ray.strip).Perm (((res'.tree[k]?).getD []).map Ray.strip) := by
  have hobj : ∀ o ∈ objs, o.ShapeOk := by
    intro o ho
    obtain ⟨n, hn⟩ := List.getElem?_of_mem ho
    exact (hdec n o hn).shapeOk
  rcases Nat.lt_or_ge reps k with hk | hk
  · rw [tree_beyond hobj h hk, tree_beyond hobj h' hk]
  · have hb' : Blind per out ((sites objs).map Site.surf) := by rw [sites_surf]; exact hb
    have key : ∀ k, ((goingGeneration per out pol (sites objs) minE b k).map Going.strip).Perm
        ((goingGeneration per out pol (sites objs) minE b' k).map Going.strip) := by
      intro k
      induction k with
      | zero => exact (hperm.map _).map _
      | succ k ih => exact nextGoing_perm hb' hpol (setOut_perm minE k ih)
    have := (key k).map Going.ray
    rw [List.map_map, List.map_map] at this
    exact (C84_exact hdec hpol hper hpar hout hb h hk).trans
      (this.trans (C84_exact hdec hpol hper hpar hout hb h' hk).symm)

/-! ### The order of the objects -/

/-- The same surface in a scene whose objects are numbered otherwise. -/
def Site.renumber (π : Nat → Nat) (x : Site σ K E) : Site σ K E := ⟨π x.obj, x.num, x.surf⟩

/-- The same ray in a scene whose objects are numbered otherwise. -/
def Going.renumber (π : Nat → Nat) (g : Going K E) : Going K E := ⟨g.ray, g.left.map fun x => (π x.1, x.2)⟩

/-- The second scene consists of the objects of the first; number `o` of the first is number `π o` of the second. -/
structure Renumbered (π : Nat → Nat) (objs objs' : List (Obj σ K E)) : Prop where
  length : objs'.length = objs.length
  inj : Function.Injective π
  same : ∀ (o : Nat) (obj : Obj σ K E), objs[o]? = some obj → objs'[π o]? = some obj

theorem sites_range (objs : List (Obj σ K E)) : sites objs = (List.range objs.length).flatMap fun o =>
    (objs[o]?).toList.flatMap fun obj => obj.surfs.zipIdx.map fun y => (⟨o, y.2, y.1⟩ : Site σ K E) := by
  have key : ∀ (objs : List (Obj σ K E)) (n : Nat),
      ((objs.zipIdx n).flatMap fun x => x.1.surfs.zipIdx.map fun y => (⟨x.2, y.2, y.1⟩ : Site σ K E)) =
        (List.range objs.length).flatMap fun o => (objs[o]?).toList.flatMap fun obj => obj.surfs.zipIdx.map fun y =>
          (⟨n + o, y.2, y.1⟩ : Site σ K E) := by
    intro objs
    induction objs with
    | nil => intro n; rfl
    | cons o objs ih =>
      intro n
      rw [List.zipIdx_cons, List.flatMap_cons, ih, List.length_cons, List.range_succ_eq_map, List.flatMap_cons, List.flatMap_map]
      congr 1
      · simp
      · refine List.flatMap_congr fun m _ => ?_
        simp only [List.getElem?_cons_succ, Nat.succ_eq_add_one]
        rw [show n + 1 + m = n + (m + 1) by omega]
  have := key objs 0
  simp only [Nat.zero_add] at this
  exact this

theorem Renumbered.perm {π : Nat → Nat} (hr : Renumbered π objs objs') :
    ((List.range objs.length).map π).Perm (List.range objs'.length) := by
  have hsub : ((List.range objs.length).map π).Subperm (List.range objs'.length) := by
    refine List.Nodup.subperm (List.Nodup.map hr.inj List.nodup_range) ?_
    intro n hn
    obtain ⟨o, ho, rfl⟩ := List.mem_map.1 hn
    have hol : o < objs.length := by simpa using ho
    have := hr.same o objs[o] (List.getElem?_eq_getElem hol)
    rw [List.mem_range]
    exact (List.getElem?_eq_some_iff.1 this).1
  exact hsub.perm_of_length_le (by simp [hr.length])

theorem Renumbered.sites {π : Nat → Nat} (hr : Renumbered π objs objs') :
    (Tracer.sites objs').Perm ((Tracer.sites objs).map (Site.renumber π)) := by
  rw [sites_range objs', sites_range objs]
  refine (hr.perm.symm.flatMap_right _).trans (List.Perm.of_eq ?_)
  rw [List.flatMap_map, List.map_flatMap]
  refine List.flatMap_congr fun o ho => ?_
  have hol : o < objs.length := by simpa using ho
  have h1 := List.getElem?_eq_getElem hol
  rw [hr.same o _ h1, h1]
  simp only [Option.toList_some, List.flatMap_cons, List.flatMap_nil, List.append_nil, List.map_map]
  rfl

theorem mayMeet_renumber {π : Nat → Nat} (hinj : Function.Injective π) (hpp : ∀ o, pol' (π o) = pol o)
    (g : Going K E) (x : Site σ K E) : (g.renumber π).MayMeet pol' (x.renumber π) ↔ g.MayMeet pol x := by
  unfold Going.MayMeet Going.renumber Site.renumber
  cases hl : g.left with
  | none => simp
  | some y =>
    simp only [Option.map_some, Option.some.injEq, Prod.mk.injEq]
    constructor
    · rintro hm o j rfl
      have := hm (π o) j ⟨rfl, rfl⟩
      rw [hpp] at this
      exact ⟨fun h => hinj (this.1 h), fun h => this.2 (by rw [h])⟩
    · rintro hm o j ⟨rfl, rfl⟩
      have := hm y.1 y.2 rfl
      rw [hpp]
      exact ⟨fun h => by rw [this.1 h], fun h => this.2 (hinj h)⟩

theorem goingCut_renumber {π : Nat → Nat} (hinj : Function.Injective π) (hpp : ∀ o, pol' (π o) = pol o)
    {xs xs' : List (Site σ K E)} (hx : xs'.Perm (xs.map (Site.renumber π))) (gs : List (Going K E)) :
    goingCut per pol' xs' (gs.map (Going.renumber π)) = goingCut per pol xs gs := by
  have hiff : (∃ x ∈ xs', ∃ g ∈ gs.map (Going.renumber π), ¬ g.MayMeet pol' x ∨ per x.surf g.ray ≤ ((selfTol : K) : WithTop K)) ↔
      ∃ x ∈ xs, ∃ g ∈ gs, ¬ g.MayMeet pol x ∨ per x.surf g.ray ≤ ((selfTol : K) : WithTop K) := by
    constructor
    · rintro ⟨x, hx', g, hg, hor⟩
      obtain ⟨y, hy, rfl⟩ := List.mem_map.1 (hx.subset hx')
      obtain ⟨q, hq, rfl⟩ := List.mem_map.1 hg
      rw [mayMeet_renumber hinj hpp] at hor
      exact ⟨y, hy, q, hq, hor⟩
    · rintro ⟨x, hx', g, hg, hor⟩
      refine ⟨x.renumber π, hx.symm.subset (List.mem_map.2 ⟨x, hx', rfl⟩), g.renumber π, List.mem_map.2 ⟨g, hg, rfl⟩, ?_⟩
      rw [mayMeet_renumber hinj hpp]
      exact hor
  unfold goingCut
  by_cases hp : ∃ x ∈ xs, ∃ g ∈ gs, ¬ g.MayMeet pol x ∨ per x.surf g.ray ≤ ((selfTol : K) : WithTop K)
  · rw [if_pos hp, if_pos (hiff.2 hp)]
  · rw [if_neg hp, if_neg fun h' => hp (hiff.1 h')]

theorem meets_renumber {π : Nat → Nat} (hinj : Function.Injective π) (hpp : ∀ o, pol' (π o) = pol o)
    {xs xs' : List (Site σ K E)} (hx : xs'.Perm (xs.map (Site.renumber π))) (g : Going K E) (c : K) (x : Site σ K E) :
    (g.renumber π).Meets c per pol' xs' (x.renumber π) ↔ g.Meets c per pol xs x := by
  unfold Going.Meets
  rw [mayMeet_renumber hinj hpp]
  constructor
  · rintro ⟨h0, t, h1, h2, h3⟩
    refine ⟨h0, t, h1, h2, fun y hy hm t' ht' hlt => ?_⟩
    exact h3 (y.renumber π) (hx.symm.subset (List.mem_map.2 ⟨y, hy, rfl⟩)) ((mayMeet_renumber hinj hpp g y).2 hm) t' ht' hlt
  · rintro ⟨h0, t, h1, h2, h3⟩
    refine ⟨h0, t, h1, h2, fun y hy hm t' ht' hlt => ?_⟩
    obtain ⟨z, hz, rfl⟩ := List.mem_map.1 (hx.subset hy)
    exact h3 z hz ((mayMeet_renumber hinj hpp g z).1 hm) t' ht' hlt

theorem nextGoing_renumber {π : Nat → Nat} (hinj : Function.Injective π) (hpp : ∀ o, pol' (π o) = pol o)
    {xs xs' : List (Site σ K E)} (hx : xs'.Perm (xs.map (Site.renumber π))) (gs : List (Going K E)) :
    (nextGoing per out pol' xs' (gs.map (Going.renumber π))).Perm
      ((nextGoing per out pol xs gs).map (Going.renumber π)) := by
  classical
  unfold nextGoing
  rw [goingCut_renumber hinj hpp hx, List.flatMap_map, List.map_flatMap]
  refine List.Perm.flatMap_left _ fun g _ => ?_
  generalize goingCut per pol xs gs = c
  unfold Going.children
  have hmeets := meets_renumber (per := per) hinj hpp hx g c
  refine (hx.flatMap_right _).trans (List.Perm.of_eq ?_)
  rw [List.flatMap_map, List.map_flatMap]
  refine List.flatMap_congr fun x _ => ?_
  by_cases h : g.Meets c per pol xs x
  · rw [if_pos h, if_pos ((hmeets x).2 h), List.map_map]
    rfl
  · rw [if_neg h, if_neg fun h' => h ((hmeets x).1 h')]
    rfl

theorem Renumbered.surfs {π : Nat → Nat} (hr : Renumbered π objs objs') :
    (objs'.flatMap Obj.surfs).Perm (objs.flatMap Obj.surfs) := by
  rw [← sites_surf, ← sites_surf]
  have := hr.sites.map Site.surf
  rw [List.map_map] at this
  exact this

theorem Renumbered.allSurfs {π : Nat → Nat} (hr : Renumbered π objs objs') {P : Surf σ K E → Prop} (hP : AllSurfs P objs) :
    AllSurfs P objs' := by
  intro o ho s hs
  exact mem_allSurfs hP (hr.surfs.subset (List.mem_flatMap.2 ⟨o, ho, hs⟩))

theorem setOut_renumber (π : Nat → Nat) (minE : K) (k : Nat) (gs : List (Going K E)) :
    (setOut minE k gs).map (Going.renumber π) = setOut minE k (gs.map (Going.renumber π)) := by
  unfold setOut
  split
  · rfl
  · rw [List.filter_map]
    rfl

/-- A scene whose objects are listed in another order: its policies, and its generations. -/
theorem Renumbered.generations (hdec : AllDecide objs pol) (hpol : ∀ o, (pol o).Blind)
    (hb : Blind per out (objs.flatMap Obj.surfs)) {π : Nat → Nat} (hr : Renumbered π objs objs') :
    ∃ pol' : Nat → Policy K E, (∀ o, pol' (π o) = pol o) ∧ (∀ o, (pol' o).Blind) ∧ AllDecide objs' pol' ∧
      ∀ k, ((goingGeneration per out pol' (Tracer.sites objs') minE b k).map Going.strip).Perm
        (((goingGeneration per out pol (Tracer.sites objs) minE b k).map (Going.renumber π)).map Going.strip) := by
  classical
  have hx := hr.sites
  have hsurf := hr.surfs
  -- the policies of the second scene
  let pol' : Nat → Policy K E := fun n => if hn : ∃ o, π o = n then pol hn.choose else Policy.free
  have hpp : ∀ o, pol' (π o) = pol o := by
    intro o
    have hex : ∃ o', π o' = π o := ⟨o, rfl⟩
    change (if hn : ∃ o', π o' = π o then pol hn.choose else Policy.free) = pol o
    rw [dif_pos hex, hr.inj hex.choose_spec]
  have hpol' : ∀ o, (pol' o).Blind := by
    intro n
    by_cases hn : ∃ o, π o = n
    · obtain ⟨o, rfl⟩ := hn
      rw [hpp]
      exact hpol o
    · change (if hn : ∃ o, π o = n then pol hn.choose else Policy.free).Blind
      rw [dif_neg hn]
      exact (C84_policies ([] : List (Surf σ K E))).2.2.1
  have hdec' : AllDecide objs' pol' := by
    intro n obj hn
    have hnl : n < objs'.length := (List.getElem?_eq_some_iff.1 hn).1
    -- n is the new number of some object
    have hsurj : ∃ o < objs.length, π o = n := by
      obtain ⟨o, ho, e⟩ := List.mem_map.1 (hr.perm.symm.subset (List.mem_range.2 hnl))
      exact ⟨o, by simpa using ho, e⟩
    obtain ⟨o, ho, rfl⟩ := hsurj
    have h1 := hr.same o objs[o] (List.getElem?_eq_getElem ho)
    rw [hn] at h1
    cases h1
    rw [hpp]
    exact hdec o _ (List.getElem?_eq_getElem ho)
  have hbs' : Blind per out ((Tracer.sites objs').map Site.surf) := by
    rw [sites_surf]
    exact fun s hs p => hb s (hsurf.subset hs) p
  refine ⟨pol', hpp, hpol', hdec', ?_⟩
  intro k
  induction k with
  | zero =>
    refine List.Perm.of_eq ?_
    unfold goingGeneration
    rw [List.map_map, List.map_map, List.map_map]
    rfl
  | succ k ih =>
    refine (nextGoing_perm hbs' hpol' (setOut_perm minE k ih)).trans ?_
    rw [← setOut_renumber]
    exact (nextGoing_renumber hr.inj hpp hx _).map _

/-- C81, for objects with any per-ray policies: the order in which the objects are listed does not matter. -/
theorem C81_objects (hdec : AllDecide objs pol) (hpol : ∀ o, (pol o).Blind)
    (hper : AllSurfs (fun s => s.PerRay (per s)) objs) (hpar : AllSurfs Surf.ParentsOk objs)
    (hout : AllSurfs (fun s => s.PerHit (out s)) objs) (hb : Blind per out (objs.flatMap Obj.surfs))
    {π : Nat → Nat} (hr : Renumbered π objs objs')
    (h : rayTracer objs w b reps minE true = .ok res)
    (h' : rayTracer objs' w' b reps minE true = .ok res') (k : Nat) :
    (((res.tree[k]?).getD []).map Ray.strip).Perm (((res'.tree[k]?).getD []).map Ray.strip) := by
  obtain ⟨pol', _, hpol', hdec', key⟩ := hr.generations (minE := minE) (b := b) hdec hpol hb
  have hobj : ∀ o ∈ objs, o.ShapeOk := by
    intro o ho
    obtain ⟨n, hn⟩ := List.getElem?_of_mem ho
    exact (hdec n o hn).shapeOk
  have hobj' : ∀ o ∈ objs', o.ShapeOk := by
    intro o ho
    obtain ⟨n, hn⟩ := List.getElem?_of_mem ho
    exact (hdec' n o hn).shapeOk
  have hb' : Blind per out (objs'.flatMap Obj.surfs) := fun s hs p => hb s (hr.surfs.subset hs) p
  rcases Nat.lt_or_ge reps k with hk | hk
  · rw [tree_beyond hobj h hk, tree_beyond hobj' h' hk]
  · have := (key k).map Going.ray
    rw [List.map_map, List.map_map, List.map_map] at this
    exact (C84_exact hdec hpol hper hpar hout hb h hk).trans
      (List.Perm.trans this.symm (C84_exact hdec' hpol' (hr.allSurfs hper) (hr.allSurfs hpar) (hr.allSurfs hout) hb' h' hk).symm)

/-! ### What becomes of a ray does not depend on its companions -/

theorem nextGoing_settled {xs : List (Site σ K E)} {gs : List (Going K E)} (hset : ∀ g ∈ gs, g.Settled per pol xs) :
    nextGoing per out pol xs gs = gs.flatMap (Going.children dropTol per out pol xs) := by
  classical
  have hd : (selfTol : K) < dropTol := selfTol_lt_dropTol
  have hc : goingCut per pol xs gs = (dropTol : K) ∨ goingCut per pol xs gs = (selfTol : K) := by
    unfold goingCut
    split
    · exact Or.inl rfl
    · exact Or.inr rfl
  unfold nextGoing
  refine List.flatMap_congr fun g hg => ?_
  have hcut : ∀ x ∈ xs, ∀ t : K, per x.surf g.ray = (t : WithTop K) → (goingCut per pol xs gs < t ↔ dropTol < t) := by
    intro x hx t ht
    rcases hset g hg with ⟨y, hy, h0⟩ | hfree
    · have : goingCut per pol xs gs = dropTol := by
        unfold goingCut
        exact if_pos ⟨y, hy, g, hg, h0⟩
      rw [this]
    · rcases hc with e | e
      · rw [e]
      · rw [e]
        constructor
        · intro hlt
          rcases hfree x hx t ht with h' | h'
          · exact absurd hlt (not_lt.2 h')
          · exact h'
        · exact fun hlt => hd.trans hlt
  unfold Going.children
  refine List.flatMap_congr fun x hx => ?_
  have hiff : g.Meets (goingCut per pol xs gs) per pol xs x ↔ g.Meets dropTol per pol xs x := by
    unfold Going.Meets
    constructor
    · rintro ⟨h0, t, h1, h2, h3⟩
      exact ⟨h0, t, h1, (hcut x hx t h1).1 h2, fun y hy hm t' ht' hlt => h3 y hy hm t' ht' ((hcut y hy t' ht').2 hlt)⟩
    · rintro ⟨h0, t, h1, h2, h3⟩
      exact ⟨h0, t, h1, (hcut x hx t h1).2 h2, fun y hy hm t' ht' hlt => h3 y hy hm t' ht' ((hcut y hy t' ht').1 hlt)⟩
  by_cases h : g.Meets (goingCut per pol xs gs) per pol xs x
  · rw [if_pos h, if_pos (hiff.1 h)]
  · rw [if_neg h, if_neg fun h' => h (hiff.2 h')]

theorem setOut_append (minE : K) (k : Nat) (l l' : List (Going K E)) :
    setOut minE k (l ++ l') = setOut minE k l ++ setOut minE k l' := by
  unfold setOut
  split
  · rfl
  · rw [List.filter_append]

/-- The rays of the generations up to `reps` that set out again are settled. -/
def GoingsSettled (per : Surf σ K E → Ray K E → WithTop K) (out : Surf σ K E → Ray K E → Bundle K E)
    (pol : Nat → Policy K E) (xs : List (Site σ K E)) (minE : K) (b : Bundle K E) (reps : Nat) : Prop :=
  ∀ k < reps, ∀ g ∈ setOut minE k (goingGeneration per out pol xs minE b k), g.Settled per pol xs

theorem goingGeneration_append {xs : List (Site σ K E)} {b1 b2 : Bundle K E}
    (hset : GoingsSettled per out pol xs minE (b1 ++ b2) reps) {k : Nat} (hk : k ≤ reps) :
    goingGeneration per out pol xs minE (b1 ++ b2) k =
      goingGeneration per out pol xs minE b1 k ++ goingGeneration per out pol xs minE b2 k := by
  induction k with
  | zero =>
    unfold goingGeneration
    rw [List.map_append]
  | succ k ih =>
    have ih := ih (by omega)
    have hs := hset k (by omega)
    unfold goingGeneration
    rw [ih, setOut_append] at hs ⊢
    rw [nextGoing_settled hs, nextGoing_settled fun g hg => hs g (List.mem_append_left _ hg),
      nextGoing_settled fun g hg => hs g (List.mem_append_right _ hg), List.flatMap_append]

/-- C14, partial, for objects with any per-ray policies: a merged bundle gives the union of what its parts give.  Missing: rays
that meet a surface at a parameter in (1e-10, 1e-6], none at a smaller one, and may meet every surface, see `C14_counterexample`. -/
theorem C14_policies_partial (hdec : AllDecide objs pol) (hpol : ∀ o, (pol o).Blind)
    (hper : AllSurfs (fun s => s.PerRay (per s)) objs) (hpar : AllSurfs Surf.ParentsOk objs)
    (hout : AllSurfs (fun s => s.PerHit (out s)) objs) (hb : Blind per out (objs.flatMap Obj.surfs))
    {b1 b2 : Bundle K E} {w1 w2 : σ} {res1 res2 : TraceResult σ K E}
    (hset : GoingsSettled per out pol (sites objs) minE (b1 ++ b2) reps)
    (h : rayTracer objs w (b1 ++ b2) reps minE true = .ok res)
    (h1 : rayTracer objs w1 b1 reps minE true = .ok res1)
    (h2 : rayTracer objs w2 b2 reps minE true = .ok res2) (k : Nat) :
    (((res.tree[k]?).getD []).map Ray.strip).Perm
      (((res1.tree[k]?).getD [] ++ (res2.tree[k]?).getD []).map Ray.strip) := by
  have hobj : ∀ o ∈ objs, o.ShapeOk := by
    intro o ho
    obtain ⟨n, hn⟩ := List.getElem?_of_mem ho
    exact (hdec n o hn).shapeOk
  rcases Nat.lt_or_ge reps k with hk | hk
  · rw [tree_beyond hobj h hk, tree_beyond hobj h1 hk, tree_beyond hobj h2 hk]
    exact List.Perm.refl _
  · refine (C84_exact hdec hpol hper hpar hout hb h hk).trans ?_
    rw [goingGeneration_append hset hk, List.map_append, List.map_append]
    exact List.Perm.append (C84_exact hdec hpol hper hpar hout hb h1 hk).symm
      (C84_exact hdec hpol hper hpar hout hb h2 hk).symm

/-! ### Scenes of flat mirrors, two-sided or one-sided -/

theorem Obj.Plain.decides (hpl : ∀ o ∈ objs, o.Plain) : AllDecide objs (plainPolicy objs) := by
  intro n obj hn
  have hp := hpl obj (List.mem_of_getElem? hn)
  obtain ⟨hfree, hskip, _, _⟩ := C84_policies obj.surfs
  unfold plainPolicy
  by_cases hs : obj.next = Obj.skipNext obj.surfs.length
  · rw [if_pos ⟨obj, hn, hs⟩]
    refine ⟨fun rays j => ?_, fun rays j => ?_⟩
    · rw [hp.1]; exact hskip.1 rays j
    · rw [hs]; exact hskip.2 rays j
  · rw [if_neg]
    · have hd := hp.2.resolve_right hs
      refine ⟨fun rays j => ?_, fun rays j => ?_⟩
      · rw [hp.1]; exact hfree.1 rays j
      · rw [hd]; exact hfree.2 rays j
    · rintro ⟨obj', hn', hs'⟩
      rw [hn] at hn'
      cases hn'
      exact hs hs'

theorem plainPolicy_cases (objs : List (Obj σ K E)) (o : Nat) :
    plainPolicy objs o = Policy.skip ∨ plainPolicy objs o = Policy.free := by
  unfold plainPolicy
  split
  · exact Or.inl rfl
  · exact Or.inr rfl

theorem plainPolicy_blind (objs : List (Obj σ K E)) (o : Nat) : (plainPolicy objs o).Blind := by
  rcases plainPolicy_cases objs o with e | e <;> rw [e]
  · exact (C84_policies ([] : List (Surf σ K E))).2.2.2
  · exact (C84_policies ([] : List (Surf σ K E))).2.2.1

section
variable (hpl : ∀ o ∈ objs, o.Plain) (hfl : AllSurfs FlatMirror objs)
include hpl hfl

/-- C84 for scenes of flat mirrors, one-sided or not: no other condition is needed. -/
theorem C84_flat (h : rayTracer objs w b reps minE true = .ok res) {k : Nat} (hk : k ≤ reps) :
    (((res.tree[k]?).getD []).map Ray.strip).Perm
      ((goingGeneration Surf.single (Surf.alone w) (plainPolicy objs) (sites objs) minE b k).map fun g => g.ray.strip) := by
  refine C84_exact (Obj.Plain.decides hpl) (plainPolicy_blind objs) (fun o ho s hs => ((hfl o ho s hs).spec w).1)
    (fun o ho s hs => ((hfl o ho s hs).spec w).2.1) (fun o ho s hs => ((hfl o ho s hs).spec w).2.2.1) ?_ h hk
  intro s hs p
  obtain ⟨o, ho, hs⟩ := List.mem_flatMap.1 hs
  exact ((hfl o ho s hs).spec w).2.2.2.1 p

theorem flat_goings_settled {k : Nat} (hk : 0 < k) :
    ∀ g ∈ goingGeneration Surf.single (Surf.alone w) (plainPolicy objs) (sites objs) minE b k,
      g.Settled Surf.single (plainPolicy objs) (sites objs) := by
  obtain ⟨k, rfl⟩ : ∃ m, k = m + 1 := ⟨k - 1, by omega⟩
  intro g hg
  unfold goingGeneration nextGoing at hg
  obtain ⟨p, _, hg⟩ := List.mem_flatMap.1 hg
  unfold Going.children at hg
  obtain ⟨x, hx, hg⟩ := List.mem_flatMap.1 hg
  split at hg
  · obtain ⟨r, hr, rfl⟩ := List.mem_map.1 hg
    left
    refine ⟨x, hx, ?_⟩
    rcases plainPolicy_cases objs x.obj with e | e
    · left
      intro hm
      have := (hm x.obj x.num rfl).2 rfl
      rw [e] at this
      exact absurd this (by simp [Policy.skip])
    · right
      have hxs : x.surf ∈ objs.flatMap Obj.surfs := by
        rw [← sites_surf]; exact List.mem_map.2 ⟨x, hx, rfl⟩
      obtain ⟨o, ho, hs⟩ := List.mem_flatMap.1 hxs
      have h0 := ((hfl o ho x.surf hs).spec w).2.2.2.2 p.ray r hr
      change x.surf.single r ≤ _
      rw [h0]
      exact_mod_cast selfTol_pos.le
  · simp at hg

/-- C14 for scenes of flat mirrors, one-sided or not: only the source may be affected by the window. -/
theorem C14_flat_policies_partial {b1 b2 : Bundle K E} {w1 w2 : σ} {res1 res2 : TraceResult σ K E}
    (hwin : ∀ p ∈ b1 ++ b2, WindowFree Surf.single (objs.flatMap Obj.surfs) p)
    (h : rayTracer objs w (b1 ++ b2) reps minE true = .ok res)
    (h1 : rayTracer objs w1 b1 reps minE true = .ok res1)
    (h2 : rayTracer objs w2 b2 reps minE true = .ok res2) (k : Nat) :
    (((res.tree[k]?).getD []).map Ray.strip).Perm
      (((res1.tree[k]?).getD [] ++ (res2.tree[k]?).getD []).map Ray.strip) := by
  refine C14_policies_partial (per := Surf.single) (out := Surf.alone w) (Obj.Plain.decides hpl) (plainPolicy_blind objs)
    (fun o ho s hs => ((hfl o ho s hs).spec w).1) (fun o ho s hs => ((hfl o ho s hs).spec w).2.1)
    (fun o ho s hs => ((hfl o ho s hs).spec w).2.2.1) ?_ ?_ h h1 h2 k
  · intro s hs p
    obtain ⟨o, ho, hs⟩ := List.mem_flatMap.1 hs
    exact ((hfl o ho s hs).spec w).2.2.2.1 p
  · intro k hk g hg
    rcases Nat.eq_zero_or_pos k with rfl | h0
    · unfold setOut goingGeneration at hg
      rw [if_pos rfl] at hg
      obtain ⟨p, hp, rfl⟩ := List.mem_map.1 hg
      right
      intro x hx t ht
      exact hwin p hp x.surf (by rw [← sites_surf]; exact List.mem_map.2 ⟨x, hx, rfl⟩) t ht
    · refine flat_goings_settled (w := w) (minE := minE) (b := b1 ++ b2) hpl hfl h0 g ?_
      unfold setOut at hg
      rw [if_neg (by omega)] at hg
      exact (List.mem_filter.1 hg).1

/-- C83 for scenes of flat mirrors, one-sided or not: raising `min_energy` only removes rays. -/
theorem C83_flat_policies (hm : minE ≤ minE')
    (h : rayTracer objs w b reps minE true = .ok res)
    (h' : rayTracer objs w b reps minE' true = .ok res') (k : Nat) :
    (((res'.tree[k]?).getD []).map Ray.strip).Subperm (((res.tree[k]?).getD []).map Ray.strip) := by
  have hobj : ∀ o ∈ objs, o.ShapeOk := by
    intro o ho
    obtain ⟨n, hn⟩ := List.getElem?_of_mem ho
    exact (Obj.Plain.decides hpl n o hn).shapeOk
  rcases Nat.lt_or_ge reps k with hk | hk
  · rw [tree_beyond hobj h hk, tree_beyond hobj h' hk]
  · refine (C84_flat hpl hfl h' hk).subperm.trans (List.Subperm.trans ?_ (C84_flat hpl hfl h hk).symm.subperm)
    refine (List.Sublist.map _ ?_).subperm
    clear hk
    induction k with
    | zero => exact List.Sublist.refl _
    | succ k ih =>
      rcases Nat.eq_zero_or_pos k with rfl | h0
      · exact List.Sublist.refl _
      · have hmem : ∀ m : K, ∀ g ∈ setOut m k (goingGeneration Surf.single (Surf.alone w) (plainPolicy objs) (sites objs) m b k),
            g.Settled Surf.single (plainPolicy objs) (sites objs) := by
          intro m g hg
          refine flat_goings_settled (w := w) (minE := m) (b := b) hpl hfl h0 g ?_
          unfold setOut at hg
          rw [if_neg (by omega)] at hg
          exact (List.mem_filter.1 hg).1
        change (nextGoing _ _ _ _ _).Sublist (nextGoing _ _ _ _ _)
        rw [nextGoing_settled (hmem minE'), nextGoing_settled (hmem minE)]
        refine List.Sublist.flatMap ?_ _
        unfold setOut
        rw [if_neg (by omega), if_neg (by omega)]
        refine List.Sublist.trans ?_ (ih.filter _)
        refine List.monotone_filter_right _ fun g hg => ?_
        have hg' : minE' < g.ray.energy := by simpa using hg
        simpa using lt_of_le_of_lt hm hg'

end

/-! ### Objects no ray reaches -/

/-- The ray does not reach the surface `e`: it misses it, or meets it behind one of `xs` that it may meet. -/
def Going.Unreached (per : Surf σ K E → Ray K E → WithTop K) (pol : Nat → Policy K E) (xs : List (Site σ K E))
    (e : Surf σ K E) (g : Going K E) : Prop :=
  per e g.ray = ⊤ ∨ ∃ t : K, per e g.ray = (t : WithTop K) ∧
    ∃ x ∈ xs, g.MayMeet pol x ∧ ∃ t0 : K, per x.surf g.ray = (t0 : WithTop K) ∧ dropTol < t0 ∧ t0 < t

theorem sites_append (objs extra : List (Obj σ K E)) : ∃ ys, sites (objs ++ extra) = sites objs ++ ys ∧
    (∀ y ∈ ys, objs.length ≤ y.obj ∧ ∃ o ∈ extra, y.surf ∈ o.surfs) := by
  refine ⟨_, by unfold sites; rw [List.zipIdx_append, List.flatMap_append], ?_⟩
  intro y hy
  obtain ⟨z, hz, hy⟩ := List.mem_flatMap.1 hy
  obtain ⟨u, hu, rfl⟩ := List.mem_map.1 hy
  have h1 := List.mem_zipIdx hz
  have h2 := List.mem_zipIdx hu
  refine ⟨by simpa using h1.1, z.1, ?_, ?_⟩
  · rw [h1.2.2]; exact List.getElem_mem _
  · rw [h2.2.2]; exact List.getElem_mem _

theorem sites_obj_lt {x : Site σ K E} (hx : x ∈ sites objs) : x.obj < objs.length := by
  unfold sites at hx
  obtain ⟨z, hz, hx⟩ := List.mem_flatMap.1 hx
  obtain ⟨u, _, rfl⟩ := List.mem_map.1 hx
  have := List.mem_zipIdx hz
  simpa using this.2.1

theorem goingGeneration_left {k : Nat} : ∀ g ∈ goingGeneration per out pol (sites objs) minE b k,
    ∀ o j, g.left = some (o, j) → o < objs.length := by
  cases k with
  | zero =>
    intro g hg o j hl
    unfold goingGeneration at hg
    obtain ⟨r, _, rfl⟩ := List.mem_map.1 hg
    simp at hl
  | succ k =>
    intro g hg o j hl
    unfold goingGeneration nextGoing at hg
    obtain ⟨p, _, hg⟩ := List.mem_flatMap.1 hg
    unfold Going.children at hg
    obtain ⟨x, hx, hg⟩ := List.mem_flatMap.1 hg
    split at hg
    · obtain ⟨r, _, rfl⟩ := List.mem_map.1 hg
      simp only [Option.some.injEq, Prod.mk.injEq] at hl
      rw [← hl.1]
      exact sites_obj_lt hx
    · simp at hg

theorem setOut_mem {k : Nat} {l : List (Going K E)} {g : Going K E} (hg : g ∈ setOut minE k l) : g ∈ l := by
  unfold setOut at hg
  split at hg
  · exact hg
  · exact (List.mem_filter.1 hg).1

theorem goingCut_unreached {xs ys : List (Site σ K E)} {gs : List (Going K E)}
    (hmay : ∀ g ∈ gs, ∀ y ∈ ys, g.MayMeet pol y) (hu : ∀ g ∈ gs, ∀ y ∈ ys, g.Unreached per pol xs y.surf) :
    goingCut per pol (xs ++ ys) gs = goingCut per pol xs gs := by
  classical
  have hd : (selfTol : K) < dropTol := selfTol_lt_dropTol
  have hiff : (∃ x ∈ xs ++ ys, ∃ g ∈ gs, ¬ g.MayMeet pol x ∨ per x.surf g.ray ≤ ((selfTol : K) : WithTop K)) ↔
      ∃ x ∈ xs, ∃ g ∈ gs, ¬ g.MayMeet pol x ∨ per x.surf g.ray ≤ ((selfTol : K) : WithTop K) := by
    constructor
    · rintro ⟨x, hx, g, hg, hor⟩
      rcases List.mem_append.1 hx with hx | hx
      · exact ⟨x, hx, g, hg, hor⟩
      · exfalso
        rcases hor with hn | hle
        · exact hn (hmay g hg x hx)
        · rcases hu g hg x hx with e | ⟨t, e, x0, _, _, t0, _, h0, h1⟩
          · rw [e] at hle
            exact absurd hle (not_le.2 (WithTop.coe_lt_top _))
          · rw [e] at hle
            have := WithTop.coe_le_coe.1 hle
            exact absurd (hd.trans (h0.trans h1)) (not_lt.2 this)
    · rintro ⟨x, hx, g, hg, hor⟩
      exact ⟨x, List.mem_append_left _ hx, g, hg, hor⟩
  unfold goingCut
  by_cases hp : ∃ x ∈ xs, ∃ g ∈ gs, ¬ g.MayMeet pol x ∨ per x.surf g.ray ≤ ((selfTol : K) : WithTop K)
  · rw [if_pos hp, if_pos (hiff.2 hp)]
  · rw [if_neg hp, if_neg fun h' => hp (hiff.1 h')]

theorem goingCut_le (xs : List (Site σ K E)) (gs : List (Going K E)) : goingCut per pol xs gs ≤ (dropTol : K) := by
  unfold goingCut
  split
  · exact le_refl _
  · exact selfTol_lt_dropTol.le

theorem meets_unreached {xs ys : List (Site σ K E)} {g : Going K E} {c : K} (hc2 : c ≤ dropTol)
    (hu : ∀ y ∈ ys, g.Unreached per pol xs y.surf) (x : Site σ K E) :
    g.Meets c per pol (xs ++ ys) x ↔ g.Meets c per pol xs x := by
  unfold Going.Meets
  constructor
  · rintro ⟨h0, t, h1, h2, h3⟩
    exact ⟨h0, t, h1, h2, fun y hy => h3 y (List.mem_append_left _ hy)⟩
  · rintro ⟨h0, t, h1, h2, h3⟩
    refine ⟨h0, t, h1, h2, fun y hy hm t' ht' hlt => ?_⟩
    rcases List.mem_append.1 hy with hy | hy
    · exact h3 y hy hm t' ht' hlt
    · rcases hu y hy with e | ⟨t1, e, x0, hx0, hm0, t0, e0, h00, h01⟩
      · rw [e] at ht'
        exact absurd ht' (by simp)
      · rw [e] at ht'
        have : t1 = t' := WithTop.coe_injective ht'
        subst this
        exact (h3 x0 hx0 hm0 t0 e0 (lt_of_le_of_lt hc2 h00)).trans h01.le

theorem nextGoing_unreached {xs ys : List (Site σ K E)} {gs : List (Going K E)}
    (hmay : ∀ g ∈ gs, ∀ y ∈ ys, g.MayMeet pol y) (hu : ∀ g ∈ gs, ∀ y ∈ ys, g.Unreached per pol xs y.surf) :
    nextGoing per out pol (xs ++ ys) gs = nextGoing per out pol xs gs := by
  classical
  have hc2 : goingCut per pol xs gs ≤ (dropTol : K) := goingCut_le xs gs
  unfold nextGoing
  rw [goingCut_unreached hmay hu]
  generalize goingCut per pol xs gs = c at hc2
  refine List.flatMap_congr fun g hg => ?_
  unfold Going.children
  have hold := meets_unreached hc2 (hu g hg)
  have hnew : ∀ y ∈ ys, ¬ g.Meets c per pol xs y := by
    rintro y hy ⟨h0, t, h1, h2, h3⟩
    rcases hu g hg y hy with e | ⟨t1, e, x0, hx0, hm0, t0, e0, h00, h01⟩
    · rw [e] at h1
      exact absurd h1 (by simp)
    · rw [e] at h1
      have : t1 = t := WithTop.coe_injective h1
      subst this
      exact absurd h01 (not_lt.2 (h3 x0 hx0 hm0 t0 e0 (lt_of_le_of_lt hc2 h00)))
  rw [List.flatMap_append]
  have e1 : (ys.flatMap fun x => if g.Meets c per pol (xs ++ ys) x then
      (out x.surf g.ray).map fun r => (⟨r, some (x.obj, x.num)⟩ : Going K E) else []) = [] := by
    rw [List.flatMap_eq_nil_iff]
    intro y hy
    exact if_neg fun h => hnew y hy ((hold y).1 h)
  rw [e1, List.append_nil]
  refine List.flatMap_congr fun x _ => ?_
  by_cases h : g.Meets c per pol xs x
  · rw [if_pos h, if_pos ((hold x).2 h)]
  · rw [if_neg h, if_neg fun h' => h ((hold x).1 h')]

/-- The added objects may be met by all rays of the old scene, if no object claims rays. -/
theorem added_mayMeet {extra : List (Obj σ K E)} {ys : List (Site σ K E)}
    (hyo : ∀ y ∈ ys, objs.length ≤ y.obj ∧ ∃ o ∈ extra, y.surf ∈ o.surfs) (hclaim : ∀ o j r, (pol o).claims j r = false) (k : Nat) :
    ∀ g ∈ setOut minE k (goingGeneration per out pol (sites objs) minE b k), ∀ y ∈ ys, g.MayMeet pol y := by
  intro g hg y hy o j hl
  have := goingGeneration_left g (setOut_mem hg) o j hl
  have := (hyo y hy).1
  refine ⟨fun hc => ?_, fun e => ?_⟩
  · rw [hclaim] at hc
    simp at hc
  · omega

/-- ... and its generations are those of the new one. -/
theorem goingGeneration_unreached {extra : List (Obj σ K E)} {ys : List (Site σ K E)}
    (hyo : ∀ y ∈ ys, objs.length ≤ y.obj ∧ ∃ o ∈ extra, y.surf ∈ o.surfs) (hclaim : ∀ o j r, (pol o).claims j r = false)
    (hu : ∀ k < reps, ∀ g ∈ setOut minE k (goingGeneration per out pol (sites objs) minE b k),
      ∀ o ∈ extra, ∀ s ∈ o.surfs, g.Unreached per pol (sites objs) s) :
    ∀ k ≤ reps, goingGeneration per out pol (sites objs ++ ys) minE b k = goingGeneration per out pol (sites objs) minE b k := by
  intro k
  induction k with
  | zero => intro _; rfl
  | succ k ih =>
    intro hk
    change nextGoing _ _ _ _ _ = nextGoing _ _ _ _ _
    rw [ih (by omega)]
    refine nextGoing_unreached (added_mayMeet hyo hclaim k) ?_
    intro g hg y hy
    obtain ⟨o, ho, hs⟩ := (hyo y hy).2
    exact hu k (by omega) g hg o ho y.surf hs

/-- C82, for objects with any per-ray policies that claim no rays: objects added to a scene change nothing if no ray that sets out
in the old scene reaches their surfaces. -/
theorem C82_objects {extra : List (Obj σ K E)} (hdec : AllDecide (objs ++ extra) pol) (hpol : ∀ o, (pol o).Blind)
    (hclaim : ∀ o j r, (pol o).claims j r = false)
    (hper : AllSurfs (fun s => s.PerRay (per s)) (objs ++ extra)) (hpar : AllSurfs Surf.ParentsOk (objs ++ extra))
    (hout : AllSurfs (fun s => s.PerHit (out s)) (objs ++ extra))
    (hb : Blind per out ((objs ++ extra).flatMap Obj.surfs))
    (hu : ∀ k < reps, ∀ g ∈ setOut minE k (goingGeneration per out pol (sites objs) minE b k),
      ∀ o ∈ extra, ∀ s ∈ o.surfs, g.Unreached per pol (sites objs) s)
    (h : rayTracer objs w b reps minE true = .ok res)
    (h' : rayTracer (objs ++ extra) w' b reps minE true = .ok res') (k : Nat) :
    (((res.tree[k]?).getD []).map Ray.strip).Perm (((res'.tree[k]?).getD []).map Ray.strip) := by
  have hsub : ∀ {P : Surf σ K E → Prop}, AllSurfs P (objs ++ extra) → AllSurfs P objs :=
    fun hP o ho => hP o (List.mem_append_left _ ho)
  have hdec0 : AllDecide objs pol := fun o obj ho =>
    hdec o obj (by rw [List.getElem?_append_left (List.getElem?_eq_some_iff.1 ho).1]; exact ho)
  have hb0 : Blind per out (objs.flatMap Obj.surfs) := fun s hs =>
    hb s (by rw [List.flatMap_append]; exact List.mem_append_left _ hs)
  have shape : ∀ {objs : List (Obj σ K E)}, AllDecide objs pol → ∀ o ∈ objs, o.ShapeOk := by
    intro objs hdec o ho
    obtain ⟨n, hn⟩ := List.getElem?_of_mem ho
    exact (hdec n o hn).shapeOk
  rcases Nat.lt_or_ge reps k with hk | hk
  · rw [tree_beyond (shape hdec0) h hk, tree_beyond (shape hdec) h' hk]
  · obtain ⟨ys, hys, hyo⟩ := sites_append objs extra
    have key := goingGeneration_unreached hyo hclaim hu
    rw [← hys] at key
    refine (C84_exact hdec0 hpol (hsub hper) (hsub hpar) (hsub hout) hb0 h hk).trans ?_
    rw [← key k hk]
    exact (C84_exact hdec hpol hper hpar hout hb h' hk).symm

/-! ### The hypotheses are met -/

namespace Examples

/-- A mirror in the plane z = 0 whose rays skip it in the next iteration, as those of the one-sided mirror do. -/
def lowerSkip : Obj Unit ℚ Unit :=
  ⟨[mkSurf flatGM (absorberReflector (1/2)) 1], Obj.defaultOwn, Obj.skipNext 1⟩

/-- A one-sided mirror below, a two-sided one above. -/
def facingSkip : List (Obj Unit ℚ Unit) := [lowerSkip, upper]

theorem facingSkip_plain : ∀ o ∈ facingSkip, o.Plain := by
  intro o ho
  simp only [facingSkip, List.mem_cons, List.not_mem_nil, or_false] at ho
  rcases ho with rfl | rfl
  · exact ⟨rfl, Or.inr rfl⟩
  · exact ⟨rfl, Or.inl rfl⟩

theorem facingSkip_flat : AllSurfs FlatMirror facingSkip := by
  intro o ho
  simp only [facingSkip, List.mem_cons, List.not_mem_nil, or_false] at ho
  rcases ho with rfl | rfl
  · intro s hs
    simp only [lowerSkip, List.mem_cons, List.not_mem_nil, or_false] at hs
    exact ⟨_, _, _, hs, .flat, .oneSided _, by decide +kernel⟩
  · exact upper_flat

end Examples

/-- `C84_flat` speaks of a trace through a one-sided and a two-sided mirror in which rays go back and forth. -/
example : ∃ res, rayTracer Examples.facingSkip () Examples.source 4 (1/5) true = .ok res ∧
    res.tree.map List.length = [2, 2, 1, 1] ∧ ∀ k ≤ 4, (((res.tree[k]?).getD []).map Ray.strip).Perm
      ((goingGeneration Surf.single (Surf.alone ()) (plainPolicy Examples.facingSkip) (sites Examples.facingSkip) (1/5)
        Examples.source k).map fun g => g.ray.strip) := by
  obtain ⟨res, h, hl⟩ := Examples.exists_trace (objs := Examples.facingSkip) (b := Examples.source) (reps := 4) (minE := 1/5)
    (n := [2, 2, 1, 1]) (by decide +kernel)
  exact ⟨res, h, hl, fun k hk => C84_flat Examples.facingSkip_plain Examples.facingSkip_flat h hk⟩

/-- `C81_objects` speaks of the same scene listed the other way round. -/
example : ∃ res res', rayTracer Examples.facingSkip () Examples.source 4 (1/5) true = .ok res ∧
    rayTracer Examples.facingSkip.reverse () Examples.source 4 (1/5) true = .ok res' ∧
    res.tree.map List.length = [2, 2, 1, 1] ∧
    ∀ k : Nat, (((res.tree[k]?).getD []).map Ray.strip).Perm (((res'.tree[k]?).getD []).map Ray.strip) := by
  obtain ⟨res, h, hl⟩ := Examples.exists_trace (objs := Examples.facingSkip) (b := Examples.source) (reps := 4) (minE := 1/5)
    (n := [2, 2, 1, 1]) (by decide +kernel)
  obtain ⟨res', h', _⟩ := Examples.exists_trace (objs := Examples.facingSkip.reverse) (b := Examples.source) (reps := 4)
    (minE := 1/5) (n := [2, 2, 1, 1]) (by decide +kernel)
  have hfl := Examples.facingSkip_flat
  refine ⟨res, res', h, h', hl, C81_objects (per := Surf.single) (out := Surf.alone ()) (pol := plainPolicy Examples.facingSkip)
    (objs' := Examples.facingSkip.reverse) (π := fun o => if o = 0 then 1 else if o = 1 then 0 else o)
    (Obj.Plain.decides Examples.facingSkip_plain) (plainPolicy_blind _)
    (fun o ho s hs => ((hfl o ho s hs).spec ()).1) (fun o ho s hs => ((hfl o ho s hs).spec ()).2.1)
    (fun o ho s hs => ((hfl o ho s hs).spec ()).2.2.1)
    (fun s hs => ((mem_allSurfs hfl hs).spec ()).2.2.2.1) ⟨rfl, ?_, ?_⟩ h h'⟩
  · intro a b hab
    simp only at hab
    split at hab <;> split at hab <;> (try split at hab) <;> (try split at hab) <;> omega
  · intro o obj ho
    rcases o with _ | _ | o
    · exact ho
    · exact ho
    · simp [Examples.facingSkip] at ho

/-- `C14_flat_policies_partial` and `C83_flat_policies` speak of such traces. -/
example : ∃ res res1 res2 res', rayTracer Examples.facingSkip () Examples.source 4 (1/5) true = .ok res ∧
    rayTracer Examples.facingSkip () (Examples.source.take 1) 4 (1/5) true = .ok res1 ∧
    rayTracer Examples.facingSkip () (Examples.source.drop 1) 4 (1/5) true = .ok res2 ∧
    rayTracer Examples.facingSkip () Examples.source 4 (2/5) true = .ok res' ∧
    (∀ k : Nat, (((res.tree[k]?).getD []).map Ray.strip).Perm
      (((res1.tree[k]?).getD [] ++ (res2.tree[k]?).getD []).map Ray.strip)) ∧
    ∀ k : Nat, (((res'.tree[k]?).getD []).map Ray.strip).Subperm (((res.tree[k]?).getD []).map Ray.strip) := by
  obtain ⟨res, h, _⟩ := Examples.exists_trace (objs := Examples.facingSkip) (b := Examples.source) (reps := 4) (minE := 1/5)
    (n := [2, 2, 1, 1]) (by decide +kernel)
  obtain ⟨res1, h1, _⟩ := Examples.exists_trace (objs := Examples.facingSkip) (b := Examples.source.take 1) (reps := 4)
    (minE := 1/5) (n := [1, 1]) (by decide +kernel)
  obtain ⟨res2, h2, _⟩ := Examples.exists_trace (objs := Examples.facingSkip) (b := Examples.source.drop 1) (reps := 4)
    (minE := 1/5) (n := [1, 1, 1, 1]) (by decide +kernel)
  obtain ⟨res', h', _⟩ := Examples.exists_trace (objs := Examples.facingSkip) (b := Examples.source) (reps := 4)
    (minE := 2/5) (n := [2, 2, 1]) (by decide +kernel)
  refine ⟨res, res1, res2, res', h, h1, h2, h', ?_, C83_flat_policies Examples.facingSkip_plain Examples.facingSkip_flat
    (by norm_num) h h'⟩
  refine C14_flat_policies_partial Examples.facingSkip_plain Examples.facingSkip_flat ?_ (by exact h) h1 h2
  have hwin : ((Examples.source.take 1 ++ Examples.source.drop 1).all fun p => (Examples.facingSkip.flatMap Obj.surfs).all fun s =>
      decide (s.single p ≤ ((selfTol : ℚ) : WithTop ℚ)) || decide (((dropTol : ℚ) : WithTop ℚ) < s.single p)) = true := by
    decide +kernel
  intro p hp s hs t ht
  rw [List.all_eq_true] at hwin
  have := hwin p hp
  rw [List.all_eq_true] at this
  have := this s hs
  rw [ht] at this
  simpa [WithTop.coe_le_coe, WithTop.coe_lt_coe] using this

namespace Examples

/-- A one-sided mirror beside the others, which no ray reaches. -/
def aside : Obj Unit ℚ Unit :=
  ⟨[mkSurf (finiteFlatGM (rectOutside 4 4)) (absorberReflector (1/4)) ⟨1, ⟨50, 0, 2⟩⟩], Obj.defaultOwn, Obj.skipNext 1⟩

theorem aside_plain : ∀ o ∈ facingSkip ++ [aside], o.Plain := by
  intro o ho
  rcases List.mem_append.1 ho with ho | ho
  · exact facingSkip_plain o ho
  · rw [List.mem_singleton] at ho
    subst ho
    exact ⟨rfl, Or.inr rfl⟩

theorem aside_flat : AllSurfs FlatMirror (facingSkip ++ [aside]) := by
  intro o ho
  rcases List.mem_append.1 ho with ho | ho
  · exact facingSkip_flat o ho
  · intro s hs
    rw [List.mem_singleton] at ho
    subst ho
    simp only [aside, List.mem_cons, List.not_mem_nil, or_false] at hs
    exact ⟨_, _, _, hs, .rect 4 4 _ (by unfold rectPlateGM; norm_num), .oneSided _, by decide +kernel⟩

/-- An object of both mirrors that claims the rays going up. -/
def claiming : Obj Unit ℚ Unit :=
  ⟨lower.surfs ++ upper.surfs, fun rays _ => rays.map fun r => decide (0 < r.dir.z), fun rays _ => (List.range 2).map fun _ => rays.map fun _ => true⟩

/-- ... and a plate between the mirrors, which the claimed rays pass. -/
def claimingScene : List (Obj Unit ℚ Unit) :=
  [claiming, ⟨[mkSurf (finiteFlatGM (rectOutside 4 4)) (reflective (1/4)) ⟨1, ⟨0, 0, 3/2⟩⟩], Obj.defaultOwn, Obj.defaultNext 1⟩]

def claimingPolicy (o : Nat) : Policy ℚ Unit :=
  if o = 0 then ⟨fun _ r => decide (0 < r.dir.z), fun _ _ _ => true⟩ else Policy.free

theorem claimingScene_flat : AllSurfs FlatMirror claimingScene := by
  intro o ho
  simp only [claimingScene, List.mem_cons, List.not_mem_nil, or_false] at ho
  rcases ho with rfl | rfl
  · intro s hs
    rcases List.mem_append.1 hs with hs | hs
    · exact lower_flat s hs
    · exact upper_flat s hs
  · intro s hs
    simp only [List.mem_cons, List.not_mem_nil, or_false] at hs
    exact ⟨_, _, _, hs, .rect 4 4 _ (by unfold rectPlateGM; norm_num), .mirror _, by decide +kernel⟩

theorem claimingScene_decides : AllDecide claimingScene claimingPolicy := by
  intro o obj ho
  rcases o with _ | _ | o
  · simp only [claimingScene, List.getElem?_cons_zero, Option.some.injEq] at ho
    subst ho
    exact ⟨fun _ _ => rfl, fun _ _ => rfl⟩
  · simp only [claimingScene, List.getElem?_cons_succ, List.getElem?_cons_zero, Option.some.injEq] at ho
    subst ho
    exact (C84_policies _).1
  · simp [claimingScene] at ho

theorem claimingPolicy_blind (o : Nat) : (claimingPolicy o).Blind := by
  unfold claimingPolicy
  split
  · exact fun _ _ => ⟨rfl, fun _ => rfl⟩
  · exact fun _ _ => ⟨rfl, fun _ => rfl⟩

end Examples

/-- `C82_objects` speaks of a scene with an object no ray reaches. -/
example : ∃ res res', rayTracer Examples.facingSkip () Examples.source 4 (1/5) true = .ok res ∧
    rayTracer (Examples.facingSkip ++ [Examples.aside]) () Examples.source 4 (1/5) true = .ok res' ∧
    ∀ k : Nat, (((res.tree[k]?).getD []).map Ray.strip).Perm (((res'.tree[k]?).getD []).map Ray.strip) := by
  obtain ⟨res, h, _⟩ := Examples.exists_trace (objs := Examples.facingSkip) (b := Examples.source) (reps := 4) (minE := 1/5)
    (n := [2, 2, 1, 1]) (by decide +kernel)
  obtain ⟨res', h', _⟩ := Examples.exists_trace (objs := Examples.facingSkip ++ [Examples.aside]) (b := Examples.source)
    (reps := 4) (minE := 1/5) (n := [2, 2, 1, 1]) (by decide +kernel)
  have hfl := Examples.aside_flat
  have hfl0 := Examples.facingSkip_flat
  let pol := plainPolicy (Examples.facingSkip ++ [Examples.aside])
  have hdec : AllDecide (Examples.facingSkip ++ [Examples.aside]) pol := Obj.Plain.decides Examples.aside_plain
  have hdec0 : AllDecide Examples.facingSkip pol := fun o obj ho =>
    hdec o obj (by rw [List.getElem?_append_left (List.getElem?_eq_some_iff.1 ho).1]; exact ho)
  refine ⟨res, res', h, h', C82_objects (per := Surf.single) (out := Surf.alone ()) (pol := pol) hdec (plainPolicy_blind _) ?_
    (fun o ho s hs => ((hfl o ho s hs).spec ()).1) (fun o ho s hs => ((hfl o ho s hs).spec ()).2.1)
    (fun o ho s hs => ((hfl o ho s hs).spec ()).2.2.1)
    (fun s hs => ((mem_allSurfs hfl hs).spec ()).2.2.2.1) ?_ h h'⟩
  · intro o j r
    rcases plainPolicy_cases (Examples.facingSkip ++ [Examples.aside]) o with e | e
    · change (plainPolicy _ o).claims j r = false
      rw [e]; rfl
    · change (plainPolicy _ o).claims j r = false
      rw [e]; rfl
  · have hall : ((rayTracer Examples.facingSkip () Examples.source 4 (1/5) true).toOption.map fun r =>
        r.tree.all fun lvl => lvl.all fun p => Examples.aside.surfs.all fun s => decide (s.single p = ⊤)) = some true := by
      decide +kernel
    rw [h] at hall
    simp only [Except.toOption, Option.map_some, Option.some.injEq, List.all_eq_true, decide_eq_true_eq] at hall
    intro k hk g hg o ho s hs
    rw [List.mem_singleton] at ho
    subst ho
    left
    have hmem := (C84_exact (per := Surf.single) (out := Surf.alone ()) hdec0 (plainPolicy_blind _)
      (fun o ho s hs => ((hfl0 o ho s hs).spec ()).1) (fun o ho s hs => ((hfl0 o ho s hs).spec ()).2.1)
      (fun o ho s hs => ((hfl0 o ho s hs).spec ()).2.2.1)
      (fun s hs => ((mem_allSurfs hfl0 hs).spec ()).2.2.2.1) h (by omega : k ≤ 4)).symm.subset
      (List.mem_map.2 ⟨g, setOut_mem hg, rfl⟩)
    obtain ⟨p, hp, e⟩ := List.mem_map.1 hmem
    have hblind := ((hfl Examples.aside (by simp) s hs).spec ()).2.2.2.1
    rw [← (hblind g.ray).1, ← e, (hblind p).1]
    cases hl : res.tree[k]? with
    | none => rw [hl] at hp; simp at hp
    | some lvl =>
      rw [hl] at hp
      exact hall lvl (List.mem_of_getElem? hl) p hp s hs

/-- `C84_exact` speaks of a scene in which an object claims rays: they pass a plate that they would otherwise hit. -/
example : ∃ res, rayTracer Examples.claimingScene () Examples.source 4 (1/5) true = .ok res ∧
    res.tree.map (fun lvl => lvl.map fun r => r.vertex.z) = [[1, 1], [0, 0], [2], [3/2], [2]] ∧
    ∀ k ≤ 4, (((res.tree[k]?).getD []).map Ray.strip).Perm
      ((goingGeneration Surf.single (Surf.alone ()) Examples.claimingPolicy (sites Examples.claimingScene) (1/5)
        Examples.source k).map fun g => g.ray.strip) := by
  have hfl := Examples.claimingScene_flat
  have hz : ((rayTracer Examples.claimingScene () Examples.source 4 (1/5) true).toOption.map fun r =>
      r.tree.map fun lvl => lvl.map fun r => r.vertex.z) = some [[1, 1], [0, 0], [2], [3/2], [2]] := by
    decide +kernel
  cases hr : rayTracer Examples.claimingScene () Examples.source 4 (1/5) true with
  | error e => rw [hr] at hz; simp [Except.toOption] at hz
  | ok res =>
    rw [hr] at hz
    simp only [Except.toOption, Option.map_some, Option.some.injEq] at hz
    exact ⟨res, rfl, hz, fun k hk => C84_exact Examples.claimingScene_decides Examples.claimingPolicy_blind
      (fun o ho s hs => ((hfl o ho s hs).spec ()).1) (fun o ho s hs => ((hfl o ho s hs).spec ()).2.1)
      (fun o ho s hs => ((hfl o ho s hs).spec ()).2.2.1)
      (fun s hs => ((mem_allSurfs hfl hs).spec ()).2.2.2.1) hr hk⟩

end Tracer
