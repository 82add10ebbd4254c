import Verif.Lemmas.Exact
import Verif.Lemmas.Policy
import Verif.Spec.Going

/-! A trace through objects that decide about rays one by one refines the recursion `goingGeneration`. -/

set_option linter.unusedSectionVars false
set_option linter.unusedSimpArgs false

namespace Tracer

variable {K E σ : Type _}

/-! ### Surfaces and their numbers -/

theorem sites_surf (objs : List (Obj σ K E)) : (sites objs).map Site.surf = objs.flatMap Obj.surfs := by
  have key : ∀ (objs : List (Obj σ K E)) (n : Nat),
      ((objs.zipIdx n).flatMap fun x => x.1.surfs.zipIdx.map fun y => (⟨x.2, y.2, y.1⟩ : Site σ K E)).map Site.surf =
        objs.flatMap Obj.surfs := by
    intro objs
    induction objs with
    | nil => intro n; rfl
    | cons o objs ih =>
      intro n
      rw [List.zipIdx_cons, List.flatMap_cons, List.map_append, ih, List.flatMap_cons]
      congr 1
      rw [List.map_map]
      have : (Site.surf ∘ fun y : Surf σ K E × Nat => (⟨n, y.2, y.1⟩ : Site σ K E)) = Prod.fst := rfl
      rw [this, List.zipIdx_map_fst]
  exact key objs 0

theorem sites_length (objs : List (Obj σ K E)) : (sites objs).length = (objs.flatMap Obj.surfs).length := by
  rw [← sites_surf, List.length_map]

theorem sites_spec {objs : List (Obj σ K E)} {k o before : Nat} (ho : (surfOwnership objs)[k]? = some o)
    (hb : (surfsUntilObj objs)[o]? = some before) {x : Site σ K E} (hx : (sites objs)[k]? = some x) :
    x.obj = o ∧ x.num = k - before := by
  obtain ⟨obj, before', h1, h2, h3, h4, h5⟩ := numbering ho
  rw [hb] at h2
  cases h2
  have hlen : objs.zipIdx.map (fun y => (y.1.surfs.zipIdx.map fun z => (⟨y.2, z.2, z.1⟩ : Site σ K E)).length) =
      surfsPerObj objs := by
    unfold surfsPerObj
    simp only [List.length_map, List.length_zipIdx]
    have : (fun y : Obj σ K E × Nat => y.1.surfs.length) = (fun o : Obj σ K E => o.surfs.length) ∘ Prod.fst := rfl
    rw [this, ← List.map_map, List.zipIdx_map_fst]
  have hbef : before = ((surfsPerObj objs).take o).sum := by
    have hol : o < objs.length := (List.getElem?_eq_some_iff.1 h1).1
    have := accumulate_spec (surfsPerObj objs) 0 o (by simp [surfsPerObj]; omega)
    rw [surfsUntilObj, this] at hb
    simpa using hb.symm
  have hz : objs.zipIdx[o]? = some (obj, o) := by simp [List.getElem?_zipIdx, h1]
  have := flatMap_getElem? (fun y : Obj σ K E × Nat => y.1.surfs.zipIdx.map fun z => (⟨y.2, z.2, z.1⟩ : Site σ K E))
    objs.zipIdx o (k - before) (obj, o) hz (by simpa using h4)
  rw [hlen, ← hbef, show before + (k - before) = k by omega] at this
  change (sites objs)[k]? = _ at this
  rw [hx] at this
  have hs : obj.surfs[k - before]? = some obj.surfs[k - before] := List.getElem?_eq_getElem h4
  simp [List.getElem?_zipIdx, hs] at this
  rw [this]
  exact ⟨rfl, rfl⟩

section
variable [Field K] [LinearOrder K]
variable {b : Bundle K E} {surfs : List (Surf σ K E)} {surfOwn : List Nat}
    {rayOwn : List (Option Nat)} {relev : List (List Bool)}

theorem answer_perRay (h : IShape b.length surfs surfOwn rayOwn relev) {per : Surf σ K E → Ray K E → WithTop K}
    (hper : ∀ s ∈ surfs, s.PerRay (per s)) (k j : Nat) (p : WithTop K) :
    Answer b surfs surfOwn rayOwn relev k j p ↔
      Tested surfOwn rayOwn relev k j ∧ ∃ s r, surfs[k]? = some s ∧ b[j]? = some r ∧ per s r = p := by
  have hb : ∀ (l : List Nat), (∀ j ∈ l, j < b.length) → ∀ i j : Nat, l[i]? = some j →
      (l.filterMap fun j => b[j]?)[i]? = b[j]? := by
    intro l
    induction l with
    | nil => intro _ i j h; simp at h
    | cons a l ih =>
      intro hl i j hi
      have ha : b[a]? = some (b[a]'(hl a (by simp))) := List.getElem?_eq_getElem (hl a (by simp))
      rw [List.filterMap_cons_some ha]
      cases i with
      | zero => simp at hi; subst hi; simp [ha]
      | succ i =>
        simp at hi ⊢
        exact ih (fun j hj => hl j (List.mem_cons_of_mem _ hj)) i j hi
  have hmem : ∀ j, j ∈ testedIdx b.length surfOwn rayOwn relev k ↔ j < b.length ∧ Tested surfOwn rayOwn relev k j := by
    intro j
    simp [testedIdx]
  constructor
  · rintro ⟨s, i, hs, hi, hp⟩
    refine ⟨((hmem j).1 (List.mem_of_getElem? hi)).2, ?_⟩
    rw [hper s (List.mem_of_getElem? hs), List.getElem?_map,
      hb _ (fun j hj => ((hmem j).1 hj).1) i j hi, Option.map_eq_some_iff] at hp
    obtain ⟨r, hr, hp⟩ := hp
    exact ⟨s, r, hs, hr, hp⟩
  · rintro ⟨ht, s, r, hs, hr, rfl⟩
    obtain ⟨i, hi⟩ := List.getElem?_of_mem ((hmem j).2 ⟨(List.getElem?_eq_some_iff.1 hr).1, ht⟩)
    refine ⟨s, i, hs, hi, ?_⟩
    rw [hper s (List.mem_of_getElem? hs), List.getElem?_map,
      hb _ (fun j hj => ((hmem j).1 hj).1) i j hi, hr]
    rfl

end

section
variable [Field K] [LinearOrder K] [IsStrictOrderedRing K]

/-- The rays of a state, each with the surface it left: they are asked as the recursion says. -/
structure Follows (objs : List (Obj σ K E)) (pol : Nat → Policy K E) (st : TraceState σ K E) (gs : List (Going K E)) : Prop where
  rays : gs.map Going.ray = st.bund
  tested : ∀ k x j g, (sites objs)[k]? = some x → gs[j]? = some g →
    (Tested (surfOwnership objs) st.rayOwn st.relev k j ↔ g.MayMeet pol x)

theorem initState_follows (objs : List (Obj σ K E)) (pol : Nat → Policy K E) (b : Bundle K E) (w : σ) :
    Follows objs pol (initState objs b w) (b.map fun r => ⟨r, none⟩) := by
  refine ⟨by simp [initState, Function.comp_def], ?_⟩
  intro k x j g hx hg
  have hk : k < (objs.flatMap Obj.surfs).length := by
    rw [← sites_length]; exact (List.getElem?_eq_some_iff.1 hx).1
  have hj : j < b.length := by simpa using (List.getElem?_eq_some_iff.1 hg).1
  refine iff_of_true ((initState_free objs b w).tested (initState_shape objs b w) hk hj) ?_
  simp only [List.getElem?_map, Option.map_eq_some_iff] at hg
  obtain ⟨r, _, rfl⟩ := hg
  intro o j h
  simp at h

theorem mask_flatMap {α β : Type _} (o f : List Bool) (b : List α) (g : α → List β) (ho : o.length = b.length)
    (hf : f.length = b.length) :
    ((Np.nonzero (Np.mask o f)).flatMap fun j => ((Np.mask o b)[j]?).toList.flatMap g) =
      (f.zip (o.zip b)).flatMap fun x => if x.1 && x.2.1 then g x.2.2 else [] := by
  rw [nonzero_flatMap _ _ _ (by rw [Np.mask_length (ho.trans hf.symm), Np.mask_length ho])]
  induction b generalizing o f with
  | nil =>
    have h1 : o = [] := by simpa using ho
    have h2 : f = [] := by simpa using hf
    subst h1; subst h2
    rfl
  | cons p b ih =>
    cases o with
    | nil => simp at ho
    | cons x o =>
      cases f with
      | nil => simp at hf
      | cons y f =>
        have ih' := ih o f (by simpa using ho) (by simpa using hf)
        cases x <;> cases y <;> simp [Np.mask, ih']

/-- The contributions of the surfaces, each with its surface: what is generated, and the facts of `contribute`. -/
theorem surfLoop_sites {objs : List (Obj σ K E)} {minE : K} {b : Bundle K E}
    {out : Surf σ K E → Ray K E → Bundle K E}
    {xs : List (Site σ K E)} {fronts owneds : List (List Bool)} {w w' : σ} {k : Nat}
    {cs : List (Contribution K E)}
    (h : surfLoop objs minE b w k (xs.map Site.surf) fronts owneds = .ok (cs, w'))
    (hxs : ∀ i x, xs[i]? = some x → (sites objs)[k + i]? = some x)
    (hol : ∀ o ∈ owneds, o.length = b.length) (hfl : ∀ f ∈ fronts, f.length = b.length)
    (hlen : owneds.length = fronts.length)
    (hout : ∀ x ∈ xs, x.surf.PerHit (out x.surf)) :
    ∃ ys : List (Site σ K E × Contribution K E), ys.map Prod.snd = cs ∧
      (∀ y ∈ ys, ∃ k' f o w1 w2, (sites objs)[k']? = some y.1 ∧ ContribFacts objs minE b w1 k' y.1.surf f o y.2 w2) ∧
      (ys.flatMap fun y => y.2.record.map fun r => (⟨r.strip, some (y.1.obj, y.1.num)⟩ : Going K E)).Perm
        ((xs.zip (fronts.zip owneds)).flatMap fun z => (z.2.1.zip (z.2.2.zip b)).flatMap fun y =>
          if y.1 && y.2.1 then (out z.1.surf y.2.2).map fun r => (⟨r.strip, some (z.1.obj, z.1.num)⟩ : Going K E) else []) := by
  induction xs generalizing fronts owneds w k cs with
  | nil =>
    unfold surfLoop at h
    simp only [List.map_nil, Except.ok.injEq, Prod.mk.injEq] at h
    rw [← h.1]
    exact ⟨[], rfl, by simp, by simp⟩
  | cons x xs ih =>
    cases fronts with
    | nil =>
      unfold surfLoop at h
      simp only [List.map_cons, Except.ok.injEq, Prod.mk.injEq] at h
      rw [← h.1]
      exact ⟨[], rfl, by simp, by simp⟩
    | cons f fronts =>
      cases owneds with
      | nil => simp at hlen
      | cons o owneds =>
        rw [List.map_cons] at h
        unfold surfLoop at h
        have hf := hfl f (by simp)
        have ho := hol o (by simp)
        have ih' := fun {w cs} (h : surfLoop objs minE b w (k + 1) (xs.map Site.surf) fronts owneds = .ok (cs, w')) =>
          ih h (fun i y hy => by
              have := hxs (i + 1) y (by simpa using hy)
              rwa [show k + 1 + i = k + (i + 1) by omega])
            (fun o ho => hol o (List.mem_cons_of_mem _ ho)) (fun f hf => hfl f (List.mem_cons_of_mem _ hf))
            (by simpa using hlen) (fun s hs => hout s (List.mem_cons_of_mem _ hs))
        rw [List.zip_cons_cons, List.zip_cons_cons, List.flatMap_cons]
        split at h
        · split at h
          · simp at h
          · rename_i c w1 hc
            split at h
            · simp at h
            · rename_i cs' w2 hcs
              simp only [Except.ok.injEq, Prod.mk.injEq] at h
              obtain ⟨rfl, rfl⟩ := h
              obtain ⟨ys, h1, h2, h3⟩ := ih' hcs
              have hcf := contribute_ok ho hc
              refine ⟨(x, c) :: ys, by simp [h1], ?_, ?_⟩
              · intro y hy
                rcases List.mem_cons.1 hy with rfl | hy
                · exact ⟨k, f, o, w, w1, by simpa using hxs 0 x (by simp), hcf⟩
                · exact h2 y hy
              · rw [List.flatMap_cons]
                refine List.Perm.append ?_ h3
                obtain ⟨raw, hraw, hfix⟩ := hcf.raw
                have e : c.record.map (fun r => (⟨r.strip, some (x.obj, x.num)⟩ : Going K E)) =
                    raw.map (fun r => (⟨r.strip, some (x.obj, x.num)⟩ : Going K E)) := by
                  have := congrArg (List.map fun r : Ray K E => (⟨r, some (x.obj, x.num)⟩ : Going K E)) (strip_fixParents hfix)
                  rw [List.map_map, List.map_map] at this
                  exact this
                change (c.record.map _).Perm _
                rw [e]
                have hp := (hout x (by simp) _ _ _ _ _ hraw).map (fun r : Ray K E => (⟨r.strip, some (x.obj, x.num)⟩ : Going K E))
                refine hp.trans ?_
                rw [← mask_flatMap o f b (fun p => (out x.surf p).map fun r => (⟨r.strip, some (x.obj, x.num)⟩ : Going K E)) ho hf,
                  List.map_flatMap]
                apply List.Perm.of_eq
                congr 1
                funext j
                rw [List.map_flatMap]
                congr 1
                funext p
                rw [List.map_map]
                rfl
        · rename_i hno
          obtain ⟨ys, h1, h2, h3⟩ := ih' h
          refine ⟨ys, h1, h2, ?_⟩
          rw [← mask_flatMap o f b (fun p => (out x.surf p).map fun r => (⟨r.strip, some (x.obj, x.num)⟩ : Going K E)) ho hf]
          have : Np.nonzero (Np.mask o f) = [] := by
            rw [List.eq_nil_iff_forall_not_mem]
            intro j hj
            rw [Np.mem_nonzero] at hj
            apply hno
            rw [List.any_eq_true]
            exact ⟨true, List.mem_of_getElem? hj, rfl⟩
          rw [this, List.flatMap_nil, List.nil_append]
          exact h3

theorem row_flatMap {β : Type _} {P : Going K E → Prop} [DecidablePred P] {H : Ray K E → List β} {gs : List (Going K E)}
    {f o : List Bool} (hf : f.length = gs.length) (ho : o.length = gs.length)
    (hP : ∀ (j : Nat) g, gs[j]? = some g → ((f[j]? = some true ∧ o[j]? = some true) ↔ P g)) :
    ((f.zip (o.zip (gs.map Going.ray))).flatMap fun y => if y.1 && y.2.1 then H y.2.2 else []) =
      gs.flatMap fun g => if P g then H g.ray else [] := by
  induction gs generalizing f o with
  | nil =>
    have h1 : f = [] := by simpa using hf
    subst h1
    rfl
  | cons g gs ih =>
    cases f with
    | nil => simp at hf
    | cons x f =>
      cases o with
      | nil => simp at ho
      | cons y o =>
        have ih' := ih (f := f) (o := o) (by simpa using hf) (by simpa using ho)
          (fun j g' hg => by simpa using hP (j + 1) g' (by simpa using hg))
        have h0 := hP 0 g (by simp)
        simp only [List.getElem?_cons_zero, Option.some.injEq] at h0
        rw [List.map_cons, List.zip_cons_cons, List.zip_cons_cons, List.flatMap_cons, List.flatMap_cons, ih']
        congr 1
        by_cases hp : P g
        · rw [if_pos hp, (h0.2 hp).1, (h0.2 hp).2]
          rfl
        · rw [if_neg hp, if_neg]
          intro hxy
          exact hp (h0.1 (by simpa using hxy))

theorem matrix_flatMap {β : Type _} {P : Site σ K E → Going K E → Prop} [∀ x, DecidablePred (P x)]
    {H : Site σ K E → Ray K E → List β} {gs : List (Going K E)} {xs : List (Site σ K E)}
    {F O : List (List Bool)} (hF : F.length = xs.length) (hO : O.length = xs.length)
    (hf : ∀ f ∈ F, f.length = gs.length) (ho : ∀ o ∈ O, o.length = gs.length)
    (hP : ∀ (k j : Nat) x g, xs[k]? = some x → gs[j]? = some g → ((Marked F k j ∧ Marked O k j) ↔ P x g)) :
    ((xs.zip (F.zip O)).flatMap fun z => (z.2.1.zip (z.2.2.zip (gs.map Going.ray))).flatMap fun y =>
        if y.1 && y.2.1 then H z.1 y.2.2 else []) =
      xs.flatMap fun x => gs.flatMap fun g => if P x g then H x g.ray else [] := by
  induction xs generalizing F O with
  | nil => rfl
  | cons x xs ih =>
    cases F with
    | nil => simp at hF
    | cons f F =>
      cases O with
      | nil => simp at hO
      | cons o O =>
        have ih' := ih (F := F) (O := O) (by simpa using hF) (by simpa using hO)
          (fun f hf' => hf f (List.mem_cons_of_mem _ hf')) (fun o ho' => ho o (List.mem_cons_of_mem _ ho'))
          (fun k j y g hy hg => by simpa [Marked] using hP (k + 1) j y g (by simpa using hy) hg)
        rw [List.zip_cons_cons, List.zip_cons_cons, List.flatMap_cons, List.flatMap_cons, ih']
        congr 1
        refine row_flatMap (H := H x) (hf f (by simp)) (ho o (by simp)) ?_
        intro j g hg
        have := hP 0 j x g (by simp) hg
        simpa [Marked] using this

theorem Follows.threshold {objs : List (Obj σ K E)} {pol : Nat → Policy K E} {st : TraceState σ K E} {gs : List (Going K E)}
    (hs : st.Shape objs) (hF : Follows objs pol st gs)
    {per : Surf σ K E → Ray K E → WithTop K} (hper : ∀ s ∈ objs.flatMap Obj.surfs, s.PerRay (per s)) :
    (threshold st.bund (objs.flatMap Obj.surfs) (surfOwnership objs) st.rayOwn st.relev : K) =
      goingCut per pol (sites objs) gs := by
  unfold Tracer.threshold goingCut
  have hiff : SelfHitPresent st.bund (objs.flatMap Obj.surfs) (surfOwnership objs) st.rayOwn st.relev ↔
      ∃ x ∈ sites objs, ∃ g ∈ gs, ¬ g.MayMeet pol x ∨ per x.surf g.ray ≤ ((selfTol : K) : WithTop K) := by
    have hgl : gs.length = st.bund.length := by rw [← hF.rays, List.length_map]
    unfold SelfHitPresent
    constructor
    · rintro ⟨k, j, hk, hj, hor⟩
      have hx : (sites objs)[k]? = some ((sites objs)[k]'(by rw [sites_length]; exact hk)) := List.getElem?_eq_getElem _
      have hg : gs[j]? = some (gs[j]'(by rw [hgl]; exact hj)) := List.getElem?_eq_getElem _
      generalize (sites objs)[k]'(by rw [sites_length]; exact hk) = x at hx
      generalize gs[j]'(by rw [hgl]; exact hj) = g at hg
      refine ⟨x, List.mem_of_getElem? hx, g, List.mem_of_getElem? hg, ?_⟩
      rcases hor with hn | ⟨p, ha, hp⟩
      · exact Or.inl fun hm => hn ((hF.tested k x j g hx hg).2 hm)
      · obtain ⟨_, s, r, e1, e2, e3⟩ := (answer_perRay hs hper k j p).1 ha
        rw [← sites_surf, List.getElem?_map, hx] at e1
        rw [← hF.rays, List.getElem?_map, hg] at e2
        cases e1
        cases e2
        right
        rw [e3]
        exact hp
    · rintro ⟨x, hx, g, hg, hor⟩
      obtain ⟨k, hk⟩ := List.getElem?_of_mem hx
      obtain ⟨j, hj⟩ := List.getElem?_of_mem hg
      refine ⟨k, j, ?_, ?_, ?_⟩
      · rw [← sites_length]; exact (List.getElem?_eq_some_iff.1 hk).1
      · rw [← hgl]; exact (List.getElem?_eq_some_iff.1 hj).1
      · by_cases ht : Tested (surfOwnership objs) st.rayOwn st.relev k j
        · right
          rcases hor with hn | hp
          · exact absurd ((hF.tested k x j g hk hj).1 ht) hn
          · refine ⟨_, (answer_perRay hs hper k j _).2 ⟨ht, x.surf, g.ray, ?_, ?_, rfl⟩, hp⟩
            · rw [← sites_surf, List.getElem?_map, hk]; rfl
            · rw [← hF.rays, List.getElem?_map, hj]; rfl
        · exact Or.inl ht
  by_cases hp : SelfHitPresent st.bund (objs.flatMap Obj.surfs) (surfOwnership objs) st.rayOwn st.relev
  · rw [if_pos hp, if_pos (hiff.1 hp)]
  · rw [if_neg hp, if_neg fun h => hp (hiff.2 h)]

theorem Obj.Decides.shapeOk {o : Obj σ K E} {p : Policy K E} (h : o.Decides p) : o.ShapeOk := by
  refine ⟨fun rays k => by rw [h.1]; simp, fun rays k => ?_⟩
  rw [h.2]
  refine ⟨by simp, ?_⟩
  intro row hr
  obtain ⟨i, _, rfl⟩ := List.mem_map.1 hr
  simp

/-- The masks of an iteration are those of the relation `Meets`. -/
theorem marked_meets {objs : List (Obj σ K E)} {pol : Nat → Policy K E}
    {st : TraceState σ K E} {gs : List (Going K E)} (hs : st.Shape objs) (hF : Follows objs pol st gs)
    {per : Surf σ K E → Ray K E → WithTop K} (hper : ∀ s ∈ objs.flatMap Obj.surfs, s.PerRay (per s))
    {front owned : List (List Bool)}
    (hint : intersectRay st.bund (objs.flatMap Obj.surfs) (surfOwnership objs) st.rayOwn st.relev = .ok (front, owned))
    (k j : Nat) (x : Site σ K E) (g : Going K E) (hx : (sites objs)[k]? = some x) (hg : gs[j]? = some g) :
    (Marked front k j ∧ Marked owned k j) ↔ g.Meets (goingCut per pol (sites objs) gs) per pol (sites objs) x := by
  obtain ⟨hO, hFr⟩ := intersectRay_ok hint
  have hlen : ∀ s ∈ objs.flatMap Obj.surfs, s.LengthOk := fun s hs rays => by
    rw [hper s hs]; simp
  have hxs : (objs.flatMap Obj.surfs)[k]? = some x.surf := by rw [← sites_surf, List.getElem?_map, hx]; rfl
  have hgb : st.bund[j]? = some g.ray := by rw [← hF.rays, List.getElem?_map, hg]; rfl
  have hans : ∀ (k' : Nat) (y : Site σ K E) (p : WithTop K), (sites objs)[k']? = some y →
      (Answer st.bund (objs.flatMap Obj.surfs) (surfOwnership objs) st.rayOwn st.relev k' j p ↔
        g.MayMeet pol y ∧ per y.surf g.ray = p) := by
    intro k' y p hy
    rw [answer_perRay hs hper, hF.tested k' y j g hy hg]
    have hys : (objs.flatMap Obj.surfs)[k']? = some y.surf := by rw [← sites_surf, List.getElem?_map, hy]; rfl
    constructor
    · rintro ⟨hm, s, r, e1, e2, e3⟩
      rw [hys] at e1; cases e1
      rw [hgb] at e2; cases e2
      exact ⟨hm, e3⟩
    · rintro ⟨hm, e3⟩
      exact ⟨hm, _, _, hys, hgb, e3⟩
  have hown' : Marked owned k j ↔ g.MayMeet pol x := by
    rw [hO, owned_getElem]
    exact hF.tested k x j g hx hg
  rw [hown', hFr, front_iff hs hlen k j, hF.threshold hs hper]
  unfold Going.Meets
  constructor
  · rintro ⟨⟨t, ha, hlt, hmin⟩, hm⟩
    refine ⟨hm, t, ((hans k x t hx).1 ha).2, hlt, ?_⟩
    intro y hy hmy t' ht' hlt'
    obtain ⟨k', hk'⟩ := List.getElem?_of_mem hy
    exact hmin k' t' ((hans k' y t' hk').2 ⟨hmy, ht'⟩) hlt'
  · rintro ⟨hm, t, ht, hlt, hmin⟩
    refine ⟨⟨t, (hans k x t hx).2 ⟨hm, ht⟩, hlt, ?_⟩, hm⟩
    intro k' t' ha hlt'
    have hk' := (answer_lt hs ha).1
    rw [← sites_length] at hk'
    have hy : (sites objs)[k']? = some (sites objs)[k'] := List.getElem?_eq_getElem hk'
    obtain ⟨hmy, ht'⟩ := (hans k' _ t' hy).1 ha
    exact hmin _ (List.mem_of_getElem? hy) hmy t' ht' hlt'

theorem iterate_going {objs : List (Obj σ K E)} {pol : Nat → Policy K E} {minE : K}
    {st st' : TraceState σ K E} {gen rec : Bundle K E} {gs : List (Going K E)} (hs : st.Shape objs)
    (hdec : AllDecide objs pol)
    (hF : Follows objs pol st gs)
    {per : Surf σ K E → Ray K E → WithTop K} {out : Surf σ K E → Ray K E → Bundle K E}
    (hper : ∀ s ∈ objs.flatMap Obj.surfs, s.PerRay (per s))
    (hout : ∀ s ∈ objs.flatMap Obj.surfs, s.PerHit (out s))
    (h : iterate objs (objs.flatMap Obj.surfs) minE st = .ok (st', gen, rec)) :
    ∃ all : List (Going K E), all.map Going.ray = gen ∧
      (all.map Going.strip).Perm ((nextGoing per out pol (sites objs) gs).map Going.strip) ∧
      Follows objs pol st' (all.filter fun g => decide (minE < g.ray.energy)) := by
  classical
  have hobj : ∀ o ∈ objs, o.ShapeOk := by
    intro o ho
    obtain ⟨n, hn⟩ := List.getElem?_of_mem ho
    exact (hdec n o hn).shapeOk
  obtain ⟨⟨front, owned, cs, hint, hcs, hgen, hb, hown, hrel, _⟩, hstrong, _⟩ := iterate_ok hs h
  obtain ⟨hO, hFr⟩ := intersectRay_ok hint
  have hlen : ∀ s ∈ objs.flatMap Obj.surfs, s.LengthOk := fun s hs rays => by
    rw [hper s hs]; simp
  have hgl : gs.length = st.bund.length := by rw [← hF.rays, List.length_map]
  have hol : ∀ o ∈ owned, o.length = st.bund.length := by
    intro o ho
    obtain ⟨k, hk⟩ := List.getElem?_of_mem ho
    rw [hO] at hk
    exact owned_row_length hs hk
  have hfl : ∀ f ∈ front, f.length = st.bund.length := by
    intro f hf
    exact frontMask_row_length (dropSelfHits_row_length (fun row hr => rawStack_row_length hr)) f
      (hFr ▸ hf)
  have hfrontlen : front.length = (objs.flatMap Obj.surfs).length := by
    rw [hFr]
    simp [frontMask, dropSelfHits_length, rawStack, hs.surf_len, hs.relev_len]
  have hownlen : owned.length = front.length := by
    rw [hfrontlen, hO]
    simp [hs.surf_len, hs.relev_len]
  have hcs' := hcs
  rw [← sites_surf] at hcs'
  obtain ⟨ys, hy1, hy2, hy3⟩ := surfLoop_sites hcs' (fun i x hx => by simpa using hx) hol hfl hownlen
    (fun x hx => hout x.surf (by rw [← sites_surf]; exact List.mem_map.2 ⟨x, hx, rfl⟩))
  refine ⟨ys.flatMap fun y => y.2.record.map fun r => (⟨r, some (y.1.obj, y.1.num)⟩ : Going K E), ?_, ?_, ?_⟩
  · rw [hgen, ← hy1, List.map_flatMap, List.flatMap_map]
    refine List.flatMap_congr fun y _ => ?_
    rw [List.map_map]
    exact List.map_id _
  · rw [List.map_flatMap]
    have e : (ys.flatMap fun y => (y.2.record.map fun r => (⟨r, some (y.1.obj, y.1.num)⟩ : Going K E)).map Going.strip) =
        ys.flatMap fun y => y.2.record.map fun r => (⟨r.strip, some (y.1.obj, y.1.num)⟩ : Going K E) := by
      refine List.flatMap_congr fun y _ => ?_
      rw [List.map_map]
      rfl
    rw [e]
    refine hy3.trans ?_
    rw [← hF.rays]
    rw [matrix_flatMap (P := fun x g => g.Meets (goingCut per pol (sites objs) gs) per pol (sites objs) x)
      (H := fun x p => (out x.surf p).map fun r => (⟨r.strip, some (x.obj, x.num)⟩ : Going K E))
      (by rw [hfrontlen, sites_length]) (by rw [hownlen, hfrontlen, sites_length])
      (fun f hf => (hfl f hf).trans hgl.symm) (fun o ho => (hol o ho).trans hgl.symm)]
    · refine (flatMap_swap _ _ _).trans (List.Perm.of_eq ?_)
      unfold nextGoing
      rw [List.map_flatMap]
      refine List.flatMap_congr fun g _ => ?_
      unfold Going.children
      rw [List.map_flatMap]
      refine List.flatMap_congr fun x _ => ?_
      split
      · rw [List.map_map]
        rfl
      · rfl
    · exact marked_meets hs hF hper hint
  · have hfil : (ys.flatMap fun y => y.2.record.map fun r => (⟨r, some (y.1.obj, y.1.num)⟩ : Going K E)).filter
        (fun g => decide (minE < g.ray.energy)) =
        ys.flatMap fun y => y.2.outg.map fun r => (⟨r, some (y.1.obj, y.1.num)⟩ : Going K E) := by
      symm
      refine flatMap_filter_eq _ _ _ _ ?_
      intro y hy
      obtain ⟨_, _, _, _, _, _, hcf⟩ := hy2 y hy
      rw [hcf.outg, List.filter_map]
      rfl
    rw [hfil]
    refine ⟨?_, ?_⟩
    · rw [hb, ← hy1, List.map_flatMap, List.flatMap_map]
      refine List.flatMap_congr fun y _ => ?_
      rw [List.map_map]
      exact List.map_id _
    · intro k' x' j g hx' hg
      obtain ⟨y, hy, i, hi, hidx⟩ := flatMap_index hg
      rw [List.getElem?_map, Option.map_eq_some_iff] at hi
      obtain ⟨r, hr, rfl⟩ := hi
      obtain ⟨k, f, ow, w1, w2, hk, hcf⟩ := hy2 y hy
      have hil : i < y.2.outg.length := (List.getElem?_eq_some_iff.1 hr).1
      have hsh : ∀ y ∈ ys, y.2.own.length = y.2.outg.length ∧ y.2.relev.length = (objs.flatMap Obj.surfs).length ∧
          ∀ row ∈ y.2.relev, row.length = y.2.outg.length := by
        intro y hy
        obtain ⟨_, _, _, _, _, _, hcf⟩ := hy2 y hy
        exact contrib_shape hobj hcf
      obtain ⟨o, obj, before, p1, p2, p3, _, _⟩ := hcf.policy
      have hkl : k' < (objs.flatMap Obj.surfs).length := by
        rw [← sites_length]; exact (List.getElem?_eq_some_iff.1 hx').1
      obtain ⟨o', hk'⟩ := surfOwnership_some hkl
      have hown1 : st'.rayOwn[j]? = y.2.own[i]? := by
        rw [hown, ← hy1, List.flatMap_map]
        refine hidx (fun y => y.2.own) (fun y hy => ?_)
        rw [List.length_map]
        exact (hsh y hy).1
      have hrow : st'.relev[k']? = some (ys.flatMap fun y => (y.2.relev[k']?).getD []) := by
        rw [hrel, hstackRows_getElem? (by
          intro bl hbl
          obtain ⟨c, hc, rfl⟩ := List.mem_map.1 hbl
          rw [← hy1] at hc
          obtain ⟨y, hy, rfl⟩ := List.mem_map.1 hc
          exact (hsh y hy).2.1) hkl, ← hy1, List.map_map, List.flatMap_map]
        rfl
      have hrow2 : (ys.flatMap fun y => (y.2.relev[k']?).getD [])[j]? = ((y.2.relev[k']?).getD [])[i]? := by
        refine hidx (fun y => (y.2.relev[k']?).getD []) ?_
        intro y hy
        have hkc : k' < y.2.relev.length := by rw [(hsh y hy).2.1]; exact hkl
        rw [List.getElem?_eq_getElem hkc, List.length_map]
        exact (hsh y hy).2.2 _ (List.getElem_mem hkc)
      rw [contrib_tested hobj hcf p1 p2 p3 hil hown1 hrow hrow2 hk']
      obtain ⟨e1, e2⟩ := sites_spec p1 p3 hk
      have hd := hdec o obj p2
      rw [hd.1, hd.2]
      have hown2 : (y.2.outg.map ((pol o).claims (k - before)))[i]? = some ((pol o).claims (k - before) r) := by
        rw [List.getElem?_map, hr]; rfl
      rw [hown2]
      obtain ⟨obj', before', n1, n2, n3, n4, _⟩ := numbering hk'
      obtain ⟨e3, e4⟩ := sites_spec hk' n2 hx'
      unfold Going.MayMeet
      simp only [Option.some.injEq, Prod.mk.injEq]
      constructor
      · rintro ⟨hc, hn⟩ o2 j2 ⟨rfl, rfl⟩
        rw [e1, e2, e3, e4]
        refine ⟨hc, ?_⟩
        intro hoo
        subst hoo
        rw [p2] at n1; cases n1
        rw [p3] at n2; cases n2
        obtain ⟨row, hrw, ht⟩ := hn rfl
        rw [List.getElem?_map, List.getElem?_range n4, Option.map_some] at hrw
        cases hrw
        rw [List.getElem?_map, hr] at ht
        simpa using ht
      · intro hm
        obtain ⟨hc, hn⟩ := hm _ _ ⟨rfl, rfl⟩
        rw [e1, e2, e3] at hc
        rw [e1, e2, e3, e4] at hn
        refine ⟨hc, ?_⟩
        intro hoo
        subst hoo
        rw [p2] at n1; cases n1
        rw [p3] at n2; cases n2
        refine ⟨_, by rw [List.getElem?_map, List.getElem?_range n4, Option.map_some], ?_⟩
        rw [List.getElem?_map, hr]
        simpa using hn rfl

/-! ### Parent indices and order do not matter to the recursion -/

section
variable {per : Surf σ K E → Ray K E → WithTop K} {out : Surf σ K E → Ray K E → Bundle K E}
  {pol : Nat → Policy K E} {xs : List (Site σ K E)}

theorem mayMeet_strip (hpol : ∀ o, (pol o).Blind) (g : Going K E) (x : Site σ K E) :
    g.strip.MayMeet pol x ↔ g.MayMeet pol x := by
  unfold Going.MayMeet Going.strip
  refine forall_congr' fun o => forall_congr' fun j => ?_
  simp only
  rw [(hpol o j g.ray).1, (hpol o j g.ray).2]

theorem goingCut_perm (hb : Blind per out (xs.map Site.surf)) (hpol : ∀ o, (pol o).Blind) {l l' : List (Going K E)}
    (h : (l.map Going.strip).Perm (l'.map Going.strip)) : goingCut per pol xs l = goingCut per pol xs l' := by
  have key : ∀ {l l' : List (Going K E)}, (l.map Going.strip).Perm (l'.map Going.strip) →
      (∃ x ∈ xs, ∃ g ∈ l, ¬ g.MayMeet pol x ∨ per x.surf g.ray ≤ ((selfTol : K) : WithTop K)) →
      ∃ x ∈ xs, ∃ g ∈ l', ¬ g.MayMeet pol x ∨ per x.surf g.ray ≤ ((selfTol : K) : WithTop K) := by
    rintro l l' h ⟨x, hx, g, hg, hor⟩
    obtain ⟨g', hg', e⟩ := List.mem_map.1 (h.subset (List.mem_map.2 ⟨g, hg, rfl⟩))
    refine ⟨x, hx, g', hg', ?_⟩
    have hxs : x.surf ∈ xs.map Site.surf := List.mem_map.2 ⟨x, hx, rfl⟩
    have er : g'.ray.strip = g.ray.strip := congrArg Going.ray e
    rw [← mayMeet_strip hpol g', e, mayMeet_strip hpol g, ← (hb _ hxs g'.ray).1, er, (hb _ hxs g.ray).1]
    exact hor
  unfold goingCut
  by_cases hp : ∃ x ∈ xs, ∃ g ∈ l, ¬ g.MayMeet pol x ∨ per x.surf g.ray ≤ ((selfTol : K) : WithTop K)
  · rw [if_pos hp, if_pos (key h hp)]
  · rw [if_neg hp, if_neg fun h' => hp (key h.symm h')]

theorem meets_strip (hb : Blind per out (xs.map Site.surf)) (hpol : ∀ o, (pol o).Blind) (c : K) (g : Going K E)
    {x : Site σ K E} (hx : x ∈ xs) : g.strip.Meets c per pol xs x ↔ g.Meets c per pol xs x := by
  have hp : ∀ y ∈ xs, per y.surf g.strip.ray = per y.surf g.ray := fun y hy =>
    (hb _ (List.mem_map.2 ⟨y, hy, rfl⟩) g.ray).1
  unfold Going.Meets
  rw [mayMeet_strip hpol, hp x hx]
  constructor
  · rintro ⟨h0, t, h1, h2, h3⟩
    refine ⟨h0, t, h1, h2, fun y hy hm t' ht' => h3 y hy ((mayMeet_strip hpol g y).2 hm) t' ?_⟩
    rw [hp y hy]; exact ht'
  · rintro ⟨h0, t, h1, h2, h3⟩
    refine ⟨h0, t, h1, h2, fun y hy hm t' ht' => h3 y hy ((mayMeet_strip hpol g y).1 hm) t' ?_⟩
    rw [← hp y hy]; exact ht'

theorem goingChildren_strip (hb : Blind per out (xs.map Site.surf)) (hpol : ∀ o, (pol o).Blind) (c : K) (g : Going K E) :
    ((g.strip.children c per out pol xs).map Going.strip).Perm ((g.children c per out pol xs).map Going.strip) := by
  unfold Going.children
  rw [List.map_flatMap, List.map_flatMap]
  refine List.Perm.flatMap_left _ ?_
  intro x hx
  by_cases h : g.Meets c per pol xs x
  · rw [if_pos h, if_pos ((meets_strip hb hpol c g hx).2 h), List.map_map, List.map_map]
    have := ((hb _ (List.mem_map.2 ⟨x, hx, rfl⟩) g.ray).2).map fun r => (⟨r, some (x.obj, x.num)⟩ : Going K E)
    rw [List.map_map, List.map_map] at this
    exact this
  · rw [if_neg h, if_neg (fun h' => h ((meets_strip hb hpol c g hx).1 h'))]

theorem nextGoing_perm (hb : Blind per out (xs.map Site.surf)) (hpol : ∀ o, (pol o).Blind) {l l' : List (Going K E)}
    (h : (l.map Going.strip).Perm (l'.map Going.strip)) :
    ((nextGoing per out pol xs l).map Going.strip).Perm ((nextGoing per out pol xs l').map Going.strip) := by
  unfold nextGoing
  rw [goingCut_perm hb hpol h]
  generalize goingCut per pol xs l' = c
  have hf : ∀ l : List (Going K E), ((l.flatMap (Going.children c per out pol xs)).map Going.strip).Perm
      ((l.map Going.strip).flatMap fun g => (g.children c per out pol xs).map Going.strip) := by
    intro l
    rw [List.map_flatMap, List.flatMap_map]
    exact List.Perm.flatMap_left _ fun g _ => (goingChildren_strip hb hpol c g).symm
  exact ((hf l).trans (h.flatMap_right _)).trans (hf l').symm

theorem setOut_strip (minE : K) (k : Nat) (l : List (Going K E)) :
    (setOut minE k l).map Going.strip = setOut minE k (l.map Going.strip) := by
  unfold setOut
  split
  · rfl
  · rw [List.filter_map]
    rfl

theorem setOut_perm (minE : K) (k : Nat) {l l' : List (Going K E)}
    (h : (l.map Going.strip).Perm (l'.map Going.strip)) :
    ((setOut minE k l).map Going.strip).Perm ((setOut minE k l').map Going.strip) := by
  rw [setOut_strip, setOut_strip]
  unfold setOut
  split
  · exact h
  · exact h.filter _

end

/-- The rays a run has arrived at are those of the recursion that set out again. -/
theorem Run.follows {objs : List (Obj σ K E)} {pol : Nat → Policy K E} {minE : K}
    {per : Surf σ K E → Ray K E → WithTop K} {out : Surf σ K E → Ray K E → Bundle K E}
    (hdec : AllDecide objs pol) (hpol : ∀ o, (pol o).Blind)
    (hper : ∀ s ∈ objs.flatMap Obj.surfs, s.PerRay (per s))
    (hout : ∀ s ∈ objs.flatMap Obj.surfs, s.PerHit (out s)) (hb : Blind per out (objs.flatMap Obj.surfs))
    {b : Bundle K E} {st st' : TraceState σ K E} {steps} (h : Run objs minE st steps st') (hs : st.Shape objs)
    {gs : List (Going K E)} (hF : Follows objs pol st gs) {m : Nat}
    (hgs : (gs.map Going.strip).Perm ((setOut minE m (goingGeneration per out pol (sites objs) minE b m)).map Going.strip)) :
    ∃ gs', Follows objs pol st' gs' ∧ (gs'.map Going.strip).Perm
      ((setOut minE (m + steps.length) (goingGeneration per out pol (sites objs) minE b (m + steps.length))).map Going.strip) := by
  have hobj : ∀ o ∈ objs, o.ShapeOk := by
    intro o ho
    obtain ⟨n, hn⟩ := List.getElem?_of_mem ho
    exact (hdec n o hn).shapeOk
  induction h generalizing gs m with
  | nil st => exact ⟨gs, hF, hgs⟩
  | cons hi hr ih =>
    rename_i st st1 st2 gen rec steps
    obtain ⟨all, _, h2, h3⟩ := iterate_going hs hdec hF hper hout hi
    have hstep : ((all.filter fun g => decide (minE < g.ray.energy)).map Going.strip).Perm
        ((setOut minE (m + 1) (goingGeneration per out pol (sites objs) minE b (m + 1))).map Going.strip) := by
      have e : (all.filter fun g => decide (minE < g.ray.energy)) = setOut minE (m + 1) all := by
        unfold setOut
        rw [if_neg (by omega)]
      rw [e]
      refine setOut_perm minE (m + 1) (h2.trans ?_)
      exact nextGoing_perm (by rw [sites_surf]; exact hb) hpol hgs
    obtain ⟨gs', h4, h5⟩ := ih (iterate_shape hobj hs hi) h3 hstep
    refine ⟨gs', h4, ?_⟩
    rw [List.length_cons, show m + (steps.length + 1) = m + 1 + steps.length by omega]
    exact h5

/-- Every recorded bundle is the generation of the recursion, up to order and parent indices. -/
theorem tree_going {objs : List (Obj σ K E)} {pol : Nat → Policy K E} {minE : K}
    {per : Surf σ K E → Ray K E → WithTop K} {out : Surf σ K E → Ray K E → Bundle K E}
    (hdec : AllDecide objs pol) (hpol : ∀ o, (pol o).Blind)
    (hper : AllSurfs (fun s => s.PerRay (per s)) objs) (hpar : AllSurfs Surf.ParentsOk objs)
    (hout : AllSurfs (fun s => s.PerHit (out s)) objs) (hb : Blind per out (objs.flatMap Obj.surfs))
    {w : σ} {b : Bundle K E} {reps : Nat} {res : TraceResult σ K E}
    (h : rayTracer objs w b reps minE true = .ok res) {k : Nat} (hk : k ≤ reps) :
    (((res.tree[k]?).getD []).map Ray.strip).Perm
      ((goingGeneration per out pol (sites objs) minE b k).map fun g => g.ray.strip) := by
  have hobj : ∀ o ∈ objs, o.ShapeOk := by
    intro o ho
    obtain ⟨n, hn⟩ := List.getElem?_of_mem ho
    exact (hdec n o hn).shapeOk
  have hprop : ∀ (k : Nat) (lvl : Bundle K E) (gs : List (Going K E)),
      (lvl.map Ray.strip).Perm (gs.map fun g => g.ray.strip) → propagated minE k lvl = [] → setOut minE k gs = [] := by
    intro k lvl gs hp he
    unfold propagated at he
    unfold setOut
    by_cases hk0 : k = 0
    · rw [if_pos hk0] at he ⊢
      rw [he] at hp
      have := hp.nil_eq
      simpa using this.symm
    · rw [if_neg hk0] at he ⊢
      rw [List.filter_eq_nil_iff] at he ⊢
      intro g hg
      obtain ⟨r, hr, e⟩ := List.mem_map.1 (hp.symm.subset (List.mem_map.2 ⟨g, hg, rfl⟩))
      have hen : g.ray.energy = r.energy := by
        have : g.ray.strip.energy = r.strip.energy := by rw [e]
        exact this
      have := he r hr
      rw [hen]
      exact this
  induction k with
  | zero =>
    rw [tree_zero hobj h, Option.getD_some]
    unfold goingGeneration
    rw [List.map_map]
    exact List.Perm.refl _
  | succ k ih =>
    have ih := ih (by omega)
    have hnil : nextGoing per out pol (sites objs) [] = [] := rfl
    have hG : goingGeneration per out pol (sites objs) minE b (k + 1) =
        nextGoing per out pol (sites objs) (setOut minE k (goingGeneration per out pol (sites objs) minE b k)) := rfl
    rw [hG]
    cases hprev : res.tree[k]? with
    | none =>
      have hnone : res.tree[k + 1]? = none := by
        rw [List.getElem?_eq_none_iff] at hprev ⊢
        omega
      rw [hprev] at ih
      rw [hnone, hprop k [] _ ih (by unfold propagated; split <;> rfl), hnil]
      exact List.Perm.refl _
    | some prev =>
      rw [hprev, Option.getD_some] at ih
      by_cases hpr : propagated minE k prev = []
      · rw [hprop k prev _ ih hpr, hnil]
        by_cases hk0 : k = 0
        · subst hk0
          obtain ⟨st, st', gen, rec, steps, weak, hrun, hl, hsh, hbu, _, hi, hnext, _⟩ :=
            tree_step hobj h hprev (by omega) (Or.inl rfl)
          have hgen : gen = [] := by
            rw [List.eq_nil_iff_forall_not_mem]
            intro r hr
            have hlen : AllSurfs Surf.LengthOk objs := fun o ho s hs rays => by
              rw [hper o ho s hs]; simp
            obtain ⟨_, _, p, hc⟩ := generated_child hsh hlen hpar hi hr
            have := hc.parent
            rw [hbu, hpr] at this
            simp at this
          rw [hnext, if_pos hgen]
          exact List.Perm.refl _
        · have hlen := C11_stops hobj h (k := k - 1) (lvl := prev)
            (by rw [show k - 1 + 1 = k by omega]; exact hprev) (by
              intro r hr
              unfold propagated at hpr
              rw [if_neg hk0, List.filter_eq_nil_iff] at hpr
              simpa using hpr r hr)
          have : res.tree[k + 1]? = none := by
            rw [List.getElem?_eq_none_iff]
            omega
          rw [this]
          exact List.Perm.refl _
      · obtain ⟨st, st', gen, rec, steps, weak, hrun, hl, hsh, hbu, _, hi, hnext, _⟩ :=
          tree_step hobj h hprev (by omega) (Or.inr hpr)
        obtain ⟨gs, hF, hgs⟩ := hrun.follows (per := per) (out := out) (b := b) hdec hpol (fun s hs => mem_allSurfs hper hs)
          (fun s hs => mem_allSurfs hout hs) hb (initState_shape objs b w) (initState_follows objs pol b w) (m := 0)
          (List.Perm.refl _)
        rw [Nat.zero_add, hl] at hgs
        obtain ⟨all, h1, h2, _⟩ := iterate_going hsh hdec hF (fun s hs => mem_allSurfs hper hs)
          (fun s hs => mem_allSurfs hout hs) hi
        have hnext' : ((res.tree[k + 1]?).getD []).Perm gen := by
          rw [hnext]
          split
          · rename_i hg
            rw [hg]
            exact List.Perm.refl _
          · exact recorded_perm hsh hi
        refine (hnext'.map _).trans ?_
        have h3 := (h2.trans (nextGoing_perm (by rw [sites_surf]; exact hb) hpol hgs)).map Going.ray
        rw [List.map_map, List.map_map] at h3
        rw [← h1, List.map_map]
        exact h3

end
end Tracer
