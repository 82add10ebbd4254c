import Verif.Lemmas.Saving
import Verif.Props.Resume
import Verif.Props.Going
import Verif.Props.Specular
import Verif.Props.Relabel

/-!
# Policies of objects that only save work (C109)

The one-sided mirror and receiver leave their own surfaces out of the next iteration
(models/one_sided_mirror.py:13-28).  This changes nothing: the trace is the one of the same scene with default policies, ray by ray
and number by number, with the same memory of the receivers and the same exceptions.
-/

set_option linter.unusedSectionVars false

namespace Tracer

section
variable {K E σ : Type _} [Field K] [LinearOrder K] [IsStrictOrderedRing K]
  {objs : List (Obj σ K E)} {minE : K} {per : Surf σ K E → Ray K E → WithTop K}
  {out : Surf σ K E → Ray K E → Bundle K E} {pol : Nat → Policy K E}

theorem Follows.saves {st : TraceState σ K E} {gs : List (Going K E)} (hF : Follows objs pol st gs)
    (hg : ∀ g ∈ gs, ∀ y ∈ sites objs, ¬ g.MayMeet pol y → Spared per (sites objs) y g.ray) : Saves objs per st := by
  intro k j s r hk hj hn
  rw [← sites_surf, List.getElem?_map, Option.map_eq_some_iff] at hk
  obtain ⟨y, hy, rfl⟩ := hk
  rw [← hF.rays, List.getElem?_map, Option.map_eq_some_iff] at hj
  obtain ⟨g, hgj, rfl⟩ := hj
  obtain ⟨h1, z, hz, h2⟩ := hg g (List.mem_of_getElem? hgj) y (List.mem_of_getElem? hy)
    fun hm => hn ((hF.tested k y j g hy hgj).2 hm)
  exact ⟨h1, z.surf, by rw [← sites_surf]; exact List.mem_map.2 ⟨z, hz, rfl⟩, h2⟩

theorem traceLoop_asked (hdec : AllDecide objs pol) (hpol : ∀ o, (pol o).Blind)
    (hper : ∀ s ∈ objs.flatMap Obj.surfs, s.PerRay (per s)) (hout : ∀ s ∈ objs.flatMap Obj.surfs, s.PerHit (out s))
    (hb : Blind per out (objs.flatMap Obj.surfs)) (hsurf : ∀ s ∈ objs.flatMap Obj.surfs, s.NumberBlind ∧ s.ParentsOk)
    (hsave : OnlySave per out pol (sites objs) minE) {keep : Bool} {n : Nat} {st : TraceState σ K E} {gs : List (Going K E)}
    {tree : List (Bundle K E)} {last : Option (Bundle K E)} (hs : st.Shape objs) (hF : Follows objs pol st gs)
    (hg : ∀ g ∈ gs, ∀ y ∈ sites objs, ¬ g.MayMeet pol y → Spared per (sites objs) y g.ray) :
    (∃ e, traceLoop objs (objs.flatMap Obj.surfs) minE keep n st tree last = .error e ∧
      traceLoop (objs.map Obj.asked) (objs.flatMap Obj.surfs) minE keep n (initState (objs.map Obj.asked) st.bund st.world)
        tree last = .error e) ∨
    ∃ st1 st2 tree' last', traceLoop objs (objs.flatMap Obj.surfs) minE keep n st tree last = .ok (st1, tree', last') ∧
      traceLoop (objs.map Obj.asked) (objs.flatMap Obj.surfs) minE keep n (initState (objs.map Obj.asked) st.bund st.world)
        tree last = .ok (st2, tree', last') ∧ st2.bund = st1.bund ∧ st2.world = st1.world := by
  have hobj : ∀ o ∈ objs, o.ShapeOk := by
    intro o ho
    obtain ⟨n, hn⟩ := List.getElem?_of_mem ho
    exact (hdec n o hn).shapeOk
  induction n generalizing st gs tree last with
  | zero => exact Or.inr ⟨st, _, tree, last, rfl, rfl, rfl, rfl⟩
  | succ n ih =>
    simp only [traceLoop]
    rcases (hF.saves hg).iterate hs hper hsurf minE with ⟨e, h1, h2⟩ | ⟨st1, st2, gen, rec, h1, h2, h3, h4⟩
    · rw [h1, h2]
      exact Or.inl ⟨e, rfl, rfl⟩
    · rw [h1, h2]
      simp only [h3]
      split
      · exact Or.inr ⟨_, _, _, _, rfl, rfl, h3, h4⟩
      · have hinit : st2 = initState (objs.map Obj.asked) st1.bund st1.world := by
          have hsh := initState_shape (objs.map Obj.asked) st.bund st.world
          rw [← asked_surfs] at h2
          have := free_init (iterate_shape (fun o ho => (asked_default objs o ho).shapeOk) hsh h2)
            (iterate_free (asked_default objs) hsh h2)
          rw [h3, h4] at this
          exact this
        rw [hinit]
        obtain ⟨all, _, hperm, hF1⟩ := iterate_going hs hdec hF hper hout h1
        refine ih (iterate_shape hobj hs h1) hF1 fun g hgm y hy hnm => ?_
        obtain ⟨hga, hstrong⟩ := List.mem_filter.1 hgm
        obtain ⟨g0, hg0, e⟩ := List.mem_map.1 (hperm.subset (List.mem_map.2 ⟨g, hga, rfl⟩))
        obtain ⟨g', _, hch⟩ := List.mem_flatMap.1 hg0
        obtain ⟨x, hx, hgx⟩ := List.mem_flatMap.1 hch
        split at hgx
        · rename_i hmeet
          obtain ⟨q, hq, rfl⟩ := List.mem_map.1 hgx
          obtain ⟨_, t, ht, _⟩ := hmeet
          have er : q.strip = g.ray.strip := congrArg Going.ray e
          have hpe : ∀ z ∈ sites objs, per z.surf g.ray = per z.surf q := fun z hz => by
            have hz' : z.surf ∈ objs.flatMap Obj.surfs := by rw [← sites_surf]; exact List.mem_map.2 ⟨z, hz, rfl⟩
            rw [← (hb _ hz' g.ray).1, ← er, (hb _ hz' q).1]
          have hen : g.ray.energy = q.energy := by
            have := congrArg Ray.energy er
            exact this.symm
          obtain ⟨s1, z, hz, s2⟩ := hsave x hx g'.ray (by rw [ht]; exact WithTop.coe_ne_top) q hq
            (by rw [← hen]; simpa using hstrong) y hy
            (by rw [← mayMeet_strip hpol, e, mayMeet_strip hpol]; exact hnm)
          exact ⟨by rw [hpe y hy]; exact s1, z, hz, by rw [hpe z hz]; exact s2⟩
        · simp at hgx

/-- C109: if the objects' policies only save work, the trace is that of the same scene with default policies: the same bundles with
the same parents, the same returned arrays, the same state of the optics managers, or the same exception. -/
theorem C109_saving (hdec : AllDecide objs pol) (hpol : ∀ o, (pol o).Blind) (hper : AllSurfs (fun s => s.PerRay (per s)) objs)
    (hout : AllSurfs (fun s => s.PerHit (out s)) objs) (hb : Blind per out (objs.flatMap Obj.surfs))
    (hnum : AllSurfs Surf.NumberBlind objs) (hpar : AllSurfs Surf.ParentsOk objs) (hsave : OnlySave per out pol (sites objs) minE)
    (w : σ) (b : Bundle K E) (reps : Nat) (keep : Bool) :
    rayTracer objs w b reps minE keep = rayTracer (objs.map Obj.asked) w b reps minE keep := by
  unfold rayTracer getSurfaces
  by_cases hne : objs = []
  · simp [hne]
  · have h1 : objs.isEmpty = false := by simpa using hne
    have h2 : (objs.map Obj.asked).isEmpty = false := by simpa using hne
    simp only [h1, h2, Bool.false_eq_true, if_false, asked_surfs]
    rcases traceLoop_asked hdec hpol (fun s hs => mem_allSurfs hper hs) (fun s hs => mem_allSurfs hout hs) hb
        (fun s hs => ⟨mem_allSurfs hnum hs, mem_allSurfs hpar hs⟩) hsave (keep := keep) (n := reps)
        (tree := if keep then [b] else []) (last := none) (initState_shape objs b w) (initState_follows objs pol b w) (by
          intro g hg y hy hn
          obtain ⟨r, _, rfl⟩ := List.mem_map.1 hg
          exact absurd (fun o j h => by simp at h) hn) with ⟨e, g1, g2⟩ | ⟨st1, st2, tree, last, g1, g2, g3, g4⟩
    · rw [g1]
      erw [g2]
    · rw [g1]
      erw [g2]
      simp only [g3, g4]

end

/-! ## The surfaces of the package -/

section
variable {K E σ : Type _} [Field K] [LinearOrder K] [IsStrictOrderedRing K]

theorem hitRecs_names {g : Geometry K E} {p} (hg : g.PerRay p) (frame : Tf K) {rays rays' : Bundle K E} {sel : List Nat}
    {f : Nat → Nat} (h : ∀ i ∈ sel, rays'[i]? = rays[f i]?) :
    hitRecs g frame rays (sel.map f) =
      (hitRecs g frame rays' sel).map (List.map fun q => { q with idx := f q.idx }) := by
  induction sel with
  | nil => rfl
  | cons i sel ih =>
    have hi := h i (by simp)
    have ih := ih fun j hj => h j (by simp [hj])
    simp only [List.map_cons, hitRecs, ih, hg frame, List.getElem?_map, hi]
    cases h1 : rays[f i]? with
    | none => rfl
    | some r =>
      simp only [Option.map_some]
      cases h2 : p frame r.vertex r.dir with
      | top => rfl
      | coe t =>
        cases hitRecs g frame rays' sel with
        | error e => rfl
        | ok recs => rfl

theorem mkSurf_numberBlind {g : Geometry K E} {p} (hg : g.PerRay p) {opt : Optics σ K E} (ho : opt.NumberBlind) (frame : Tf K) :
    (mkSurf g opt frame).NumberBlind := by
  intro w rays rays' sel f h
  simp only [mkSurf, hitRecs_names hg frame h]
  cases hitRecs g frame rays' sel with
  | error e => rfl
  | ok recs => exact ho w _ recs f

theorem reflective_numberBlind (a : K) : (reflective a : Optics σ K E).NumberBlind := by
  intro w up hits f
  simp only [reflective, Except.map, List.map_map]
  rfl

theorem absorberReflector_numberBlind (a : K) : (absorberReflector a : Optics σ K E).NumberBlind := by
  intro w up hits f
  simp only [absorberReflector, Except.map, List.map_map]
  congr 2
  refine List.map_congr_left fun h _ => ?_
  simp only [Function.comp, reflectOne]
  split <;> rfl

theorem accountant_numberBlind (a : K) (get : σ → Account K) (set : Account K → σ → σ) {opt : Optics σ K E}
    (ho : opt.NumberBlind) : (accountant a get set opt).NumberBlind := by
  intro w up hits f
  simp only [accountant, List.map_map]
  exact ho _ up hits f

theorem MirrorOptics.numberBlind {opt : Optics σ K E} (h : MirrorOptics opt) : opt.NumberBlind := by
  induction h with
  | mirror a => exact reflective_numberBlind a
  | oneSided a => exact absorberReflector_numberBlind a
  | receiver a get set opt _ ih => exact accountant_numberBlind a get set ih

theorem FlatMirror.numberBlind {s : Surf σ K E} (h : FlatMirror s) : s.NumberBlind := by
  obtain ⟨g, opt, frame, rfl, hg, ho, _⟩ := h
  obtain ⟨_, f, hf, _⟩ := hg.spec
  exact mkSurf_numberBlind hf ho.numberBlind frame

/-- The two plates of a receiver that absorbs everything. -/
theorem black_reflective (g : Geometry K E) (frame : Tf K) : (mkSurf g (reflective 1 : Optics σ K E) frame).Black := by
  intro w rays sel raw w' h r hr
  obtain ⟨recs, _, h2⟩ := mkSurf_ok h
  simp only [reflective, Except.ok.injEq, Prod.mk.injEq] at h2
  rw [← h2.1] at hr
  obtain ⟨q, _, rfl⟩ := List.mem_map.1 hr
  simp [reflectOne]

theorem black_receiver (g : Geometry K E) (get : σ → Account K) (set : Account K → σ → σ) (frame : Tf K) :
    (mkSurf g (reflectiveReceiver 1 get set : Optics σ K E) frame).Black := by
  intro w rays sel raw w' h r hr
  obtain ⟨recs, _, h2⟩ := mkSurf_ok h
  simp only [reflectiveReceiver, accountant, reflective, Except.ok.injEq, Prod.mk.injEq] at h2
  rw [← h2.1] at hr
  obtain ⟨q, _, rfl⟩ := List.mem_map.1 hr
  simp [reflectOne]

theorem Surf.Black.alone {s : Surf σ K E} (h : s.Black) (w : σ) (p : Ray K E) : ∀ q ∈ s.alone w p, q.energy = 0 := by
  intro q hq
  unfold Surf.alone at hq
  split at hq
  · rename_i raw w' e
    exact h _ _ _ _ _ e q hq
  · simp at hq

end

section
variable {E σ : Type _}

theorem refractive_numberBlind (a b : ℝ) : (refractiveHomogenous a b : Optics σ ℝ E).NumberBlind := by
  intro w up hits f
  by_cases hne : hits = []
  · subst hne; rfl
  have hne' : hits.map (fun h : HitRec ℝ E => { h with idx := f h.idx }) ≠ [] := by simpa using hne
  by_cases href : ∀ q ∈ hits, q.ray.ref ≠ none
  · have href' : ∀ q ∈ hits.map (fun h : HitRec ℝ E => { h with idx := f h.idx }), q.ray.ref ≠ none := by
      intro q hq
      obtain ⟨p, hp, rfl⟩ := List.mem_map.1 hq
      exact href p hp
    have hi : ∀ h : HitRec ℝ E, idxIn { h with idx := f h.idx } = idxIn h := fun h => rfl
    have ho : ∀ h : HitRec ℝ E, idxOut a b { h with idx := f h.idx } = idxOut a b h := fun h => rfl
    have h1 : ∀ h : HitRec ℝ E, hitRefr a b { h with idx := f h.idx } = hitRefr a b h := fun h => rfl
    rw [refractive_eq a b _ _ _ hne' href', refractive_eq a b _ _ _ hne href]
    simp only [List.any_map, List.map_map, List.filter_map, Function.comp_def, h1, hi, ho]
    split
    · split
      · rfl
      · simp only [Except.map, List.map_append, List.map_map, Function.comp_def]
        rfl
    · simp only [Except.map, List.map_map, Function.comp_def]
      rfl
  · push Not at href
    obtain ⟨q, hq, hn⟩ := href
    have e1 : refIndices hits = .error .attribute := refIndices_missing ⟨q, hq, hn⟩
    have e2 : refIndices (hits.map fun h : HitRec ℝ E => { h with idx := f h.idx }) = .error .attribute :=
      refIndices_missing ⟨{ q with idx := f q.idx }, List.mem_map.2 ⟨q, hq, rfl⟩, hn⟩
    unfold refractiveHomogenous
    rw [e1, e2]
    cases hits with
    | nil => exact absurd rfl hne
    | cons => rfl

theorem SpecularOptics.numberBlind {n1 n2 : ℝ} {opt : Optics σ ℝ E} (h : SpecularOptics n1 n2 opt) : opt.NumberBlind := by
  induction h with
  | mirror a => exact reflective_numberBlind a
  | oneSided a => exact absorberReflector_numberBlind a
  | refractive => exact refractive_numberBlind _ _
  | receiver a get set opt _ ih => exact accountant_numberBlind a get set ih

theorem SpecularSurf.numberBlind {s : Surf σ ℝ E} (h : SpecularSurf s) : s.NumberBlind := by
  obtain ⟨g, opt, frame, n1, n2, rfl, hg, ho⟩ := h
  obtain ⟨f, hf⟩ := hg.perRay
  exact mkSurf_numberBlind hf ho.numberBlind frame

end

/-! ## Scenes of the package -/

section
variable {K E σ : Type _} [Field K] [LinearOrder K] [IsStrictOrderedRing K] {objs : List (Obj σ K E)} {minE : K}

theorem mem_sites {objs : List (Obj σ K E)} {x : Site σ K E} (h : x ∈ sites objs) :
    ∃ o, objs[x.obj]? = some o ∧ o.surfs[x.num]? = some x.surf := by
  unfold sites at h
  obtain ⟨⟨o, i⟩, ho, h⟩ := List.mem_flatMap.1 h
  obtain ⟨⟨s, j⟩, hs, rfl⟩ := List.mem_map.1 h
  exact ⟨o, List.mk_mem_zipIdx_iff_getElem?.1 ho, List.mk_mem_zipIdx_iff_getElem?.1 hs⟩

theorem Obj.Sparing.plain {o : Obj σ K E} (h : o.Sparing) : o.Plain :=
  ⟨h.1, h.2.imp id fun h => h.1⟩

theorem selfTol_nonneg : (0 : K) ≤ selfTol := by unfold selfTol; positivity

theorem dropTol_nonneg : (0 : K) ≤ dropTol := by unfold dropTol; positivity

theorem sparing_onlySave (hsp : ∀ o ∈ objs, o.Sparing) (hE : 0 ≤ minE) (w : σ) :
    OnlySave Surf.single (fun s => s.alone w) (plainPolicy objs) (sites objs) minE := by
  intro x hx p _ q hq hstrong y hy hnot
  obtain ⟨ox, hox, hsx⟩ := mem_sites hx
  obtain ⟨oy, hoy, hsy⟩ := mem_sites hy
  have hskip : plainPolicy objs x.obj = Policy.skip ∧ y.obj = x.obj := by
    rcases plainPolicy_cases objs x.obj with e | e
    · refine ⟨e, ?_⟩
      by_contra hne
      refine hnot fun o j h => ?_
      simp only [Option.some.injEq, Prod.mk.injEq] at h
      obtain ⟨rfl, rfl⟩ := h
      rw [e]
      exact ⟨fun h => by simp [Policy.skip] at h, fun h => absurd h hne⟩
    · refine absurd (fun o j h => ?_) hnot
      simp only [Option.some.injEq, Prod.mk.injEq] at h
      obtain ⟨rfl, rfl⟩ := h
      rw [e]
      exact ⟨fun h => by simp [Policy.free] at h, fun _ => rfl⟩
  obtain ⟨hpol, hobj⟩ := hskip
  rw [hobj, hox] at hoy
  cases hoy
  have hnext : ox.next = Obj.skipNext ox.surfs.length := by
    by_contra hc
    unfold plainPolicy at hpol
    rw [if_neg (by rintro ⟨o, h1, h2⟩; rw [hox] at h1; cases h1; exact hc h2)] at hpol
    have := congrArg (fun P : Policy K E => P.asks 0 0 q) hpol
    simp [Policy.free, Policy.skip] at this
  have hlen : ox.surfs.length ≠ 0 := by
    have := (List.getElem?_eq_some_iff.1 hsx).1
    omega
  have hmem := List.mem_of_getElem? hsx
  rcases (hsp ox (List.mem_of_getElem? hox)).2 with hd | ⟨_, ⟨s, hs, hfm⟩ | hbl⟩
  · rw [hnext] at hd
    have := congrFun (congrFun hd [q]) 0
    simp only [Obj.skipNext, Obj.defaultNext] at this
    obtain ⟨n, hn⟩ := Nat.exists_eq_succ_of_ne_zero hlen
    rw [hn] at this
    simp [List.replicate_succ, List.range_succ_eq_map] at this
  · have e1 : x.surf = s := by simpa [hs] using hmem
    have e2 : y.surf = s := by simpa [hs] using List.mem_of_getElem? hsy
    have h0 := (hfm.spec w).2.2.2.2 p q (e1 ▸ hq)
    refine ⟨Or.inr ?_, x, hx, ?_⟩
    · rw [e2, h0]
      exact ⟨le_refl _, WithTop.coe_le_coe.2 dropTol_nonneg⟩
    · rw [e1, h0]
      exact WithTop.coe_le_coe.2 selfTol_nonneg
  · rw [(hbl _ hmem).alone w p q hq] at hstrong
    exact absurd hE (not_le.2 hstrong)

/-- C109 for scenes of flat mirrors over any ordered field. -/
theorem C109_flat (hsp : ∀ o ∈ objs, o.Sparing) (hfl : AllSurfs FlatMirror objs) (hE : 0 ≤ minE)
    (w : σ) (b : Bundle K E) (reps : Nat) (keep : Bool) :
    rayTracer objs w b reps minE keep = rayTracer (objs.map Obj.asked) w b reps minE keep := by
  refine C109_saving (per := Surf.single) (out := fun s => s.alone w) (Obj.Plain.decides fun o ho => (hsp o ho).plain)
    (plainPolicy_blind objs) (fun o ho s hs => ((hfl o ho s hs).spec w).1) (fun o ho s hs => ((hfl o ho s hs).spec w).2.2.1) ?_
    (fun o ho s hs => (hfl o ho s hs).numberBlind) (fun o ho s hs => ((hfl o ho s hs).spec w).2.1) (sparing_onlySave hsp hE w)
    w b reps keep
  intro s hs p
  obtain ⟨o, ho, hs⟩ := List.mem_flatMap.1 hs
  exact ((hfl o ho s hs).spec w).2.2.2.1 p

end

section
variable {E σ : Type _} {objs : List (Obj σ ℝ E)} {minE : ℝ}

/-- C109 for scenes of the package. -/
theorem C109_library (hsp : ∀ o ∈ objs, o.Sparing) (hlib : AllSurfs SpecularSurf objs) (hE : 0 ≤ minE)
    (w : σ) (b : Bundle ℝ E) (reps : Nat) (keep : Bool) :
    rayTracer objs w b reps minE keep = rayTracer (objs.map Obj.asked) w b reps minE keep := by
  refine C109_saving (per := Surf.single) (out := fun s => s.alone w) (Obj.Plain.decides fun o ho => (hsp o ho).plain)
    (plainPolicy_blind objs) (fun o ho s hs => ((hlib o ho s hs).spec w).1) (fun o ho s hs => ((hlib o ho s hs).spec w).2.2.1) ?_
    (fun o ho s hs => (hlib o ho s hs).numberBlind) (fun o ho s hs => ((hlib o ho s hs).spec w).2.1) (sparing_onlySave hsp hE w)
    w b reps keep
  intro s hs p
  obtain ⟨o, ho, hs⟩ := List.mem_flatMap.1 hs
  exact ((hlib o ho s hs).spec w).2.2.2 p

/-- C108 for such scenes: a trace can be stopped and taken up again, although the policies are forgotten between the two calls. -/
theorem C108_library (hsp : ∀ o ∈ objs, o.Sparing) (hlib : AllSurfs SpecularSurf objs) (hE : 0 ≤ minE)
    {w : σ} {b : Bundle ℝ E} {res : TraceResult σ ℝ E} {n m : Nat} {last : Bundle ℝ E}
    (h : rayTracer objs w b (n + 1) minE true = .ok res) (hlevel : res.tree[n + 1]? = some last) :
    rayTracer objs w b (n + 1 + m) minE true =
      (rayTracer objs res.world (last.filter fun r => decide (minE < r.energy)) m minE true).map fun rest =>
        ⟨rest.vertices, rest.directions, res.tree ++ rest.tree.tail, rest.world⟩ := by
  rw [C109_library hsp hlib hE] at h
  rw [C109_library hsp hlib hE, C109_library hsp hlib hE]
  exact C108_resume (asked_default objs) h hlevel

end

/-! ## The hypotheses are met, and needed -/

theorem Examples.facingSkip_sparing : ∀ o ∈ Examples.facingSkip, o.Sparing := by
  intro o ho
  have hfl := Examples.facingSkip_flat o ho
  simp only [Examples.facingSkip, List.mem_cons, List.not_mem_nil, or_false] at ho
  rcases ho with rfl | rfl
  · exact ⟨rfl, Or.inr ⟨rfl, Or.inl ⟨_, rfl, hfl _ (List.mem_singleton.2 rfl)⟩⟩⟩
  · exact ⟨rfl, Or.inl rfl⟩

/-- C109: a one-sided mirror facing a two-sided one; rays go back and forth between them. -/
example : ∃ res, rayTracer Examples.facingSkip () Examples.source 4 (1/5) true = .ok res ∧
    res.tree.map List.length = [2, 2, 1, 1] ∧
    rayTracer (Examples.facingSkip.map Obj.asked) () Examples.source 4 (1/5) true = .ok res := by
  obtain ⟨res, h, hl⟩ := Examples.exists_trace (objs := Examples.facingSkip) (b := Examples.source) (reps := 4) (minE := 1/5)
    (n := [2, 2, 1, 1]) (by decide +kernel)
  refine ⟨res, h, hl, ?_⟩
  rw [← C109_flat Examples.facingSkip_sparing Examples.facingSkip_flat (by norm_num)]
  exact h

/-- C109: the shape of the object matters.  An object of two facing plates that leaves its surfaces out of the next iteration lets
the light between the plates through. -/
theorem C109_facing_plates : ∃ res res' : TraceResult Unit ℚ Unit,
    rayTracer Resume.shy () [Resume.down] 2 0 true = .ok res ∧ res.tree.map List.length = [1, 1] ∧
    rayTracer (Resume.shy.map Obj.asked) () [Resume.down] 2 0 true = .ok res' ∧ res'.tree.map List.length = [1, 1, 1] := by
  obtain ⟨res, h, hl⟩ := Examples.exists_trace (objs := Resume.shy) (b := [Resume.down]) (reps := 2) (minE := 0)
    (n := [1, 1]) (by decide +kernel)
  obtain ⟨res', h', hl'⟩ := Examples.exists_trace (objs := Resume.shy.map Obj.asked) (b := [Resume.down]) (reps := 2) (minE := 0)
    (n := [1, 1, 1]) (by decide +kernel)
  exact ⟨res, res', h, hl, h', hl'⟩

namespace Saving

/-- A receiver of 1 by 1 that absorbs half of the light. -/
def receiver : List (Obj (Account ℚ) ℚ Unit) :=
  [⟨[mkSurf (finiteFlatGM (rectOutside 1 1)) (reflectiveReceiver (1/2) id fun a _ => a) 1,
     mkSurf (finiteFlatGM (rectOutside 1 1)) (reflective 1) ⟨1, ⟨0, 0, -(1 / 10 ^ 10)⟩⟩], Obj.defaultOwn, Obj.skipNext 2⟩]

/-- A ray that starts between the receiver's plates and goes up at an angle of about 1e-5. -/
def grazing : Ray ℚ Unit :=
  ⟨⟨0, 0, -(1 / (2 * 10 ^ 10))⟩, ⟨(1 - (1 / 200000) ^ 2) / (1 + (1 / 200000) ^ 2), 0, 2 * (1 / 200000) / (1 + (1 / 200000) ^ 2)⟩, 1, 0, none, ()⟩

end Saving

/-- C109: so does the absorptivity of a receiver.  `one_sided_receiver(1, 1, 0.5)` reflects a grazing ray that starts between its two
plates down from the front plate and lets it through the back plate, which would have absorbed it. -/
theorem C109_half_receiver : Saving.grazing.dir.IsUnit ∧
    (∃ s, oneSidedReceiver (K := ℚ) (E := Unit) 1 1 (1/2) id (fun a _ => a) = .ok s ∧
      Saving.receiver = [⟨s.2.surfs.map SurfNode.surf, s.2.data.1, s.2.data.2⟩]) ∧
    ∃ res res' : TraceResult (Account ℚ) ℚ Unit,
      rayTracer Saving.receiver Account.reset [Saving.grazing] 3 0 true = .ok res ∧ res.tree.map List.length = [1, 1] ∧
      rayTracer (Saving.receiver.map Obj.asked) Account.reset [Saving.grazing] 3 0 true = .ok res' ∧
      res'.tree.map List.length = [1, 1, 1] := by
  have hg : (rectPlateGM 1 1 : Except Err (Geometry ℚ Unit)) = .ok (finiteFlatGM (rectOutside 1 1)) := by
    unfold rectPlateGM; norm_num
  refine ⟨by unfold V3.IsUnit; decide +kernel, ⟨_, by unfold oneSidedReceiver; rw [hg], ?_⟩, ?_⟩
  · change Saving.receiver = [⟨[mkSurf _ _ (1 * 1 * 1), mkSurf _ _ (1 * 1 * ⟨1, ⟨0, 0, -(1 / 10 ^ 10)⟩⟩)], _, _⟩]
    rw [Tf.one_mul', Tf.one_mul', Tf.one_mul']
    rfl
  have h1 : ((rayTracer Saving.receiver Account.reset [Saving.grazing] 3 0 true).toOption.map fun r => r.tree.map List.length) =
      some [1, 1] := by decide +kernel
  have h2 : ((rayTracer (Saving.receiver.map Obj.asked) Account.reset [Saving.grazing] 3 0 true).toOption.map fun r =>
      r.tree.map List.length) = some [1, 1, 1] := by decide +kernel
  cases a1 : rayTracer Saving.receiver Account.reset [Saving.grazing] 3 0 true with
  | error e => rw [a1] at h1; simp [Except.toOption] at h1
  | ok res =>
  cases a2 : rayTracer (Saving.receiver.map Obj.asked) Account.reset [Saving.grazing] 3 0 true with
  | error e => rw [a2] at h2; simp [Except.toOption] at h2
  | ok res' =>
    rw [a1] at h1; rw [a2] at h2
    simp only [Except.toOption, Option.map_some, Option.some.injEq] at h1 h2
    exact ⟨res, res', rfl, h1, rfl, h2⟩

end Tracer
