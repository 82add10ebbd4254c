import Verif.Lemmas.GoingLog
import Verif.Props.Going
import Verif.Props.Balance

/-!
# What receivers report after a trace through objects that claim rays or skip surfaces (C67, C81)

`C67_receiver` of `Props/Balance.lean` speaks of objects with the default policies; the receivers of the package
(`one_sided_receiver`) are not among them.
-/

set_option linter.unusedSectionVars false

namespace Tracer

variable {K E σ : Type _} [Field K] [LinearOrder K] [IsStrictOrderedRing K]
  {objs objs' : List (Obj σ K E)} {w w' : σ} {b : Bundle K E} {reps : Nat} {minE minE' : K}
  {res res' : TraceResult σ K E} {per : Surf σ K E → Ray K E → WithTop K}
  {out : Surf σ K E → Ray K E → Bundle K E} {pol pol' : Nat → Policy K E}

theorem sites_nodup (objs : List (Obj σ K E)) : ((sites objs).map fun x => (x.obj, x.num)).Nodup := by
  rw [sites_range, List.map_flatMap, List.nodup_flatMap]
  constructor
  · intro o _
    cases objs[o]? with
    | none => simp
    | some obj =>
      simp only [Option.toList_some, List.flatMap_cons, List.flatMap_nil, List.append_nil, List.map_map]
      have e : ((fun x : Site σ K E => (x.obj, x.num)) ∘ fun y : Surf σ K E × Nat => (⟨o, y.2, y.1⟩ : Site σ K E)) =
          (fun n => (o, n)) ∘ Prod.snd := rfl
      rw [e, ← List.map_map, List.zipIdx_map_snd]
      exact List.Nodup.map (fun a c h => by simpa using h) (by simp [List.nodup_range'])
  · refine List.Pairwise.imp ?_ List.nodup_range
    intro o o' hne
    have key : ∀ (o : Nat), ∀ y ∈ (((objs[o]?).toList.flatMap fun obj => obj.surfs.zipIdx.map fun y =>
        (⟨o, y.2, y.1⟩ : Site σ K E)).map fun x => (x.obj, x.num)), y.1 = o := by
      intro o y hy
      obtain ⟨x, hx, rfl⟩ := List.mem_map.1 hy
      obtain ⟨obj, _, hx⟩ := List.mem_flatMap.1 hx
      obtain ⟨z, _, rfl⟩ := List.mem_map.1 hx
      rfl
    intro y h1 h2
    exact hne ((key o y h1).symm.trans (key o' y h2))

theorem sites_single {β : Type _} {x : Site σ K E} (hx : x ∈ sites objs) (F : Site σ K E → List β) :
    ((sites objs).flatMap fun y => if y.obj = x.obj ∧ y.num = x.num then F y else []) = F x := by
  have hn := sites_nodup objs
  generalize sites objs = l at *
  induction l with
  | nil => simp at hx
  | cons y l ih =>
    rw [List.map_cons, List.nodup_cons] at hn
    rw [List.flatMap_cons]
    rcases List.mem_cons.1 hx with rfl | hx
    · rw [if_pos ⟨rfl, rfl⟩]
      have : (l.flatMap fun y => if y.obj = x.obj ∧ y.num = x.num then F y else []) = [] := by
        rw [List.flatMap_eq_nil_iff]
        intro y hy
        rw [if_neg]
        rintro ⟨h1, h2⟩
        apply hn.1
        rw [← h1, ← h2]
        exact List.mem_map.2 ⟨y, hy, rfl⟩
      rw [this, List.append_nil]
    · rw [ih hx hn.2, if_neg, List.nil_append]
      rintro ⟨h1, h2⟩
      apply hn.1
      rw [h1, h2]
      exact List.mem_map.2 ⟨x, hx, rfl⟩

theorem goingGeneration_empty {k : Nat} (h : setOut minE k (goingGeneration per out pol (sites objs) minE b k) = [])
    {k' : Nat} (hk : k ≤ k') : setOut minE k' (goingGeneration per out pol (sites objs) minE b k') = [] := by
  induction hk with
  | refl => exact h
  | step _ ih =>
    unfold goingGeneration
    rw [ih]
    unfold nextGoing setOut
    split <;> rfl

/-- What all surfaces write down during a trace, up to order. -/
theorem trace_log_going {α : Type _} {P : σ → Prop} (hdec : AllDecide objs pol) (hpol : ∀ o, (pol o).Blind)
    (hper : AllSurfs (fun s => s.PerRay (per s)) objs)
    (hout : AllSurfs (fun s => s.PerHit (out s)) objs) (hb : Blind per out (objs.flatMap Obj.surfs))
    {log : σ → List α} {e : Site σ K E → Ray K E → K → List α}
    (hlog : ∀ x ∈ sites objs, x.surf.LogsWhile P log (e x)) (he : ∀ x p t, e x p.strip t = e x p t)
    (h : rayTracer objs w b reps minE true = .ok res) (hP : P w) :
    P res.world ∧ (log res.world).Perm (log w ++ (List.range reps).flatMap fun k => (sites objs).flatMap fun x =>
      (goingHits per pol (sites objs) (setOut minE k (goingGeneration per out pol (sites objs) minE b k)) x).flatMap
        fun y => e x y.1 y.2) := by
  obtain ⟨_, steps, stf, hrun, hlen, _, _, _, hw, _, hend⟩ := rayTracer_run h
  have hper' : ∀ s ∈ objs.flatMap Obj.surfs, s.PerRay (per s) := fun s hs => mem_allSurfs hper hs
  have hout' : ∀ s ∈ objs.flatMap Obj.surfs, s.PerHit (out s) := fun s hs => mem_allSurfs hout hs
  have hsh := initState_shape objs b w
  have hF := initState_follows objs pol b w
  have h0 : ((b.map fun r => (⟨r, none⟩ : Going K E)).map Going.strip).Perm
      ((setOut minE 0 (goingGeneration per out pol (sites objs) minE b 0)).map Going.strip) := by
    unfold setOut goingGeneration
    exact List.Perm.refl _
  obtain ⟨h1, h2⟩ := hrun.log_going hdec hpol hper' hout' hb hlog he hsh hF h0 hP
  obtain ⟨gs, h3, h4⟩ := hrun.follows hdec hpol hper' hout' hb hsh hF h0
  rw [← hw] at h1 h2
  refine ⟨h1, h2.trans (List.Perm.append_left _ (List.Perm.of_eq ?_))⟩
  rw [← List.range_eq_range']
  rcases Nat.lt_or_ge steps.length reps with hlt | hge
  · obtain ⟨he1, _⟩ := hend hlt
    have hgs : gs = [] := by
      have := h3.rays
      rw [he1] at this
      simpa using this
    rw [hgs] at h4
    have hempty : setOut minE steps.length (goingGeneration per out pol (sites objs) minE b steps.length) = [] := by
      have := h4.nil_eq
      rw [Nat.zero_add] at this
      simpa using this.symm
    obtain ⟨m, rfl⟩ := Nat.exists_eq_add_of_le hlt.le
    rw [List.range_add, List.flatMap_append]
    symm
    apply List.append_right_eq_self.2
    rw [List.flatMap_eq_nil_iff]
    intro k hk
    obtain ⟨n, _, rfl⟩ := List.mem_map.1 hk
    rw [goingGeneration_empty hempty (Nat.le_add_right _ _)]
    rw [List.flatMap_eq_nil_iff]
    intro x _
    rfl
  · rw [show steps.length = reps by omega]

/-- A receiver's memory in which every call has left as many energies as points. -/
def Account.Aligned (acc : Account K) : Prop := acc.absorbed.map List.length = acc.hits.map List.length

theorem aligned_flatten {l : List (List K)} {l' : List (List (V3 K))} (h : l.map List.length = l'.map List.length)
    (es : List K) (ps : List (V3 K)) :
    (l ++ [es]).flatten.zip (l' ++ [ps]).flatten = l.flatten.zip l'.flatten ++ es.zip ps := by
  have hlen : l.flatten.length = l'.flatten.length := by
    rw [List.length_flatten, List.length_flatten, h]
  rw [List.flatten_append, List.flatten_append, List.zip_append hlen]
  simp

/-- C67, for objects with any per-ray policies: after a trace that begins with an empty memory, `get_all_hits` of a receiver reports,
in some order, for each ray that went on to its surface the energy times the absorptivity and the point where it hit.  Its surface
may have any shape; nothing else in the scene touches its memory. -/
theorem C67_policies (hdec : AllDecide objs pol) (hpol : ∀ o, (pol o).Blind)
    (hper : AllSurfs (fun s => s.PerRay (per s)) objs)
    (hout : AllSurfs (fun s => s.PerHit (out s)) objs) (hb : Blind per out (objs.flatMap Obj.surfs))
    {x : Site σ K E} {g : Geometry K E} {frame : Tf K} {a : K} {get : σ → Account K}
    {set : Account K → σ → σ} {opt : Optics σ K E} (hgs : ∀ acc w, get (set acc w) = acc)
    (hk : KeepsMemory get opt) (hx : x ∈ sites objs) (hs : x.surf = mkSurf g (accountant a get set opt) frame)
    (hign : ∀ y ∈ sites objs, ¬ (y.obj = x.obj ∧ y.num = x.num) → y.surf.Ignores get)
    (h : rayTracer objs w b reps minE true = .ok res) (h0 : get w = Account.reset) :
    ∃ es ps, (get res.world).getAllHits = .ok (es, ps) ∧ es.length = ps.length ∧
      (es.zip ps).Perm ((traceHits per out pol (sites objs) minE b reps x).map fun y => (y.1.energy * a, y.1.at y.2)) := by
  have hread : (get res.world).Readable := by
    refine C67_readable (objs := objs) hgs ?_ h (by rw [h0]; exact reset_readable)
    intro o ho s hso
    have hmem : s ∈ (sites objs).map Site.surf := by
      rw [sites_surf]; exact List.mem_flatMap.2 ⟨o, ho, hso⟩
    obtain ⟨y, hy, rfl⟩ := List.mem_map.1 hmem
    by_cases hyx : y.obj = x.obj ∧ y.num = x.num
    · right
      have : y = x := by
        have h1 := sites_single (objs := objs) hx (fun y => [y])
        have h2 : y ∈ (sites objs).flatMap fun y => if y.obj = x.obj ∧ y.num = x.num then [y] else [] :=
          List.mem_flatMap.2 ⟨y, hy, by rw [if_pos hyx]; simp⟩
        rw [h1] at h2
        simpa using h2
      subst this
      exact ⟨g, frame, a, opt, hk, hs⟩
    · exact Or.inl (hign y hy hyx)
  let log : σ → List (K × V3 K) := fun w => (get w).absorbed.flatten.zip (get w).hits.flatten
  let e : Site σ K E → Ray K E → K → List (K × V3 K) := fun y p t =>
    if y.obj = x.obj ∧ y.num = x.num then [(p.energy * a, p.at t)] else []
  have hlog : ∀ y ∈ sites objs, y.surf.LogsWhile (fun w => (get w).Aligned) log (e y) := by
    intro y hy w1 rays sel out w2 hP ho
    by_cases hyx : y.obj = x.obj ∧ y.num = x.num
    · have hys : y.surf = mkSurf g (accountant a get set opt) frame := by
        have h1 := sites_single (objs := objs) hx (fun y => [y])
        have h2 : y ∈ (sites objs).flatMap fun y => if y.obj = x.obj ∧ y.num = x.num then [y] else [] :=
          List.mem_flatMap.2 ⟨y, hy, by rw [if_pos hyx]; simp⟩
        rw [h1] at h2
        rw [List.mem_singleton.1 h2, hs]
      rw [hys] at ho ⊢
      obtain ⟨recs, r1, r2⟩ := mkSurf_ok ho
      have r3 := hitRecs_entries r1 (e := fun p t => [(p.energy * a, p.at t)]) (e' := fun q => [(q.ray.energy * a, q.point)])
        (fun _ _ hq => by rw [hq])
      unfold accountant at r2
      have r4 := hk _ _ _ _ _ r2
      have hg : get w2 = ⟨(get w1).absorbed ++ [recs.map fun h => h.ray.energy * a], (get w1).hits ++ [recs.map HitRec.point]⟩ := by
        rw [r4, hgs]
      refine ⟨?_, ?_⟩
      · change (get w2).Aligned
        rw [hg]
        unfold Account.Aligned at hP ⊢
        simp [hP]
      · change (get w2).absorbed.flatten.zip (get w2).hits.flatten = (get w1).absorbed.flatten.zip (get w1).hits.flatten ++ _
        rw [hg]
        simp only
        rw [aligned_flatten hP]
        congr 1
        have he' : e y = fun p t => [(p.energy * a, p.at t)] := by
          funext p t
          exact if_pos hyx
        rw [he']
        refine Eq.trans ?_ r3.symm
        rw [flatMap_singleton', List.zip_map']
    · have hg : get w2 = get w1 := hign y hy hyx _ _ _ _ _ ho
      refine ⟨by change (get w2).Aligned; rw [hg]; exact hP, ?_⟩
      change (get w2).absorbed.flatten.zip (get w2).hits.flatten = (get w1).absorbed.flatten.zip (get w1).hits.flatten ++ _
      rw [hg]
      symm
      apply List.append_right_eq_self.2
      unfold selEntries
      rw [List.flatMap_eq_nil_iff]
      intro i _
      split
      · exact if_neg hyx
      · rfl
  obtain ⟨h1, h2⟩ := trace_log_going hdec hpol hper hout hb hlog (fun y p t => rfl) h (by change (get w).Aligned; rw [h0]; rfl)
  refine ⟨_, _, hread, ?_, ?_⟩
  · rw [List.length_flatten, List.length_flatten, h1]
  · refine h2.trans (List.Perm.of_eq ?_)
    have hw0 : log w = [] := by
      change (get w).absorbed.flatten.zip (get w).hits.flatten = []
      rw [h0]; rfl
    rw [hw0, List.nil_append]
    unfold traceHits
    rw [List.map_flatMap]
    refine List.flatMap_congr fun k _ => ?_
    have := sites_single (objs := objs) hx fun y =>
      (goingHits per pol (sites objs) (setOut minE k (goingGeneration per out pol (sites objs) minE b k)) y).map
        fun z => (z.1.energy * a, z.1.at z.2)
    rw [← this]
    refine List.flatMap_congr fun y _ => ?_
    by_cases hyx : y.obj = x.obj ∧ y.num = x.num
    · rw [if_pos hyx, ← flatMap_singleton']
      refine List.flatMap_congr fun z _ => ?_
      exact if_pos hyx
    · rw [if_neg hyx, List.flatMap_eq_nil_iff]
      intro z _
      exact if_neg hyx

/-! ### The order of the objects -/

theorem goingHits_renumber {π : Nat → Nat} (hinj : Function.Injective π) (hpp : ∀ o, pol' (π o) = pol o)
    {xs xs' : List (Site σ K E)} (hx : xs'.Perm (xs.map (Site.renumber π))) (gs : List (Going K E)) (x : Site σ K E) :
    goingHits per pol' xs' (gs.map (Going.renumber π)) (x.renumber π) = goingHits per pol xs gs x := by
  classical
  unfold goingHits
  rw [goingCut_renumber hinj hpp hx, List.flatMap_map]
  refine List.flatMap_congr fun g _ => ?_
  by_cases h : g.Meets (goingCut per pol xs gs) per pol xs x
  · rw [if_pos h, if_pos ((meets_renumber hinj hpp hx g _ x).2 h)]
    rfl
  · rw [if_neg h, if_neg fun h' => h ((meets_renumber hinj hpp hx g _ x).1 h')]

/-- C81 for receivers: when the objects of a scene are listed in another order, `get_all_hits` of a receiver reports the same
pairs of energies and points, in some order. -/
theorem C81_receivers (hdec : AllDecide objs pol) (hpol : ∀ o, (pol o).Blind)
    (hper : AllSurfs (fun s => s.PerRay (per s)) objs)
    (hout : AllSurfs (fun s => s.PerHit (out s)) objs) (hb : Blind per out (objs.flatMap Obj.surfs))
    {π : Nat → Nat} (hr : Renumbered π objs objs')
    {x : Site σ K E} {g : Geometry K E} {frame : Tf K} {a : K} {get : σ → Account K}
    {set : Account K → σ → σ} {opt : Optics σ K E} (hgs : ∀ acc w, get (set acc w) = acc)
    (hk : KeepsMemory get opt) (hx : x ∈ sites objs) (hs : x.surf = mkSurf g (accountant a get set opt) frame)
    (hign : ∀ y ∈ sites objs, ¬ (y.obj = x.obj ∧ y.num = x.num) → y.surf.Ignores get)
    (h : rayTracer objs w b reps minE true = .ok res) (h0 : get w = Account.reset)
    (h' : rayTracer objs' w' b reps minE true = .ok res') (h0' : get w' = Account.reset) :
    ∃ es ps es' ps', (get res.world).getAllHits = .ok (es, ps) ∧ (get res'.world).getAllHits = .ok (es', ps') ∧
      es.length = ps.length ∧ es'.length = ps'.length ∧ (es.zip ps).Perm (es'.zip ps') := by
  obtain ⟨pol', hpp, hpol', hdec', key⟩ := hr.generations (minE := minE) (b := b) hdec hpol hb
  have hb' : Blind per out (objs'.flatMap Obj.surfs) := fun s hs p => hb s (hr.surfs.subset hs) p
  have hx' : x.renumber π ∈ sites objs' := hr.sites.symm.subset (List.mem_map.2 ⟨x, hx, rfl⟩)
  have hign' : ∀ y ∈ sites objs', ¬ (y.obj = (x.renumber π).obj ∧ y.num = (x.renumber π).num) → y.surf.Ignores get := by
    intro y hy hne
    obtain ⟨z, hz, rfl⟩ := List.mem_map.1 (hr.sites.subset hy)
    refine hign z hz ?_
    rintro ⟨e1, e2⟩
    exact hne ⟨by change π z.obj = π x.obj; rw [e1], e2⟩
  obtain ⟨es, ps, r1, r2, r3⟩ := C67_policies hdec hpol hper hout hb hgs hk hx hs hign h h0
  obtain ⟨es', ps', r1', r2', r3'⟩ := C67_policies hdec' hpol' (hr.allSurfs hper) (hr.allSurfs hout) hb' hgs hk hx' hs hign' h' h0'
  refine ⟨es, ps, es', ps', r1, r1', r2, r2', r3.trans (List.Perm.trans (List.Perm.symm ?_) r3'.symm)⟩
  unfold traceHits
  rw [List.map_flatMap, List.map_flatMap]
  refine List.Perm.flatMap_left _ fun k _ => ?_
  rw [← goingHits_renumber hr.inj hpp hr.sites, setOut_renumber, ← flatMap_singleton', ← flatMap_singleton']
  exact goingHits_strip (e := fun _ p t => [(p.energy * a, p.at t)]) (by rw [sites_surf]; exact hb') hpol' (fun _ _ _ => rfl)
    (setOut_perm minE k (key k)) hx'

/-! ### Objects no ray reaches -/

theorem goingHits_unreached {xs ys : List (Site σ K E)} {gs : List (Going K E)}
    (hmay : ∀ g ∈ gs, ∀ y ∈ ys, g.MayMeet pol y) (hu : ∀ g ∈ gs, ∀ y ∈ ys, g.Unreached per pol xs y.surf) (x : Site σ K E) :
    goingHits per pol (xs ++ ys) gs x = goingHits per pol xs gs x := by
  classical
  unfold goingHits
  rw [goingCut_unreached hmay hu]
  refine List.flatMap_congr fun g hg => ?_
  have hold := meets_unreached (goingCut_le (per := per) (pol := pol) xs gs) (hu g hg) x
  by_cases h : g.Meets (goingCut per pol xs gs) per pol xs x
  · rw [if_pos h, if_pos (hold.2 h)]
  · rw [if_neg h, if_neg fun h' => h (hold.1 h')]

/-- C82 for receivers: objects added to a scene do not change what `get_all_hits` of a receiver reports, but for the order, if no
ray that sets out in the old scene reaches their surfaces. -/
theorem C82_receivers {extra : List (Obj σ K E)} (hdec : AllDecide (objs ++ extra) pol) (hpol : ∀ o, (pol o).Blind)
    (hclaim : ∀ o j r, (pol o).claims j r = false)
    (hper : AllSurfs (fun s => s.PerRay (per s)) (objs ++ extra))
    (hout : AllSurfs (fun s => s.PerHit (out s)) (objs ++ extra))
    (hb : Blind per out ((objs ++ extra).flatMap Obj.surfs))
    (hu : ∀ k < reps, ∀ g ∈ setOut minE k (goingGeneration per out pol (sites objs) minE b k),
      ∀ o ∈ extra, ∀ s ∈ o.surfs, g.Unreached per pol (sites objs) s)
    {x : Site σ K E} {g : Geometry K E} {frame : Tf K} {a : K} {get : σ → Account K}
    {set : Account K → σ → σ} {opt : Optics σ K E} (hgs : ∀ acc w, get (set acc w) = acc)
    (hk : KeepsMemory get opt) (hx : x ∈ sites objs) (hs : x.surf = mkSurf g (accountant a get set opt) frame)
    (hign : ∀ y ∈ sites (objs ++ extra), ¬ (y.obj = x.obj ∧ y.num = x.num) → y.surf.Ignores get)
    (h : rayTracer objs w b reps minE true = .ok res) (h0 : get w = Account.reset)
    (h' : rayTracer (objs ++ extra) w' b reps minE true = .ok res') (h0' : get w' = Account.reset) :
    ∃ es ps es' ps', (get res.world).getAllHits = .ok (es, ps) ∧ (get res'.world).getAllHits = .ok (es', ps') ∧
      es.length = ps.length ∧ es'.length = ps'.length ∧ (es.zip ps).Perm (es'.zip ps') := by
  have hsub : ∀ {P : Surf σ K E → Prop}, AllSurfs P (objs ++ extra) → AllSurfs P objs :=
    fun hP o ho => hP o (List.mem_append_left _ ho)
  have hdec0 : AllDecide objs pol := fun o obj ho =>
    hdec o obj (by rw [List.getElem?_append_left (List.getElem?_eq_some_iff.1 ho).1]; exact ho)
  have hb0 : Blind per out (objs.flatMap Obj.surfs) := fun s hs =>
    hb s (by rw [List.flatMap_append]; exact List.mem_append_left _ hs)
  obtain ⟨ys, hys, hyo⟩ := sites_append objs extra
  have hx' : x ∈ sites (objs ++ extra) := by rw [hys]; exact List.mem_append_left _ hx
  have hign0 : ∀ y ∈ sites objs, ¬ (y.obj = x.obj ∧ y.num = x.num) → y.surf.Ignores get := fun y hy =>
    hign y (by rw [hys]; exact List.mem_append_left _ hy)
  obtain ⟨es, ps, r1, r2, r3⟩ := C67_policies hdec0 hpol (hsub hper) (hsub hout) hb0 hgs hk hx hs hign0 h h0
  obtain ⟨es', ps', r1', r2', r3'⟩ := C67_policies hdec hpol hper hout hb hgs hk hx' hs hign h' h0'
  refine ⟨es, ps, es', ps', r1, r1', r2, r2', r3.trans (List.Perm.trans (List.Perm.of_eq ?_) r3'.symm)⟩
  congr 1
  unfold traceHits
  refine List.flatMap_congr fun k hk => ?_
  have hkr : k < reps := by simpa using hk
  rw [hys, goingGeneration_unreached hyo hclaim hu k hkr.le]
  refine (goingHits_unreached (added_mayMeet hyo hclaim k) ?_ x).symm
  intro g hg y hy
  obtain ⟨o, ho, hs⟩ := (hyo y hy).2
  exact hu k hkr g hg o ho y.surf hs

/-! ### Scenes of flat mirrors and receivers, one-sided or not -/

/-- C67 for scenes built of the flat mirrors and receivers of the package in objects with the default or the one-sided policies. -/
theorem C67_flat (hpl : ∀ o ∈ objs, o.Plain) (hfl : AllSurfs FlatMirror objs)
    {x : Site σ K E} {g : Geometry K E} {frame : Tf K} {a : K} {get : σ → Account K}
    {set : Account K → σ → σ} {opt : Optics σ K E} (hgs : ∀ acc w, get (set acc w) = acc)
    (hk : KeepsMemory get opt) (hx : x ∈ sites objs) (hs : x.surf = mkSurf g (accountant a get set opt) frame)
    (hign : ∀ y ∈ sites objs, ¬ (y.obj = x.obj ∧ y.num = x.num) → y.surf.Ignores get)
    (h : rayTracer objs w b reps minE true = .ok res) (h0 : get w = Account.reset) :
    ∃ es ps, (get res.world).getAllHits = .ok (es, ps) ∧ es.length = ps.length ∧
      (es.zip ps).Perm ((traceHits Surf.single (Surf.alone w) (plainPolicy objs) (sites objs) minE b reps x).map
        fun y => (y.1.energy * a, y.1.at y.2)) := by
  refine C67_policies (Obj.Plain.decides hpl) (plainPolicy_blind objs) (fun o ho s hs => ((hfl o ho s hs).spec w).1)
    (fun o ho s hs => ((hfl o ho s hs).spec w).2.2.1) ?_ hgs hk hx hs hign h h0
  intro s hs p
  obtain ⟨o, ho, hs⟩ := List.mem_flatMap.1 hs
  exact ((hfl o ho s hs).spec w).2.2.2.1 p

/-! ### A concrete case -/

namespace Examples

/-- The front of `one_sided_receiver`, and its back 1e-10 below (models/one_sided_mirror.py:51-73), absorbing half. -/
def front : Surf (Account ℚ) ℚ Unit := mkSurf (finiteFlatGM (rectOutside 4 4)) (reflectiveReceiver (1/2) id fun a _ => a) 1

def back : Surf (Account ℚ) ℚ Unit := mkSurf (finiteFlatGM (rectOutside 4 4)) (reflective 1) ⟨1, ⟨0, 0, -(1 / 10 ^ 10)⟩⟩

/-- The one-sided receiver under a mirror. -/
def oneSided : List (Obj (Account ℚ) ℚ Unit) :=
  [⟨[front, back], Obj.defaultOwn, Obj.skipNext 2⟩,
   ⟨[mkSurf (finiteFlatGM (rectOutside 4 4)) (reflective (1/4)) ⟨1, ⟨0, 0, 2⟩⟩], Obj.defaultOwn, Obj.defaultNext 1⟩]

theorem oneSided_plain : ∀ o ∈ oneSided, o.Plain := by
  intro o ho
  simp only [oneSided, List.mem_cons, List.not_mem_nil, or_false] at ho
  rcases ho with rfl | rfl
  · exact ⟨rfl, Or.inr rfl⟩
  · exact ⟨rfl, Or.inl rfl⟩

theorem oneSided_flat : AllSurfs FlatMirror oneSided := by
  have hg : (rectPlateGM 4 4 : Except Err (Geometry ℚ Unit)) = .ok (finiteFlatGM (rectOutside 4 4)) := by
    unfold rectPlateGM; norm_num
  intro o ho
  simp only [oneSided, List.mem_cons, List.not_mem_nil, or_false] at ho
  rcases ho with rfl | rfl
  · intro s hs
    simp only [List.mem_cons, List.not_mem_nil, or_false] at hs
    rcases hs with rfl | rfl
    · exact ⟨_, _, _, rfl, .rect 4 4 _ hg, .receiver _ _ _ _ (.mirror _), by decide +kernel⟩
    · exact ⟨_, _, _, rfl, .rect 4 4 _ hg, .mirror _, by decide +kernel⟩
  · intro s hs
    simp only [List.mem_cons, List.not_mem_nil, or_false] at hs
    exact ⟨_, _, _, hs, .rect 4 4 _ hg, .mirror _, by decide +kernel⟩

theorem oneSided_ignores : ∀ y ∈ sites oneSided, ¬ (y.obj = 0 ∧ y.num = 0) → y.surf.Ignores id := by
  have hm : ∀ (g : Geometry ℚ Unit) (a : ℚ) (frame : Tf ℚ), (mkSurf g (reflective a) frame : Surf (Account ℚ) ℚ Unit).Ignores id := by
    intro g a frame w rays sel out w' hout
    obtain ⟨recs, _, h2⟩ := mkSurf_ok hout
    exact (C51_reflective a id).1 _ _ _ _ _ h2
  intro y hy hne
  simp only [sites, oneSided, List.zipIdx_cons, List.zipIdx_nil, List.flatMap_cons, List.flatMap_nil, List.map_cons, List.map_nil,
    List.cons_append, List.nil_append, List.mem_cons, List.not_mem_nil, or_false] at hy
  rcases hy with rfl | rfl | rfl
  · exact absurd ⟨rfl, rfl⟩ hne
  · exact hm _ _ _
  · exact hm _ _ _

end Examples

/-- The receiver is hit twice by the source and once more after a reflection by each surface; listing the objects the other way
round changes nothing. -/
example : ∃ res res', rayTracer Examples.oneSided Account.reset Examples.source 4 (1/5) true = .ok res ∧
    rayTracer Examples.oneSided.reverse Account.reset Examples.source 4 (1/5) true = .ok res' ∧
    res.world.absorbed = [[1/2, 1/2], [3/16]] ∧
    (∃ es ps, res.world.getAllHits = .ok (es, ps) ∧ es.length = ps.length ∧ (es.zip ps).Perm
      ((traceHits Surf.single (Surf.alone Account.reset) (plainPolicy Examples.oneSided) (sites Examples.oneSided) (1/5)
        Examples.source 4 ⟨0, 0, Examples.front⟩).map fun y => (y.1.energy * (1/2), y.1.at y.2))) ∧
    ∃ es ps es' ps', res.world.getAllHits = .ok (es, ps) ∧ res'.world.getAllHits = .ok (es', ps') ∧
      es.length = ps.length ∧ es'.length = ps'.length ∧ (es.zip ps).Perm (es'.zip ps') := by
  have h1 : ((rayTracer Examples.oneSided Account.reset Examples.source 4 (1/5) true).toOption.map fun r => r.world.absorbed) =
      some [[1/2, 1/2], [3/16]] := by
    decide +kernel
  have h2 : ((rayTracer Examples.oneSided.reverse Account.reset Examples.source 4 (1/5) true).toOption.map fun r =>
      r.world.absorbed) = some [[1/2, 1/2], [3/16]] := by
    decide +kernel
  have hfl := Examples.oneSided_flat
  have hx : (⟨0, 0, Examples.front⟩ : Site (Account ℚ) ℚ Unit) ∈ sites Examples.oneSided := by
    simp [sites, Examples.oneSided]
  have hk := (C51_reflective (E := Unit) (1/2 : ℚ) (id : Account ℚ → Account ℚ)).1
  cases hr : rayTracer Examples.oneSided Account.reset Examples.source 4 (1/5) true with
  | error e => rw [hr] at h1; simp [Except.toOption] at h1
  | ok res =>
    cases hr' : rayTracer Examples.oneSided.reverse Account.reset Examples.source 4 (1/5) true with
    | error e => rw [hr'] at h2; simp [Except.toOption] at h2
    | ok res' =>
      rw [hr] at h1
      simp only [Except.toOption, Option.map_some, Option.some.injEq] at h1
      refine ⟨res, res', rfl, rfl, h1, ?_, ?_⟩
      · exact C67_flat (get := id) (set := fun a _ => a) Examples.oneSided_plain hfl (fun _ _ => rfl) hk hx rfl
          Examples.oneSided_ignores hr rfl
      · refine C81_receivers (get := id) (set := fun a _ => a) (per := Surf.single) (out := Surf.alone Account.reset)
          (objs := Examples.oneSided) (objs' := Examples.oneSided.reverse) (w := Account.reset) (w' := Account.reset) (res := res) (res' := res')
          (π := fun o => if o = 0 then 1 else if o = 1 then 0 else o)
          (Obj.Plain.decides Examples.oneSided_plain) (plainPolicy_blind _)
          (fun o ho s hs => ((hfl o ho s hs).spec Account.reset).1)
          (fun o ho s hs => ((hfl o ho s hs).spec Account.reset).2.2.1) ?_ ⟨rfl, ?_, ?_⟩ (fun _ _ => rfl) hk hx rfl
          Examples.oneSided_ignores hr rfl hr' rfl
        · intro s hs p
          obtain ⟨o, ho, hs⟩ := List.mem_flatMap.1 hs
          exact ((hfl o ho s hs).spec Account.reset).2.2.2.1 p
        · intro m n hmn
          simp only at hmn
          split_ifs at hmn <;> omega
        · intro o obj ho
          rcases o with _ | _ | o
          · exact ho
          · exact ho
          · simp [Examples.oneSided] at ho

namespace Examples

/-- A plate aside of the scene. -/
def asidePlate : Obj (Account ℚ) ℚ Unit :=
  ⟨[mkSurf (finiteFlatGM (rectOutside 4 4)) (reflective (1/4)) ⟨1, ⟨50, 0, 2⟩⟩], Obj.defaultOwn, Obj.skipNext 1⟩

theorem asidePlate_plain : ∀ o ∈ oneSided ++ [asidePlate], o.Plain := by
  intro o ho
  rcases List.mem_append.1 ho with ho | ho
  · exact oneSided_plain o ho
  · rw [List.mem_singleton] at ho
    subst ho
    exact ⟨rfl, Or.inr rfl⟩

theorem asidePlate_flat : AllSurfs FlatMirror (oneSided ++ [asidePlate]) := by
  intro o ho
  rcases List.mem_append.1 ho with ho | ho
  · exact oneSided_flat o ho
  · intro s hs
    rw [List.mem_singleton] at ho
    subst ho
    simp only [asidePlate, List.mem_cons, List.not_mem_nil, or_false] at hs
    exact ⟨_, _, _, hs, .rect 4 4 _ (by unfold rectPlateGM; norm_num), .mirror _, by decide +kernel⟩

theorem asidePlate_ignores : ∀ y ∈ sites (oneSided ++ [asidePlate]), ¬ (y.obj = 0 ∧ y.num = 0) → y.surf.Ignores id := by
  have hm : ∀ (g : Geometry ℚ Unit) (a : ℚ) (frame : Tf ℚ), (mkSurf g (reflective a) frame : Surf (Account ℚ) ℚ Unit).Ignores id := by
    intro g a frame w rays sel out w' hout
    obtain ⟨recs, _, h2⟩ := mkSurf_ok hout
    exact (C51_reflective a id).1 _ _ _ _ _ h2
  intro y hy hne
  simp only [sites, oneSided, asidePlate, List.cons_append, List.nil_append, List.zipIdx_cons, List.zipIdx_nil, List.flatMap_cons,
    List.flatMap_nil, List.map_cons, List.map_nil, List.mem_cons, List.not_mem_nil, or_false] at hy
  rcases hy with rfl | rfl | rfl | rfl
  · exact absurd ⟨rfl, rfl⟩ hne
  · exact hm _ _ _
  · exact hm _ _ _
  · exact hm _ _ _

end Examples

/-- The plate aside changes nothing in what the receiver reports. -/
example : ∃ res res', rayTracer Examples.oneSided Account.reset Examples.source 4 (1/5) true = .ok res ∧
    rayTracer (Examples.oneSided ++ [Examples.asidePlate]) Account.reset Examples.source 4 (1/5) true = .ok res' ∧
    res.world.absorbed = [[1/2, 1/2], [3/16]] ∧
    ∃ es ps es' ps', res.world.getAllHits = .ok (es, ps) ∧ res'.world.getAllHits = .ok (es', ps') ∧
      es.length = ps.length ∧ es'.length = ps'.length ∧ (es.zip ps).Perm (es'.zip ps') := by
  have h1 : ((rayTracer Examples.oneSided Account.reset Examples.source 4 (1/5) true).toOption.map fun r =>
      (r.world.absorbed, r.tree.all fun lvl => lvl.all fun p => Examples.asidePlate.surfs.all fun s => decide (s.single p = ⊤))) =
      some ([[1/2, 1/2], [3/16]], true) := by
    decide +kernel
  have h2 : ((rayTracer (Examples.oneSided ++ [Examples.asidePlate]) Account.reset Examples.source 4 (1/5) true).toOption.map
      fun r => r.world.absorbed) = some [[1/2, 1/2], [3/16]] := by
    decide +kernel
  have hfl := Examples.asidePlate_flat
  have hfl0 := Examples.oneSided_flat
  have hx : (⟨0, 0, Examples.front⟩ : Site (Account ℚ) ℚ Unit) ∈ sites Examples.oneSided := by
    simp [sites, Examples.oneSided]
  have hk := (C51_reflective (E := Unit) (1/2 : ℚ) (id : Account ℚ → Account ℚ)).1
  let pol := plainPolicy (Examples.oneSided ++ [Examples.asidePlate])
  have hdec : AllDecide (Examples.oneSided ++ [Examples.asidePlate]) pol := Obj.Plain.decides Examples.asidePlate_plain
  have hdec0 : AllDecide Examples.oneSided pol := fun o obj ho =>
    hdec o obj (by rw [List.getElem?_append_left (List.getElem?_eq_some_iff.1 ho).1]; exact ho)
  cases hr : rayTracer Examples.oneSided Account.reset Examples.source 4 (1/5) true with
  | error e => rw [hr] at h1; simp [Except.toOption] at h1
  | ok res =>
    cases hr' : rayTracer (Examples.oneSided ++ [Examples.asidePlate]) Account.reset Examples.source 4 (1/5) true with
    | error e => rw [hr'] at h2; simp [Except.toOption] at h2
    | ok res' =>
      rw [hr] at h1
      simp only [Except.toOption, Option.map_some, Option.some.injEq, Prod.mk.injEq, List.all_eq_true, decide_eq_true_eq] at h1
      obtain ⟨h1, hall⟩ := h1
      refine ⟨res, res', rfl, rfl, h1, ?_⟩
      refine C82_receivers (get := id) (set := fun a _ => a) (per := Surf.single) (out := Surf.alone Account.reset)
        (objs := Examples.oneSided) (extra := [Examples.asidePlate]) (w := Account.reset) (w' := Account.reset) (res := res)
        (res' := res') (pol := pol) hdec (plainPolicy_blind _) ?_
        (fun o ho s hs => ((hfl o ho s hs).spec Account.reset).1)
        (fun o ho s hs => ((hfl o ho s hs).spec Account.reset).2.2.1)
        (fun s hs => ((mem_allSurfs hfl hs).spec Account.reset).2.2.2.1) ?_ (fun _ _ => rfl) hk hx rfl
        Examples.asidePlate_ignores hr rfl hr' rfl
      · intro o j r
        rcases plainPolicy_cases (Examples.oneSided ++ [Examples.asidePlate]) o with e | e
        · change (plainPolicy _ o).claims j r = false
          rw [e]; rfl
        · change (plainPolicy _ o).claims j r = false
          rw [e]; rfl
      · intro k hk g hg o ho s hs
        rw [List.mem_singleton] at ho
        subst ho
        left
        have hmem := (C84_exact (per := Surf.single) (out := Surf.alone Account.reset) hdec0 (plainPolicy_blind _)
          (fun o ho s hs => ((hfl0 o ho s hs).spec Account.reset).1) (fun o ho s hs => ((hfl0 o ho s hs).spec Account.reset).2.1)
          (fun o ho s hs => ((hfl0 o ho s hs).spec Account.reset).2.2.1)
          (fun s hs => ((mem_allSurfs hfl0 hs).spec Account.reset).2.2.2.1) hr (by omega : k ≤ 4)).symm.subset
          (List.mem_map.2 ⟨g, setOut_mem hg, rfl⟩)
        obtain ⟨p, hp, e⟩ := List.mem_map.1 hmem
        have hblind := ((hfl Examples.asidePlate (by simp) s hs).spec Account.reset).2.2.2.1
        rw [← (hblind g.ray).1, ← e, (hblind p).1]
        cases hl : res.tree[k]? with
        | none => rw [hl] at hp; simp at hp
        | some lvl =>
          rw [hl] at hp
          exact hall lvl (List.mem_of_getElem? hl) p hp s hs

end Tracer
