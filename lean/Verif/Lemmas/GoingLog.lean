import Verif.Lemmas.Going
import Verif.Lemmas.Log

/-! What surfaces write down during a trace through objects that decide about rays one by one. -/

set_option linter.unusedSectionVars false
set_option linter.unusedSimpArgs false

namespace Tracer

variable {K E σ α : Type _} [Field K] [LinearOrder K] [IsStrictOrderedRing K]
  {per : Surf σ K E → Ray K E → WithTop K} {out : Surf σ K E → Ray K E → Bundle K E}
  {pol : Nat → Policy K E} {objs : List (Obj σ K E)} {minE : K} {P : σ → Prop}

/-- While `P` holds of the world, it goes on to hold, and the surface appends the entries `e p t` for every selected ray in turn
(see `Surf.Logs`). -/
def Surf.LogsWhile (P : σ → Prop) (log : σ → List α) (e : Ray K E → K → List α) (s : Surf σ K E) : Prop :=
  ∀ w rays sel out w', P w → s.outgoing w rays sel = .ok (out, w') →
    P w' ∧ log w' = log w ++ selEntries e rays (s.register rays) sel

theorem Surf.Logs.while {log : σ → List α} {e : Ray K E → K → List α} {s : Surf σ K E} (h : s.Logs log e) :
    s.LogsWhile (fun _ => True) log e := fun w rays sel out w' _ ho => ⟨trivial, h w rays sel out w' ho⟩

/-- The entries of a ray that goes on to a surface. -/
def siteEntry (per : Surf σ K E → Ray K E → WithTop K) (e : Site σ K E → Ray K E → K → List α) (x : Site σ K E)
    (p : Ray K E) : List α :=
  match per x.surf p with
  | some t => e x p t
  | none => []

theorem surfLoop_log_sites {b : Bundle K E} {log : σ → List α} {e : Site σ K E → Ray K E → K → List α}
    {xs : List (Site σ K E)} {fronts owneds : List (List Bool)} {w w' : σ} {k : Nat}
    {cs : List (Contribution K E)}
    (h : surfLoop objs minE b w k (xs.map Site.surf) fronts owneds = .ok (cs, w'))
    (hol : ∀ o ∈ owneds, o.length = b.length) (hfl : ∀ f ∈ fronts, f.length = b.length)
    (hlen : owneds.length = fronts.length)
    (hper : ∀ x ∈ xs, x.surf.PerRay (per x.surf)) (hlog : ∀ x ∈ xs, x.surf.LogsWhile P log (e x)) (hP : P w) :
    P w' ∧ log w' = log w ++ (xs.zip (fronts.zip owneds)).flatMap fun z => (z.2.1.zip (z.2.2.zip b)).flatMap fun y =>
      if y.1 && y.2.1 then siteEntry per e z.1 y.2.2 else [] := by
  induction xs generalizing fronts owneds w k cs with
  | nil =>
    unfold surfLoop at h
    simp only [List.map_nil, Except.ok.injEq, Prod.mk.injEq] at h
    rw [← h.2]
    exact ⟨hP, by simp⟩
  | cons x xs ih =>
    cases fronts with
    | nil =>
      unfold surfLoop at h
      simp only [List.map_cons, Except.ok.injEq, Prod.mk.injEq] at h
      rw [← h.2]
      exact ⟨hP, by simp⟩
    | cons f fronts =>
      cases owneds with
      | nil => simp at hlen
      | cons o owneds =>
        rw [List.map_cons] at h
        unfold surfLoop at h
        have hf := hfl f (by simp)
        have ho := hol o (by simp)
        have ih' := fun {w cs} (h : surfLoop objs minE b w (k + 1) (xs.map Site.surf) fronts owneds = .ok (cs, w')) (hP : P w) =>
          ih h (fun o ho => hol o (List.mem_cons_of_mem _ ho)) (fun f hf => hfl f (List.mem_cons_of_mem _ hf))
            (by simpa using hlen) (fun s hs => hper s (List.mem_cons_of_mem _ hs)) (fun s hs => hlog s (List.mem_cons_of_mem _ hs)) hP
        rw [List.zip_cons_cons, List.zip_cons_cons, List.flatMap_cons]
        split at h
        · split at h
          · simp at h
          · rename_i c w1 hc
            split at h
            · simp at h
            · rename_i cs' w2 hcs
              simp only [Except.ok.injEq, Prod.mk.injEq] at h
              obtain ⟨rfl, rfl⟩ := h
              obtain ⟨raw, hraw, hfix⟩ := (contribute_ok ho hc).raw
              obtain ⟨hP1, h1⟩ := hlog x (by simp) _ _ _ _ _ hP hraw
              obtain ⟨hP2, h2⟩ := ih' hcs hP1
              refine ⟨hP2, ?_⟩
              rw [h2, h1, List.append_assoc]
              congr 2
              have h2 := selEntries_map (per x.surf) (e x) (Np.mask o b) (Np.nonzero (Np.mask o f))
              rw [hper x (by simp)]
              refine Eq.trans h2 ?_
              exact mask_flatMap o f b (siteEntry per e x) ho hf
        · rename_i hno
          rw [← mask_flatMap o f b (siteEntry per e x) ho hf]
          have : Np.nonzero (Np.mask o f) = [] := by
            rw [List.eq_nil_iff_forall_not_mem]
            intro j hj
            rw [Np.mem_nonzero] at hj
            apply hno
            rw [List.any_eq_true]
            exact ⟨true, List.mem_of_getElem? hj, rfl⟩
          rw [this, List.flatMap_nil, List.nil_append]
          exact ih' h hP

open Classical in
theorem goingHits_entries (e : Site σ K E → Ray K E → K → List α) (xs : List (Site σ K E)) (gs : List (Going K E))
    (x : Site σ K E) : (goingHits per pol xs gs x).flatMap (fun y => e x y.1 y.2) =
      gs.flatMap fun g => if g.Meets (goingCut per pol xs gs) per pol xs x then siteEntry per e x g.ray else [] := by
  unfold goingHits
  rw [List.flatMap_assoc]
  refine List.flatMap_congr fun g _ => ?_
  by_cases hm : g.Meets (goingCut per pol xs gs) per pol xs x
  · rw [if_pos hm, if_pos hm]
    unfold siteEntry
    cases hp : per x.surf g.ray with
    | top => rfl
    | coe t => simp
  · rw [if_neg hm, if_neg hm]
    rfl

/-- One iteration: each surface writes down the rays that go on to it. -/
theorem iterate_log_going {st st' : TraceState σ K E} {gen rec : Bundle K E} {gs : List (Going K E)} (hs : st.Shape objs)
    (hF : Follows objs pol st gs) {log : σ → List α} {e : Site σ K E → Ray K E → K → List α}
    (hper : ∀ s ∈ objs.flatMap Obj.surfs, s.PerRay (per s))
    (hlog : ∀ x ∈ sites objs, x.surf.LogsWhile P log (e x)) (hP : P st.world)
    (h : iterate objs (objs.flatMap Obj.surfs) minE st = .ok (st', gen, rec)) :
    P st'.world ∧ log st'.world = log st.world ++ (sites objs).flatMap fun x =>
      (goingHits per pol (sites objs) gs x).flatMap fun y => e x y.1 y.2 := by
  classical
  obtain ⟨⟨front, owned, cs, hint, hcs, _, _, _, _, hw⟩, _, _⟩ := iterate_ok hs h
  obtain ⟨hO, hFr⟩ := intersectRay_ok hint
  have hgl : gs.length = st.bund.length := by rw [← hF.rays, List.length_map]
  have hol : ∀ o ∈ owned, o.length = st.bund.length := by
    intro o ho
    obtain ⟨k, hk⟩ := List.getElem?_of_mem ho
    rw [hO] at hk
    exact owned_row_length hs hk
  have hfl : ∀ f ∈ front, f.length = st.bund.length := by
    intro f hf
    exact frontMask_row_length (dropSelfHits_row_length (fun row hr => rawStack_row_length hr)) f
      (hFr ▸ hf)
  have hfrontlen : front.length = (objs.flatMap Obj.surfs).length := by
    rw [hFr]
    simp [frontMask, dropSelfHits_length, rawStack, hs.surf_len, hs.relev_len]
  have hownlen : owned.length = front.length := by
    rw [hfrontlen, hO]
    simp [hs.surf_len, hs.relev_len]
  have hcs' := hcs
  rw [← sites_surf] at hcs'
  obtain ⟨h1, h2⟩ := surfLoop_log_sites (per := per) (e := e) hcs' hol hfl hownlen
    (fun x hx => hper x.surf (by rw [← sites_surf]; exact List.mem_map.2 ⟨x, hx, rfl⟩)) hlog hP
  refine ⟨h1, ?_⟩
  rw [h2]
  congr 1
  rw [← hF.rays, matrix_flatMap (P := fun x g => g.Meets (goingCut per pol (sites objs) gs) per pol (sites objs) x)
    (H := siteEntry per e)
    (by rw [hfrontlen, sites_length]) (by rw [hownlen, hfrontlen, sites_length])
    (fun f hf => (hfl f hf).trans hgl.symm) (fun o ho => (hol o ho).trans hgl.symm)
    (marked_meets hs hF hper hint)]
  refine List.flatMap_congr fun x _ => ?_
  rw [goingHits_entries]

theorem goingHits_strip {xs : List (Site σ K E)} (hb : Blind per out (xs.map Site.surf)) (hpol : ∀ o, (pol o).Blind)
    {e : Site σ K E → Ray K E → K → List α} (he : ∀ x p t, e x p.strip t = e x p t) {l l' : List (Going K E)}
    (h : (l.map Going.strip).Perm (l'.map Going.strip)) {x : Site σ K E} (hx : x ∈ xs) :
    ((goingHits per pol xs l x).flatMap fun y => e x y.1 y.2).Perm ((goingHits per pol xs l' x).flatMap fun y => e x y.1 y.2) := by
  classical
  rw [goingHits_entries, goingHits_entries, goingCut_perm hb hpol h]
  generalize goingCut per pol xs l' = c
  have hf : ∀ l : List (Going K E), (l.flatMap fun g => if g.Meets c per pol xs x then siteEntry per e x g.ray else []) =
      (l.map Going.strip).flatMap fun g => if g.Meets c per pol xs x then siteEntry per e x g.ray else [] := by
    intro l
    rw [List.flatMap_map]
    refine List.flatMap_congr fun g _ => ?_
    have hs : siteEntry per e x g.strip.ray = siteEntry per e x g.ray := by
      unfold siteEntry
      have : per x.surf g.strip.ray = per x.surf g.ray := (hb _ (List.mem_map.2 ⟨x, hx, rfl⟩) g.ray).1
      rw [this]
      cases per x.surf g.ray with
      | top => rfl
      | coe t => exact he x g.ray t
    rw [hs]
    by_cases hm : g.Meets c per pol xs x
    · rw [if_pos hm, if_pos ((meets_strip hb hpol c g hx).2 hm)]
    · rw [if_neg hm, if_neg fun h' => hm ((meets_strip hb hpol c g hx).1 h')]
  have := h.flatMap_right (fun g => if g.Meets c per pol xs x then siteEntry per e x g.ray else [])
  rw [← hf, ← hf] at this
  convert this

theorem Run.log_going (hdec : AllDecide objs pol) (hpol : ∀ o, (pol o).Blind)
    (hper : ∀ s ∈ objs.flatMap Obj.surfs, s.PerRay (per s))
    (hout : ∀ s ∈ objs.flatMap Obj.surfs, s.PerHit (out s)) (hb : Blind per out (objs.flatMap Obj.surfs))
    {log : σ → List α} {e : Site σ K E → Ray K E → K → List α}
    (hlog : ∀ x ∈ sites objs, x.surf.LogsWhile P log (e x)) (he : ∀ x p t, e x p.strip t = e x p t)
    {b : Bundle K E} {st st' : TraceState σ K E} {steps} (h : Run objs minE st steps st') (hs : st.Shape objs)
    {gs : List (Going K E)} (hF : Follows objs pol st gs) {m : Nat}
    (hgs : (gs.map Going.strip).Perm ((setOut minE m (goingGeneration per out pol (sites objs) minE b m)).map Going.strip))
    (hP : P st.world) :
    P st'.world ∧ (log st'.world).Perm (log st.world ++ (List.range' m steps.length).flatMap fun k => (sites objs).flatMap fun x =>
      (goingHits per pol (sites objs) (setOut minE k (goingGeneration per out pol (sites objs) minE b k)) x).flatMap
        fun y => e x y.1 y.2) := by
  have hobj : ∀ o ∈ objs, o.ShapeOk := by
    intro o ho
    obtain ⟨n, hn⟩ := List.getElem?_of_mem ho
    exact (hdec n o hn).shapeOk
  induction h generalizing gs m with
  | nil st => exact ⟨hP, by simp⟩
  | cons hi hr ih =>
    rename_i st st1 st2 gen rec steps
    obtain ⟨all, _, h2, h3⟩ := iterate_going hs hdec hF hper hout hi
    have hstep : ((all.filter fun g => decide (minE < g.ray.energy)).map Going.strip).Perm
        ((setOut minE (m + 1) (goingGeneration per out pol (sites objs) minE b (m + 1))).map Going.strip) := by
      have e : (all.filter fun g => decide (minE < g.ray.energy)) = setOut minE (m + 1) all := by
        unfold setOut
        rw [if_neg (by omega)]
      rw [e]
      refine setOut_perm minE (m + 1) (h2.trans ?_)
      exact nextGoing_perm (by rw [sites_surf]; exact hb) hpol hgs
    obtain ⟨hP1, hl⟩ := iterate_log_going hs hF hper hlog hP hi
    obtain ⟨hP2, h4⟩ := ih (iterate_shape hobj hs hi) h3 hstep hP1
    refine ⟨hP2, h4.trans ?_⟩
    rw [hl, List.length_cons, List.range'_succ, List.flatMap_cons, List.append_assoc]
    refine List.Perm.append_left _ (List.Perm.append_right _ ?_)
    exact List.Perm.flatMap_left _ fun x hx => goingHits_strip (by rw [sites_surf]; exact hb) hpol he hgs hx

end Tracer
