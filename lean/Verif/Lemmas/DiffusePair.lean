import Verif.Lemmas.PairBatch
import Verif.Lemmas.WhiteLaw
import Verif.Props.Balance
import Verif.Props.Progress

/-! A surface that reflects diffusely, and a receiver that the rays do not meet before it. -/

namespace Tracer

open Real

variable {E σ : Type _}

section
variable {s s' : Surf σ ℝ E} {w w' : σ} {b raw : Bundle ℝ E} {minE : ℝ} {ts : List ℝ} {res : TraceResult σ ℝ E}

/-- The rays of the first two bundles: the source and what the first surface sends. -/
theorem pair_tree (hraw : raw ≠ [])
    (hi : iterate (pair s s') [s, s'] minE (initState (pair s s') b w) = .ok (initState (pair s s') raw w', raw, raw))
    (h : rayTracer (pair s s') w b 2 minE true = .ok res) : res.tree.take 2 = [b, raw] := by
  obtain ⟨_, steps, stf, hrun, _, htree, _, _, _, _, hlast⟩ := rayTracer_run h
  cases hrun with
  | nil => exact absurd rfl (hlast (by simp)).2
  | cons hi' hrun' =>
    have hs : (pair s s').flatMap Obj.surfs = [s, s'] := rfl
    rw [hs, hi] at hi'
    cases hi'
    rw [htree]
    have : raw.isEmpty = false := by simpa using hraw
    simp [this]

theorem pair_hits (h1 : ∀ r ∈ raw, s.single r = ⊤ ∨ s.single r ≤ ((selfTol : ℝ) : WithTop ℝ))
    (h2 : ∀ r ∈ raw, ∀ t : ℝ, s'.single r = (t : WithTop ℝ) → 1 / 10 ^ 6 < t) :
    hitsIn Surf.single [s, s'] s' raw = raw.filterMap fun p => (show Option ℝ from s'.single p).map fun t => (p, t) := by
  unfold hitsIn
  apply List.filterMap_congr
  intro p hp
  unfold nearestParam
  have hsd : (selfTol : ℝ) ≤ 1 / 10 ^ 6 := by unfold selfTol; norm_num
  have hcut : cutoff Surf.single [s, s'] raw ≤ 1 / 10 ^ 6 := by
    unfold cutoff
    split
    · unfold dropTol; norm_num
    · exact hsd
  have hcut' : ∀ t : ℝ, s.single p = (t : WithTop ℝ) → t ≤ cutoff Surf.single [s, s'] raw := by
    intro t ht
    rcases h1 p hp with h | h
    · rw [ht] at h; cases h
    · unfold cutoff
      rw [if_pos ⟨s, by simp, p, hp, h⟩]
      rw [ht, WithTop.coe_le_coe] at h
      refine h.trans ?_
      unfold selfTol dropTol
      norm_num
  generalize hx : s'.single p = x
  cases x with
  | top => rfl
  | coe t =>
    have ht := h2 p hp t hx
    have hn : NearestBeyond (cutoff Surf.single [s, s'] raw) Surf.single [s, s'] s' p t := by
      refine ⟨hx, by linarith, ?_⟩
      intro q hq t' hq' hlt
      simp only [List.mem_cons, List.not_mem_nil, or_false] at hq
      rcases hq with rfl | rfl
      · exact absurd (hcut' t' hq') (not_le.2 hlt)
      · rw [hx] at hq'
        exact (WithTop.coe_le_coe.1 hq'.le)
    show Option.map _ (@ite _ _ (Classical.propDecidable _) (some t) none) = _
    rw [if_pos hn]
    rfl

theorem pair_none (h2 : ∀ r ∈ b, s'.single r = ⊤) : hitsIn Surf.single [s, s'] s' b = [] := by
  unfold hitsIn
  rw [List.filterMap_eq_nil_iff]
  intro p hp
  unfold nearestParam
  rw [h2 p hp]
  rfl

end

section
variable {g g' : Geometry ℝ E} {F G : Tf ℝ} {f f' : Tf ℝ → V3 ℝ → V3 ℝ → WithTop ℝ}
variable {ξ : Nat → ℝ × ℝ} {taken : σ → Nat} {draw : Nat → σ → List (ℝ × ℝ) × σ} {get : σ → Account ℝ} {set : Account ℝ → σ → σ} {a a' : ℝ}
variable {n : Nat} {r : Nat → Ray ℝ E} {t : Nat → ℝ}

/-- The ray that a diffuse surface of normal `m` sends on from the place `p`. -/
noncomputable def diffuseNext (a : ℝ) (p m : V3 ℝ) (r : Ray ℝ E) (d : ℝ × ℝ) (j : Nat) : Ray ℝ E :=
  { r with vertex := p, energy := r.energy * (1 - a), dir := whiteDir m d, parent := j }

theorem diffuse_outgoing (hper : g.PerRay f) (hfind : ∀ j < n, f F (r j).vertex (r j).dir = ((t j : ℝ) : WithTop ℝ))
    (hdr : DrawsFrom ξ taken draw get set) (w : σ) :
    (mkSurf g (lambertian a draw) F : Surf σ ℝ E).outgoing w ((List.range n).map r) (List.range n) =
      .ok ((List.range n).map fun j => diffuseNext a ((r j).at (t j)) (g.normal F ((r j).at (t j)) (r j).dir) (r j) (ξ (taken w + j)) j,
        (draw n w).2) := by
  have hrec := hitRecs_batch (g := g) (frame := F) (rays := (List.range n).map r) (sel := List.range n) (r := r) (t := t)
    (by intro i hi; simp [List.mem_range.1 hi])
    (by intro i hi; rw [hper]; simp [List.mem_range.1 hi, hfind i (List.mem_range.1 hi)])
  simp only [mkSurf]
  rw [hrec]
  simp only [lambertian, List.length_map, List.length_range]
  refine congrArg Except.ok (Prod.ext ?_ rfl)
  show List.zipWith _ _ _ = _
  rw [hdr.next]
  unfold pillbox
  rw [List.map_map, List.zipWith_map, List.zipWith_self]
  rfl

theorem safe_mirror (hper : g'.PerRay f') : (mkSurf g' (reflectiveReceiver a' get set) G : Surf σ ℝ E).Safe fun _ => True := by
  intro w rays sel _ _ hfin
  obtain ⟨recs, hrecs⟩ := hitRecs_exists (frame := G) hper.lengthOk hfin
  have e : (mkSurf g' (reflectiveReceiver a' get set) G : Surf σ ℝ E).outgoing w rays sel = reflectiveReceiver a' get set w G.rot.c3 recs := by
    simp only [mkSurf, hrecs]
  refine ⟨_, _, e.trans rfl, ?_⟩
  intro q hq
  obtain ⟨h, hh, rfl⟩ := List.mem_map.1 hq
  refine ⟨?_, fun _ => trivial⟩
  rw [← (hitRecs_ok hrecs).1]
  exact List.mem_map_of_mem hh

theorem safe_diffuse (hper : g.PerRay f) : (mkSurf g (lambertian a draw) F : Surf σ ℝ E).Safe fun _ => True := by
  intro w rays sel _ _ hfin
  obtain ⟨recs, hrecs⟩ := hitRecs_exists (frame := F) hper.lengthOk hfin
  have e : (mkSurf g (lambertian a draw) F : Surf σ ℝ E).outgoing w rays sel = lambertian a draw w F.rot.c3 recs := by
    simp only [mkSurf, hrecs]
  refine ⟨_, _, e.trans rfl, ?_⟩
  intro q hq
  refine ⟨?_, fun _ => trivial⟩
  rw [← (hitRecs_ok hrecs).1]
  obtain ⟨i, hi, rfl⟩ := List.getElem_of_mem hq
  rw [List.getElem_zipWith]
  exact List.mem_map_of_mem (List.getElem_mem _)

open Classical in
/-- What the receiver reports after two iterations. -/
theorem diffuse_pair (hn : 0 < n) (hper : g.PerRay f) (hper' : g'.PerRay f') (hfwd : g.Forward F) (hfwd' : g'.Forward G)
    (hdr : DrawsFrom ξ taken draw get set) (w : σ) (hw : get w = Account.reset) {minE : ℝ}
    (hfind : ∀ j < n, f F (r j).vertex (r j).dir = ((t j : ℝ) : WithTop ℝ)) (ht : ∀ j < n, 1 / 10 ^ 6 < t j)
    (hmiss : ∀ j < n, f' G (r j).vertex (r j).dir = ⊤) (hE : ∀ j < n, minE < (r j).energy * (1 - a))
    {d : Nat → V3 ℝ} (hd : ∀ j < n, d j = whiteDir (g.normal F ((r j).at (t j)) (r j).dir) (ξ (taken w + j)))
    (hself : ∀ j < n, f F ((r j).at (t j)) (d j) = ⊤ ∨ f F ((r j).at (t j)) (d j) ≤ ((selfTol : ℝ) : WithTop ℝ))
    (hfar : ∀ j < n, ∀ u : ℝ, f' G ((r j).at (t j)) (d j) = (u : WithTop ℝ) → 1 / 10 ^ 6 < u) :
    ∃ res ps, rayTracer [⟨[mkSurf g (lambertian a draw) F], Obj.defaultOwn, Obj.defaultNext 1⟩,
        ⟨[mkSurf g' (reflectiveReceiver a' get set) G], Obj.defaultOwn, Obj.defaultNext 1⟩] w ((List.range n).map r) 2 minE true = .ok res ∧
      (get res.world).getAllHits = .ok
        (((List.range n).filter fun j => decide (f' G ((r j).at (t j)) (d j) ≠ ⊤)).map fun j => (r j).energy * (1 - a) * a', ps) ∧
      ∀ q ∈ ps, ∃ j < n, ∃ u : ℝ, f' G ((r j).at (t j)) (d j) = (u : WithTop ℝ) ∧ q = (r j).at (t j) + u • d j := by
  set s : Surf σ ℝ E := mkSurf g (lambertian a draw) F with hs
  set s' : Surf σ ℝ E := mkSurf g' (reflectiveReceiver a' get set) G with hs'
  set raw : Bundle ℝ E := (List.range n).map fun j =>
    diffuseNext a ((r j).at (t j)) (g.normal F ((r j).at (t j)) (r j).dir) (r j) (ξ (taken w + j)) j with hraw
  have hout := diffuse_outgoing (a := a) hper hfind hdr w
  have hb : (List.range n).map r ≠ [] := by simp; omega
  have hrawne : raw ≠ [] := by simp [hraw]; omega
  have hdef : ∀ o ∈ pair s s', o.Default := by
    intro o ho
    simp only [pair, List.mem_cons, List.not_mem_nil, or_false] at ho
    rcases ho with rfl | rfl <;> exact ⟨rfl, rfl⟩
  have all : ∀ {P : Surf σ ℝ E → Prop}, P s → P s' → AllSurfs P (pair s s') := by
    intro P h1 h2 o ho q hq
    simp only [pair, List.mem_cons, List.not_mem_nil, or_false] at ho
    rcases ho with rfl | rfl
    · simp only [List.mem_cons, List.not_mem_nil, or_false] at hq; rw [hq]; exact h1
    · simp only [List.mem_cons, List.not_mem_nil, or_false] at hq; rw [hq]; exact h2
  have hp1 := mkSurf_perRay hper (lambertian a draw : Optics σ ℝ E) F
  have hp2 := mkSurf_perRay hper' (reflectiveReceiver a' get set : Optics σ ℝ E) G
  have hsing : ∀ q : Ray ℝ E, s.single q = f F q.vertex q.dir := fun q => single_of_perRay hper _ F q
  have hsing' : ∀ q : Ray ℝ E, s'.single q = f' G q.vertex q.dir := fun q => single_of_perRay hper' _ G q
  have hi : iterate (pair s s') [s, s'] minE (initState (pair s s') ((List.range n).map r) w) =
      .ok (initState (pair s s') raw (draw n w).2, raw, raw) := by
    refine pair_iterate (ts := (List.range n).map t) hb ?_ ?_ (by simp) ?_ (by rw [List.length_map, List.length_range]; exact hout) ?_ ?_
    · rw [hp1, List.map_map, List.map_map]
      exact List.map_congr_left fun j hj => hfind j (List.mem_range.1 hj)
    · rw [hp2, List.map_map, List.length_map, List.length_range, List.eq_replicate_iff]
      refine ⟨by simp, ?_⟩
      intro x hx
      obtain ⟨j, hj, rfl⟩ := List.mem_map.1 hx
      exact hmiss j (List.mem_range.1 hj)
    · intro x hx
      obtain ⟨j, hj, rfl⟩ := List.mem_map.1 hx
      exact ht j (List.mem_range.1 hj)
    · simp [hraw, diffuseNext, Function.comp_def]
    · intro q hq
      obtain ⟨j, hj, rfl⟩ := List.mem_map.1 hq
      exact hE j (List.mem_range.1 hj)
  obtain ⟨res, hres⟩ : ∃ res, rayTracer (pair s s') w ((List.range n).map r) 2 minE true = .ok res :=
    rayTracer_safe (Q := fun _ => True) (fun o ho => (hdef o ho).shapeOk) (by simp [pair])
      (all (mkSurf_lengthOk hper.lengthOk _ _) (mkSurf_lengthOk hper'.lengthOk _ _))
      (all (fun rays p hp => hfwd rays p hp) (fun rays p hp => hfwd' rays p hp))
      (all (safe_diffuse hper) (safe_mirror hper')) (Or.inl rfl) w (fun _ _ => trivial)
  have hkeep : KeepsMemory get (reflective a' : Optics σ ℝ E) := by
    intro w up hits out w' h
    simp only [reflective, Except.ok.injEq, Prod.mk.injEq] at h
    rw [← h.2]
  have hign : s.Ignores get := by
    intro w rays sel out w' h
    obtain ⟨recs, _, h2⟩ := mkSurf_ok h
    simp only [lambertian, Except.ok.injEq, Prod.mk.injEq] at h2
    rw [← h2.2]
    exact hdr.memory _ _
  have hrec := C67_receiver (i := 1) (s := s') (per := Surf.single) hdef (all hp1.single hp2.single) hdr.written hkeep rfl rfl (by
    intro j q hj hq
    have : j = 0 := by
      have := (List.getElem?_eq_some_iff.1 hq).1
      simp [pair] at this
      omega
    subst this
    have : q = s := by simpa [pair] using hq.symm
    rw [this]
    exact hign) hres
  have hread : (get res.world).Readable := by
    refine C67_readable hdr.written (all (Or.inl hign) (Or.inr ⟨g', G, a', reflective a', hkeep, rfl⟩)) hres ?_
    rw [hw]
    exact reset_readable
  have hprop : propagated minE 1 raw = raw := by
    unfold propagated
    rw [if_neg one_ne_zero, List.filter_eq_self]
    intro q hq
    obtain ⟨j, hj, rfl⟩ := List.mem_map.1 hq
    exact decide_eq_true (hE j (List.mem_range.1 hj))
  have hhits : hitsOn Surf.single ((pair s s').flatMap Obj.surfs) minE 2 res.tree s' =
      raw.filterMap fun p => (show Option ℝ from s'.single p).map fun t => (p, t) := by
    unfold hitsOn
    rw [pair_tree hrawne hi hres]
    show hitsIn Surf.single [s, s'] s' (propagated minE 0 _) ++ (hitsIn Surf.single [s, s'] s' (propagated minE 1 raw) ++ []) = _
    rw [List.append_nil, hprop, propagated, if_pos rfl, pair_none (b := (List.range n).map r) ?_, List.nil_append, pair_hits]
    · intro q hq
      obtain ⟨j, hj, rfl⟩ := List.mem_map.1 hq
      rw [hsing]
      have := hself j (List.mem_range.1 hj)
      rw [hd j (List.mem_range.1 hj)] at this
      exact this
    · intro q hq u hu
      obtain ⟨j, hj, rfl⟩ := List.mem_map.1 hq
      rw [hsing'] at hu
      refine hfar j (List.mem_range.1 hj) u ?_
      rw [hd j (List.mem_range.1 hj)]
      exact hu
    · intro q hq
      obtain ⟨j, hj, rfl⟩ := List.mem_map.1 hq
      rw [hsing']
      exact hmiss j (List.mem_range.1 hj)
  rw [hhits, hw] at hrec
  refine ⟨res, (get res.world).hits.flatten, hres, ?_, ?_⟩
  · rw [hread, hrec.1]
    congr 2
    show [] ++ _ = _
    rw [List.nil_append, List.map_filterMap, hraw, List.filterMap_map, ← List.filterMap_eq_filter, ← List.filterMap_eq_map]
    rw [List.filterMap_filterMap]
    apply List.filterMap_congr
    intro j hj
    have hj := List.mem_range.1 hj
    simp only [Function.comp]
    rw [hsing']
    have e : f' G (diffuseNext a ((r j).at (t j)) (g.normal F ((r j).at (t j)) (r j).dir) (r j) (ξ (taken w + j)) j).vertex
        (diffuseNext a ((r j).at (t j)) (g.normal F ((r j).at (t j)) (r j).dir) (r j) (ξ (taken w + j)) j).dir = f' G ((r j).at (t j)) (d j) := by
      rw [hd j hj]
      rfl
    rw [e]
    simp only [Option.guard]
    by_cases hx : f' G ((r j).at (t j)) (d j) = ⊤
    · rw [if_neg (by simp [hx]), hx]
      rfl
    · obtain ⟨u, hu⟩ := WithTop.ne_top_iff_exists.1 hx
      rw [if_pos (by simp [hx]), ← hu]
      rfl
  · intro q hq
    rw [hrec.2] at hq
    have hq : q ∈ List.map _ _ := hq
    obtain ⟨⟨p, u⟩, hpu, rfl⟩ := List.mem_map.1 hq
    rw [List.mem_filterMap] at hpu
    obtain ⟨p', hp', hpu⟩ := hpu
    obtain ⟨j, hj, rfl⟩ := List.mem_map.1 hp'
    have hj := List.mem_range.1 hj
    obtain ⟨u', hu', hpu'⟩ := Option.map_eq_some_iff.1 hpu
    cases hpu'
    have hu' : s'.single _ = ((u : ℝ) : WithTop ℝ) := hu'
    rw [hsing'] at hu'
    refine ⟨j, hj, u, ?_, ?_⟩
    · rw [hd j hj]; exact hu'
    · rw [hd j hj]; rfl

end

end Tracer
