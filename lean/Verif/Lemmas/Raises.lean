import Verif.Lemmas.Progress

/-! When a trace is stopped by an answer behind a ray. -/

set_option linter.unusedSectionVars false

namespace Tracer

variable {K E σ : Type _} [Field K] [LinearOrder K] [IsStrictOrderedRing K]

/-- Some surface answers, for a ray of the bundle, a place more than 1e-16 behind it. -/
def Behind (surfs : List (Surf σ K E)) (b : Bundle K E) : Prop :=
  ∃ s ∈ surfs, ∃ p ∈ s.register b, p < ((-(1 / 10 ^ 16) : K) : WithTop K)

theorem intersect_behind {objs : List (Obj σ K E)} {st : TraceState σ K E} (hs : st.Shape objs)
    (hfree : AllFree st.rayOwn st.relev) (hne : objs.flatMap Obj.surfs ≠ []) (hlen : AllSurfs Surf.LengthOk objs) :
    (intersectRay st.bund (objs.flatMap Obj.surfs) (surfOwnership objs) st.rayOwn st.relev = .error .value ↔
      Behind (objs.flatMap Obj.surfs) st.bund) ∧
    ∀ e, intersectRay st.bund (objs.flatMap Obj.surfs) (surfOwnership objs) st.rayOwn st.relev = .error e → e = .value := by
  have hlen' : ∀ s ∈ objs.flatMap Obj.surfs, s.LengthOk := fun s h => mem_allSurfs hlen h
  obtain ⟨hv, hiff⟩ := C20_rejects hs hlen'
  refine ⟨⟨fun h => ?_, ?_⟩, hv⟩
  · rcases hiff.1 ⟨_, h⟩ with ⟨k, j, p, ha, hp⟩ | ⟨h0, _⟩
    · obtain ⟨s, h1, _, h3⟩ := (hfree.answer hs k j p).1 ha
      exact ⟨s, List.mem_of_getElem? h1, p, List.mem_of_getElem? h3, hp⟩
    · exact absurd h0 hne
  · rintro ⟨s, h1, p, h2, hp⟩
    obtain ⟨k, hk⟩ := List.getElem?_of_mem h1
    obtain ⟨j, hj⟩ := List.getElem?_of_mem h2
    have hjl : j < st.bund.length := by
      have := (List.getElem?_eq_some_iff.1 hj).1
      rwa [hlen' s h1] at this
    obtain ⟨e, he⟩ := hiff.2 (Or.inl ⟨k, j, p, (hfree.answer hs k j p).2 ⟨s, hk, hjl, hj⟩, hp⟩)
    rw [he, hv e he]

theorem iterate_or_behind {Q : Ray K E → Prop} {objs : List (Obj σ K E)} {minE : K} {st : TraceState σ K E}
    (hs : st.Shape objs) (hfree : AllFree st.rayOwn st.relev) (hne : objs.flatMap Obj.surfs ≠ [])
    (hlen : AllSurfs Surf.LengthOk objs) (hsafe : AllSurfs (Surf.Safe Q) objs) (hQ : ∀ r ∈ st.bund, Q r) :
    (Behind (objs.flatMap Obj.surfs) st.bund ∧ iterate objs (objs.flatMap Obj.surfs) minE st = .error .value) ∨
    (¬ Behind (objs.flatMap Obj.surfs) st.bund ∧
      ∃ st' gen rec, iterate objs (objs.flatMap Obj.surfs) minE st = .ok (st', gen, rec) ∧ ∀ r ∈ st'.bund, Q r) := by
  have hlen' : ∀ s ∈ objs.flatMap Obj.surfs, s.LengthOk := fun s h => mem_allSurfs hlen h
  obtain ⟨hiff, hval⟩ := intersect_behind hs hfree hne hlen
  rcases hi : intersectRay st.bund (objs.flatMap Obj.surfs) (surfOwnership objs) st.rayOwn st.relev with e | ⟨front, owned⟩
  · obtain rfl := hval e hi
    refine Or.inl ⟨hiff.1 hi, ?_⟩
    unfold iterate
    rw [hi]
  · refine Or.inr ⟨fun hb => ?_, ?_⟩
    · have := hiff.2 hb
      rw [hi] at this
      cases this
    · obtain ⟨_, hrowf, _, hrowo, _⟩ := C20_shape hs hi
      obtain ⟨cs, w', hcs, hall⟩ := surfLoop_safe (objs := objs) (minE := minE) (w := st.world) (k := 0) hQ (by simp)
        (fun s h => mem_allSurfs hsafe h) hrowf hrowo
        (fun j s f o h1 h2 h3 => selected_finite hs hlen' hi h1 h2 h3)
      have hweak : cs.flatMap Contribution.weak =
          (cs.flatMap Contribution.record).map fun r => decide (r.energy ≤ minE) :=
        flatMap_map_eq _ _ _ _ (fun c hc => by
          obtain ⟨j, s, f, o, w1, w2, h1, h2, h3, h4, h5⟩ := surfLoop_mem hcs c hc
          exact (contribute_ok (hrowo o (List.mem_of_getElem? h3)) h5).weak)
      unfold iterate
      rw [hi]
      simp only [hcs]
      rw [hweak, Np.take_nonzero (by simp)]
      refine ⟨_, _, _, rfl, ?_⟩
      intro r hr
      obtain ⟨c, hc, hrc⟩ := List.mem_flatMap.1 hr
      exact hall c hc r hrc

theorem traceLoop_or_behind {Q : Ray K E → Prop} {objs : List (Obj σ K E)} {minE : K} (keep : Bool)
    (hdef : ∀ o ∈ objs, o.Default) (hne : objs.flatMap Obj.surfs ≠ []) (hlen : AllSurfs Surf.LengthOk objs)
    (hsafe : AllSurfs (Surf.Safe Q) objs) (reps : Nat) {st : TraceState σ K E}
    (hs : st.Shape objs) (hfree : AllFree st.rayOwn st.relev) (hQ : ∀ r ∈ st.bund, Q r)
    (tree : List (Bundle K E)) (last : Option (Bundle K E)) :
    (∃ st' tree' last', traceLoop objs (objs.flatMap Obj.surfs) minE keep reps st tree last = .ok (st', tree', last') ∧
      (0 < reps ∨ last.isSome → last'.isSome)) ∨
    (traceLoop objs (objs.flatMap Obj.surfs) minE keep reps st tree last = .error .value ∧
      ∃ steps st1, Run objs minE st steps st1 ∧ steps.length < reps ∧ (∀ s ∈ steps, s.2.2.bund ≠ []) ∧
        Behind (objs.flatMap Obj.surfs) st1.bund) := by
  have hobj : ∀ o ∈ objs, o.ShapeOk := fun o ho => (hdef o ho).shapeOk
  induction reps generalizing st tree last with
  | zero => exact Or.inl ⟨st, tree, last, rfl, by simp⟩
  | succ reps ih =>
    rcases iterate_or_behind (minE := minE) hs hfree hne hlen hsafe hQ with ⟨hb, he⟩ | ⟨-, st1, gen, rec, h1, h2⟩
    · refine Or.inr ⟨?_, [], st, Run.nil _, by simp, by simp, hb⟩
      rw [traceLoop, he]
    · rw [traceLoop, h1]
      simp only
      split
      · exact Or.inl ⟨_, _, _, rfl, fun _ => rfl⟩
      · rename_i hnb
        rcases ih (iterate_shape hobj hs h1) (iterate_free hdef hs h1) h2
          (if keep && !gen.isEmpty then tree ++ [rec] else tree) (some gen) with ⟨st', tree', last', h3, h4⟩ | ⟨h3, steps, st2, hr, hl, hb, hbe⟩
        · exact Or.inl ⟨st', tree', last', h3, fun _ => h4 (Or.inr rfl)⟩
        · refine Or.inr ⟨h3, _, _, Run.cons h1 hr, by simp; omega, ?_, hbe⟩
          intro s hs'
          rcases List.mem_cons.1 hs' with rfl | hs'
          · simpa using hnb
          · exact hb s hs'

theorem ok_keep {objs : List (Obj σ K E)} {w : σ} {b : Bundle K E} {reps : Nat} {minE : K} {keep : Bool}
    {res : TraceResult σ K E} (h : rayTracer objs w b reps minE keep = .ok res) :
    ∃ res', rayTracer objs w b reps minE true = .ok res' := by
  cases keep with
  | true => exact ⟨res, h⟩
  | false =>
    obtain ⟨hne, steps, st', hrun, hl, hdl, hend⟩ := rayTracer_run_false h
    exact ⟨_, (rayTracer_of_run hne hrun hl hdl hend).1⟩

/-- The trace returns, or raises `ValueError`, and it does the latter exactly if some generation of rays is answered behind. -/
theorem rayTracer_raises {Q : Ray K E → Prop} {objs : List (Obj σ K E)} {minE : K} {keep : Bool}
    (hdef : ∀ o ∈ objs, o.Default) (hne : objs.flatMap Obj.surfs ≠ []) (hlen : AllSurfs Surf.LengthOk objs)
    (hsafe : AllSurfs (Surf.Safe Q) objs) {reps : Nat} (hk : keep = true ∨ 0 < reps) (w : σ) {b : Bundle K E}
    (hb : ∀ r ∈ b, Q r) :
    ((∃ res, rayTracer objs w b reps minE keep = .ok res) ∨ rayTracer objs w b reps minE keep = .error .value) ∧
    (rayTracer objs w b reps minE keep = .error .value ↔
      ∃ k res lvl, k < reps ∧ rayTracer objs w b k minE true = .ok res ∧ res.tree[k]? = some lvl ∧
        Behind (objs.flatMap Obj.surfs) (propagated minE k lvl)) := by
  have hobj : ∀ o ∈ objs, o.ShapeOk := fun o ho => (hdef o ho).shapeOk
  have ho : objs ≠ [] := by rintro rfl; simp at hne
  have hsh := initState_shape objs b w
  have hfree := initState_free objs b w
  have hg : getSurfaces objs = .ok (objs.flatMap Obj.surfs) := by
    unfold getSurfaces
    rw [if_neg]
    simpa using ho
  have hconv : (∃ k res lvl, k < reps ∧ rayTracer objs w b k minE true = .ok res ∧ res.tree[k]? = some lvl ∧
        Behind (objs.flatMap Obj.surfs) (propagated minE k lvl)) →
      ∀ res, rayTracer objs w b reps minE keep ≠ .ok res := by
    rintro ⟨k, res, lvl, hkr, h1, h2, hbe⟩ res' h'
    obtain ⟨res2, h3⟩ := ok_keep h'
    obtain ⟨res3, h4, h5⟩ := C11_prefix hobj hkr.le h3
    rw [h1] at h4
    cases h4
    have h6 : res2.tree[k]? = some lvl := by
      rw [h5, List.getElem?_take_of_lt (by omega)] at h2
      exact h2
    have hpne : propagated minE k lvl ≠ [] := by
      intro h0
      obtain ⟨s, hs, p, hp, _⟩ := hbe
      have := mem_allSurfs hlen hs (propagated minE k lvl)
      rw [h0] at this hp
      rw [List.eq_nil_of_length_eq_zero this] at hp
      simp at hp
    obtain ⟨st, st', gen, rec, steps, weak, hrun, _, hst, hbund, _, hi, _⟩ := tree_step hobj h3 h6 hkr (Or.inr hpne)
    rw [← hbund] at hbe
    have hfr := hrun.free hdef hsh hfree
    have := (intersect_behind hst hfr hne hlen).1.2 hbe
    unfold iterate at hi
    rw [this] at hi
    cases hi
  rcases traceLoop_or_behind (minE := minE) keep hdef hne hlen hsafe reps hsh hfree hb
    (if keep then [b] else []) none with ⟨st', tree', last', h, h'⟩ | ⟨h, steps, st1, hrun, hl, hbn, hbe⟩
  · have hok : ∃ res, rayTracer objs w b reps minE keep = .ok res := by
      unfold rayTracer
      rw [hg]
      simp only [h]
      cases keep with
      | true => exact ⟨_, rfl⟩
      | false =>
        have := h' (Or.inl (by simpa using hk))
        cases last' with
        | none => simp at this
        | some r => exact ⟨_, rfl⟩
    refine ⟨Or.inl hok, fun he => ?_, fun hc => ?_⟩
    · obtain ⟨res, hres⟩ := hok
      rw [hres] at he
      cases he
    · obtain ⟨res, hres⟩ := hok
      exact absurd hres (hconv hc res)
  · have herr : rayTracer objs w b reps minE keep = .error .value := by
      unfold rayTracer
      rw [hg]
      simp only [h]
    refine ⟨Or.inr herr, fun _ => ?_, fun _ => herr⟩
    have hrt := (rayTracer_of_run (reps := steps.length) ho hrun le_rfl
      (fun s hs => hbn s (List.dropLast_subset _ hs)) (by omega)).1
    have hall : steps.filter (fun s => ! s.1.isEmpty) = steps := by
      rw [List.filter_eq_self]
      intro s hs
      have := Run.gen_ne_nil hobj hrun hsh (gen := s.1) (rec := s.2.1) (st1 := s.2.2) hs (hbn s hs)
      simpa using this
    rw [hall] at hrt
    rcases List.eq_nil_or_concat steps with rfl | ⟨l, a, rfl⟩
    · cases hrun
      exact ⟨0, _, b, hl, hrt, rfl, by simpa [propagated, initState] using hbe⟩
    · simp only [List.concat_eq_append] at *
      obtain ⟨m, hm1, hm2⟩ := hrun.append_inv
      obtain ⟨gen0, rec0, st0⟩ := a
      cases hm2 with
      | cons hi0 hr0 =>
        cases hr0
        have hf := iterate_ok (hm1.shape hobj hsh) hi0
        refine ⟨_, _, rec0, hl, hrt, ?_, ?_⟩
        · simp
        · rw [hf.recorded, propagated_append (by simp)]
          · exact hbe
          · rw [hf.strong]
            intro r hr
            simpa using (List.mem_filter.1 hr).2
          · intro r hr
            simpa using (List.mem_filter.1 hr).2

end Tracer
