import Verif.Lemmas.Child
import Verif.Lemmas.Protocol
import Verif.Props.Engine

/-! A trace raises no exception if its surfaces do not. -/

set_option linter.unusedSectionVars false

namespace Tracer

variable {K E σ : Type _} [Field K] [LinearOrder K] [IsStrictOrderedRing K]

/-- A surface that answers for rays satisfying `Q` and sends on rays satisfying `Q`. -/
def Surf.Safe (Q : Ray K E → Prop) (s : Surf σ K E) : Prop :=
  ∀ w rays sel, (∀ r ∈ rays, Q r) → sel ≠ [] → (∀ i ∈ sel, ∃ t : K, (s.register rays)[i]? = some (t : WithTop K)) →
    ∃ out w', s.outgoing w rays sel = .ok (out, w') ∧ ∀ r ∈ out, r.parent ∈ sel ∧ ∀ j : Nat, Q { r with parent := j }

theorem surfLoop_safe {Q : Ray K E → Prop} {objs : List (Obj σ K E)} {minE : K} {b : Bundle K E} (hQ : ∀ r ∈ b, Q r)
    {surfs : List (Surf σ K E)} {fronts owneds : List (List Bool)} {w : σ} {k : Nat}
    (hk : k + surfs.length ≤ (objs.flatMap Obj.surfs).length)
    (hsafe : ∀ s ∈ surfs, s.Safe Q)
    (hf : ∀ f ∈ fronts, f.length = b.length) (ho : ∀ o ∈ owneds, o.length = b.length)
    (hsel : ∀ (j : Nat) s f o, surfs[j]? = some s → fronts[j]? = some f → owneds[j]? = some o →
      ∀ i ∈ Np.nonzero (Np.mask o f), ∃ t : K, (s.register (inRaysOf b o))[i]? = some (t : WithTop K)) :
    ∃ cs w', surfLoop objs minE b w k surfs fronts owneds = .ok (cs, w') ∧
      ∀ c ∈ cs, ∀ r ∈ c.outg, Q r := by
  induction surfs generalizing fronts owneds w k with
  | nil => exact ⟨[], w, by simp [surfLoop], by simp⟩
  | cons s surfs ih =>
    cases fronts with
    | nil => exact ⟨[], w, by simp [surfLoop], by simp⟩
    | cons f fronts =>
      cases owneds with
      | nil => exact ⟨[], w, by simp [surfLoop], by simp⟩
      | cons o owneds =>
        have hk' : k + 1 + surfs.length ≤ (objs.flatMap Obj.surfs).length := by
          rw [List.length_cons] at hk; omega
        have rest := fun w => ih (w := w) hk' (fun s hs => hsafe s (List.mem_cons_of_mem _ hs))
          (fun f hf' => hf f (List.mem_cons_of_mem _ hf')) (fun o ho' => ho o (List.mem_cons_of_mem _ ho'))
          (fun j s f o h1 h2 h3 => hsel (j + 1) s f o (by simpa using h1) (by simpa using h2) (by simpa using h3))
        rw [surfLoop]
        split
        · rename_i hany
          have hol := ho o (List.mem_cons_self ..)
          have hfl := hf f (List.mem_cons_self ..)
          have hfin := hsel 0 s f o rfl rfl rfl
          have hne : Np.nonzero (Np.mask o f) ≠ [] := by
            rw [List.any_eq_true] at hany
            obtain ⟨x, hx, hx'⟩ := hany
            obtain ⟨i, hi⟩ := List.getElem?_of_mem hx
            have : x = true := hx'
            rw [this] at hi
            exact List.ne_nil_of_mem (Np.mem_nonzero.2 hi)
          have hin : inRaysOf b o = Np.mask o b := inRays_eq hol
          rw [hin] at hfin
          obtain ⟨raw, w1, hraw, hout⟩ := hsafe s (List.mem_cons_self ..) w (Np.mask o b) _
            (fun r hr => hQ r ((Np.mask_sublist o b).subset hr)) hne hfin
          obtain ⟨c, hc⟩ := contribute_exists (objs := objs) (minE := minE) (k := k) hol hfl
            (by rw [List.length_cons] at hk; omega) hraw (fun r hr => (hout r hr).1)
          obtain ⟨cs, w2, hcs, hall⟩ := rest w1
          rw [hc]
          simp only [hcs]
          refine ⟨_, _, rfl, ?_⟩
          intro c' hc'
          rcases List.mem_cons.1 hc' with rfl | hc'
          · have hcf := contribute_ok hol hc
            obtain ⟨raw', hraw', hfix⟩ := hcf.raw
            rw [hraw] at hraw'
            cases hraw'
            intro r hr
            rw [hcf.outg] at hr
            obtain ⟨r0, hr0, _, hre⟩ := fixParents_mem hfix (List.mem_filter.1 hr).1
            rw [hre]
            exact (hout r0 hr0).2 _
          · exact hall c' hc'
        · exact rest w

theorem iterate_safe {Q : Ray K E → Prop} {objs : List (Obj σ K E)} {minE : K} {st : TraceState σ K E}
    (hs : st.Shape objs) (hne : objs.flatMap Obj.surfs ≠ [])
    (hlen : AllSurfs Surf.LengthOk objs)
    (hfwd : AllSurfs (fun s => ∀ rays, ∀ p ∈ s.register rays, (0 : WithTop K) ≤ p) objs)
    (hsafe : AllSurfs (Surf.Safe Q) objs) (hQ : ∀ r ∈ st.bund, Q r) :
    ∃ st' gen rec, iterate objs (objs.flatMap Obj.surfs) minE st = .ok (st', gen, rec) ∧ ∀ r ∈ st'.bund, Q r := by
  have hlen' : ∀ s ∈ objs.flatMap Obj.surfs, s.LengthOk := fun s h => mem_allSurfs hlen h
  rcases hi : intersectRay st.bund (objs.flatMap Obj.surfs) (surfOwnership objs) st.rayOwn st.relev with e | ⟨front, owned⟩
  · rcases (C20_rejects hs hlen').2.1 ⟨e, hi⟩ with ⟨k, j, p, ⟨s, i, h1, _, h3⟩, hp⟩ | ⟨h, _⟩
    · have := mem_allSurfs hfwd (List.mem_of_getElem? h1) _ p (List.mem_of_getElem? h3)
      have hneg : ((-negTol : K) : WithTop K) < 0 := by
        have := neg_lt_zero.2 (negTol_pos (K := K))
        exact_mod_cast this
      exact absurd (hp.trans hneg) (not_lt.2 this)
    · exact absurd h hne
  · obtain ⟨_, hrowf, _, hrowo, _⟩ := C20_shape hs hi
    obtain ⟨cs, w', hcs, hall⟩ := surfLoop_safe (objs := objs) (minE := minE) (w := st.world) (k := 0) hQ (by simp)
      (fun s h => mem_allSurfs hsafe h) hrowf hrowo
      (fun j s f o h1 h2 h3 => selected_finite hs hlen' hi h1 h2 h3)
    have hweak : cs.flatMap Contribution.weak =
        (cs.flatMap Contribution.record).map fun r => decide (r.energy ≤ minE) :=
      flatMap_map_eq _ _ _ _ (fun c hc => by
        obtain ⟨j, s, f, o, w1, w2, h1, h2, h3, h4, h5⟩ := surfLoop_mem hcs c hc
        exact (contribute_ok (hrowo o (List.mem_of_getElem? h3)) h5).weak)
    unfold iterate
    rw [hi]
    simp only [hcs]
    rw [hweak, Np.take_nonzero (by simp)]
    refine ⟨_, _, _, rfl, ?_⟩
    intro r hr
    obtain ⟨c, hc, hrc⟩ := List.mem_flatMap.1 hr
    exact hall c hc r hrc

theorem traceLoop_safe {Q : Ray K E → Prop} {objs : List (Obj σ K E)} {minE : K} (keep : Bool)
    (hobj : ∀ o ∈ objs, o.ShapeOk) (hne : objs.flatMap Obj.surfs ≠ [])
    (hlen : AllSurfs Surf.LengthOk objs)
    (hfwd : AllSurfs (fun s => ∀ rays, ∀ p ∈ s.register rays, (0 : WithTop K) ≤ p) objs)
    (hsafe : AllSurfs (Surf.Safe Q) objs) (reps : Nat) {st : TraceState σ K E}
    (hs : st.Shape objs) (hQ : ∀ r ∈ st.bund, Q r) (tree : List (Bundle K E)) (last : Option (Bundle K E)) :
    ∃ st' tree' last', traceLoop objs (objs.flatMap Obj.surfs) minE keep reps st tree last = .ok (st', tree', last') ∧
      (0 < reps ∨ last.isSome → last'.isSome) := by
  induction reps generalizing st tree last with
  | zero => exact ⟨st, tree, last, rfl, by simp⟩
  | succ reps ih =>
    obtain ⟨st1, gen, rec, h1, h2⟩ := iterate_safe (minE := minE) hs hne hlen hfwd hsafe hQ
    rw [traceLoop, h1]
    simp only
    split
    · exact ⟨_, _, _, rfl, fun _ => rfl⟩
    · obtain ⟨st', tree', last', h3, h4⟩ := ih (iterate_shape hobj hs h1) h2
        (if keep && !gen.isEmpty then tree ++ [rec] else tree) (some gen)
      exact ⟨st', tree', last', h3, fun _ => h4 (Or.inr rfl)⟩

theorem rayTracer_safe {Q : Ray K E → Prop} {objs : List (Obj σ K E)} {minE : K} {keep : Bool}
    (hobj : ∀ o ∈ objs, o.ShapeOk) (hne : objs.flatMap Obj.surfs ≠ [])
    (hlen : AllSurfs Surf.LengthOk objs)
    (hfwd : AllSurfs (fun s => ∀ rays, ∀ p ∈ s.register rays, (0 : WithTop K) ≤ p) objs)
    (hsafe : AllSurfs (Surf.Safe Q) objs) {reps : Nat} (hk : keep = true ∨ 0 < reps) (w : σ) {b : Bundle K E}
    (hb : ∀ r ∈ b, Q r) : ∃ res, rayTracer objs w b reps minE keep = .ok res := by
  have ho : objs ≠ [] := by rintro rfl; simp at hne
  obtain ⟨st', tree', last', h, h'⟩ := traceLoop_safe (minE := minE) keep hobj hne hlen hfwd hsafe reps
    (initState_shape objs b w) hb (if keep then [b] else []) none
  have hg : getSurfaces objs = .ok (objs.flatMap Obj.surfs) := by
    unfold getSurfaces
    rw [if_neg]
    simpa using ho
  unfold rayTracer
  rw [hg]
  simp only [h]
  cases keep with
  | true => exact ⟨_, rfl⟩
  | false =>
    have := h' (Or.inl (by simpa using hk))
    cases last' with
    | none => simp at this
    | some r => exact ⟨_, rfl⟩

end Tracer
