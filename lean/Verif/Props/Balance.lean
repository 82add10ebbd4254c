import Verif.Lemmas.Log
import Verif.Props.Receivers

/-!
# Where the energy of a trace goes (C66), what receivers hold after a trace (C67)
-/

set_option linter.unusedSectionVars false

namespace Tracer

variable {K E σ : Type _} [Field K] [LinearOrder K] [IsStrictOrderedRing K]
  {objs : List (Obj σ K E)} {w : σ} {b : Bundle K E} {reps : Nat} {minE : K}
  {res : TraceResult σ K E} {per : Surf σ K E → Ray K E → WithTop K}

/-- C66, partial: nothing is lost.  What receivers write down during the trace and what the rays
without children carry sums to what the source carried, if no two surfaces meet a ray of the trace at
the same parameter.  Missing: ties, where energy is duplicated (`C66_counterexample`). -/
theorem C66_balance_partial (hobj : ∀ o ∈ objs, o.ShapeOk)
    (hper : AllSurfs (fun s => s.PerRay (per s)) objs) (hpar : AllSurfs Surf.ParentsOk objs)
    (htot : AllSurfs Surf.Total objs) {absorbed : σ → K} (hbal : AllSurfs (Surf.Balanced absorbed) objs)
    (h : rayTracer objs w b reps minE true = .ok res)
    (hnt : ∀ lvl ∈ res.tree, ∀ p ∈ lvl, NoTie per (objs.flatMap Obj.surfs) p) :
    absorbed res.world + totalEnergy (treeLeaves res.tree) = absorbed w + totalEnergy b := by
  obtain ⟨_, steps, stf, hrun, _, htree, _, _, hw, hdl, _⟩ := rayTracer_run h
  have hsh := initState_shape objs b w
  have hgen : ∀ s ∈ steps.dropLast, (fun s : Bundle K E × Bundle K E × TraceState σ K E => ! s.1.isEmpty) s = true := by
    intro s hs
    have := Run.gen_ne_nil hobj hrun hsh (gen := s.1) (rec := s.2.1) (st1 := s.2.2)
      (List.dropLast_subset _ hs) (hdl s hs)
    simpa using this
  obtain ⟨rest, hrest, hrl⟩ := filter_steps hgen
  have hempty : ∀ s ∈ rest, s.2.1 = [] := by
    intro s hs
    have hmem : s ∈ steps := by rw [hrest]; exact List.mem_append_right _ hs
    have hg : s.1 = [] := by
      by_contra hne
      have h1 : rest.filter (fun s => ! s.1.isEmpty) = [] := by
        have := congrArg (List.filter fun s => ! s.1.isEmpty) hrest
        rw [List.filter_append, List.filter_filter] at this
        simpa using this
      rw [List.filter_eq_nil_iff] at h1
      exact h1 s hs (by simpa using hne)
    obtain ⟨l1, l2, hl⟩ := List.append_of_mem hmem
    have hrun' := hrun
    rw [hl] at hrun'
    obtain ⟨m, hm1, hm2⟩ := hrun'.append_inv
    obtain ⟨gen, rec, st1⟩ := s
    cases hm2 with
    | cons hi _ =>
      have := (recorded_perm (hm1.shape hobj hsh) hi).length_eq
      simp only at hg
      rw [hg] at this
      simpa using this
  have hfull : ∃ l, steps.map (fun s => s.2.1) = (steps.filter fun s => ! s.1.isEmpty).map (fun s => s.2.1) ++ l ∧
      (l = [] ∨ l = [[]]) := by
    refine ⟨rest.map fun s => s.2.1, ?_, ?_⟩
    · rw [← List.map_append, ← hrest]
    · rcases rest with _ | ⟨s, _ | ⟨s', rest⟩⟩
      · left; rfl
      · right; simp [hempty s (by simp)]
      · simp at hrl
  obtain ⟨l, hl, hl'⟩ := hfull
  have hleaves : treeLeaves (b :: steps.map fun s => s.2.1) = treeLeaves res.tree := by
    rw [htree, hl]
    rcases hl' with rfl | rfl
    · rw [List.append_nil]
    · rw [← List.cons_append, treeLeaves_append_nil]
  have := hrun.balance hobj hper hpar htot hbal hsh (L := b) (weak := []) (by simp [initState]) (by
    intro lvl hlv p hp
    rw [hl, ← List.cons_append, ← htree, List.mem_append] at hlv
    rcases hlv with hlv | hlv
    · exact hnt lvl hlv p hp
    · rcases hl' with rfl | rfl
      · simp at hlv
      · simp at hlv; subst hlv; simp at hp)
  rw [hleaves, ← hw] at this
  exact this

/-- What all surfaces write down during a trace, in order.  Every surface number `i` writes `e i p t`
when it is hit by the ray `p` at parameter `t`. -/
theorem trace_log {α : Type _} (hdef : ∀ o ∈ objs, o.Default)
    (hper : AllSurfs (fun s => s.PerRay (per s)) objs) {log : σ → List α} {e : Nat → Ray K E → K → List α}
    (hlog : ∀ (i : Nat) s, (objs.flatMap Obj.surfs)[i]? = some s → s.Logs log (e i))
    (h : rayTracer objs w b reps minE true = .ok res) :
    log res.world = log w ++ (res.tree.take reps).zipIdx.flatMap
      (levelEntries per (objs.flatMap Obj.surfs) minE e) := by
  have hobj : ∀ o ∈ objs, o.ShapeOk := fun o ho => (hdef o ho).shapeOk
  obtain ⟨_, steps, stf, hrun, hlen, htree, _, _, hw, hdl, hend⟩ := rayTracer_run h
  have hsh := initState_shape objs b w
  obtain ⟨h1, h2⟩ := hrun.log hdef (fun s hs => mem_allSurfs hper hs) hlog hsh (initState_free objs b w)
    (L := b) (k := 0) (by simp [propagated, initState])
  rw [hw, h1]
  congr 1
  have hgen : ∀ s ∈ steps.dropLast, (fun s : Bundle K E × Bundle K E × TraceState σ K E => ! s.1.isEmpty) s = true := by
    intro s hs
    have := Run.gen_ne_nil hobj hrun hsh (gen := s.1) (rec := s.2.1) (st1 := s.2.2)
      (List.dropLast_subset _ hs) (hdl s hs)
    simpa using this
  obtain ⟨rest, hrest, hrl⟩ := filter_steps hgen
  have hfl : (steps.filter fun s => ! s.1.isEmpty).length + rest.length = steps.length := by
    conv_rhs => rw [hrest]
    simp
  have htl : (b :: steps.map fun s => s.2.1) = res.tree ++ rest.map fun s => s.2.1 := by
    rw [htree, List.cons_append, ← List.map_append, ← hrest]
  have htreelen : res.tree.length = (steps.filter fun s => ! s.1.isEmpty).length + 1 := by
    rw [htree]; simp
  have e1 : (b :: steps.map fun s => s.2.1).take steps.length = res.tree.take steps.length := by
    rw [htl, List.take_append_of_le_length (by omega)]
  rw [e1]
  rcases Nat.lt_or_ge steps.length reps with hlt | hge
  · obtain ⟨he1, he2⟩ := hend hlt
    rcases Nat.lt_or_ge steps.length res.tree.length with hs | hs
    · -- the last recorded bundle is too weak to be traced
      have htl2 : res.tree.length = steps.length + 1 := by omega
      have e2 : res.tree.take reps = res.tree.take steps.length ++ [res.tree[steps.length]] := by
        rw [List.take_of_length_le (by omega)]
        conv_lhs => rw [← List.take_length (l := res.tree), htl2, List.take_add_one]
        rw [List.getElem?_eq_getElem hs]
        rfl
      rw [e2, List.zipIdx_append, List.flatMap_append]
      have hp := h2 res.tree[steps.length] (by
        rw [htl, List.getElem?_append_left hs, List.getElem?_eq_getElem hs])
      rw [he1] at hp
      have : (res.tree.take steps.length).length = steps.length := by simp; omega
      simp only [this, List.zipIdx_cons, List.zipIdx_nil, List.flatMap_cons, List.flatMap_nil, List.append_nil]
      rw [levelEntries_nil _ _ _ _ _ hp, List.append_nil]
    · rw [List.take_of_length_le hs, List.take_of_length_le (by omega)]
  · rw [show reps = steps.length by omega]

/-! ### The callables of the package -/

theorem hitRecs_rays {g : Geometry K E} {frame : Tf K} {rays : Bundle K E} {sel : List Nat}
    {recs : List (HitRec K E)} (h : hitRecs g frame rays sel = .ok recs) :
    sel.filterMap (fun i => rays[i]?) = recs.map HitRec.ray := by
  obtain ⟨h1, h2⟩ := hitRecs_ok h
  rw [← h1, List.filterMap_map]
  clear h1 h
  induction recs with
  | nil => rfl
  | cons q recs ih =>
    have := (h2 q (by simp)).1
    simp only [List.map_cons]
    rw [List.filterMap_cons_some (f := (fun i => rays[i]?) ∘ HitRec.idx) this, ih (fun r hr => h2 r (List.mem_cons_of_mem _ hr))]

theorem hitRecs_entries {α : Type _} {g : Geometry K E} {frame : Tf K} {rays : Bundle K E} {sel : List Nat}
    {recs : List (HitRec K E)} (h : hitRecs g frame rays sel = .ok recs) {e : Ray K E → K → List α}
    {e' : HitRec K E → List α} (he : ∀ (q : HitRec K E) t, q.point = q.ray.at t → e q.ray t = e' q) :
    selEntries e rays (g.find frame rays) sel = recs.flatMap e' := by
  induction sel generalizing recs with
  | nil =>
    simp only [hitRecs, Except.ok.injEq] at h
    subst h
    rfl
  | cons i sel ih =>
    unfold hitRecs at h
    split at h
    · rename_i r t hr ht
      split at h
      · simp at h
      · rename_i recs' hrecs
        simp only [Except.ok.injEq] at h
        subst h
        have := ih hrecs
        unfold selEntries at this ⊢
        rw [List.flatMap_cons, List.flatMap_cons, this, ← he _ t rfl, hr]
        congr 1
        split
        · rename_i p t' h1 h2
          cases h1
          have : t' = t := Option.some.inj (Option.some.inj (h2.symm.trans ht))
          rw [this]
        · rename_i h1
          exact absurd ht (h1 r t rfl)
    · simp at h
    · simp at h

/-- A callable that loses no energy, `absorbed` being what is written down. -/
def Optics.Balanced (absorbed : σ → K) (opt : Optics σ K E) : Prop :=
  ∀ w up hits out w', opt w up hits = .ok (out, w') →
    absorbed w' + totalEnergy out = absorbed w + totalEnergy (hits.map HitRec.ray)

theorem mkSurf_balanced (g : Geometry K E) {opt : Optics σ K E} {absorbed : σ → K} (ho : opt.Balanced absorbed)
    (frame : Tf K) : (mkSurf g opt frame).Balanced absorbed := by
  intro w rays sel out w' h
  obtain ⟨recs, h1, h2⟩ := mkSurf_ok h
  rw [hitRecs_rays h1]
  exact ho _ _ _ _ _ h2

/-- A mirror that absorbs nothing is balanced. -/
theorem C66_mirror (absorbed : σ → K) : (reflective 0 : Optics σ K E).Balanced absorbed := by
  intro w up hits out w' h
  simp only [reflective, Except.ok.injEq, Prod.mk.injEq] at h
  obtain ⟨rfl, rfl⟩ := h
  simp [totalEnergy, reflectOne, Function.comp_def]

/-- A receiver around a callable that gives on the share `1 - a` of the energy is balanced: what it
writes down is the sum of its absorbed energies, and nobody else's. -/
theorem C66_receiver {a : K} {get : σ → Account K} {set : Account K → σ → σ} {opt : Optics σ K E}
    {rest : σ → K} (hgs : ∀ acc w, get (set acc w) = acc) (hk : KeepsMemory get opt)
    (hrest : ∀ acc w, rest (set acc w) = rest w)
    (hrest' : ∀ w up hits out w', opt w up hits = .ok (out, w') → rest w' = rest w)
    (hshare : ∀ w up hits out w', opt w up hits = .ok (out, w') →
      out.map Ray.energy = hits.map fun h => h.ray.energy * (1 - a)) :
    (accountant a get set opt).Balanced fun w => (get w).absorbed.flatten.sum + rest w := by
  intro w up hits out w' h
  unfold accountant at h
  have h1 := hk _ _ _ _ _ h
  have h2 := hrest' _ _ _ _ _ h
  have h3 := hshare _ _ _ _ _ h
  rw [hrest] at h2
  simp only [h1, hgs, h2, totalEnergy, h3]
  rw [List.flatten_append, List.sum_append]
  simp only [List.flatten_cons, List.flatten_nil, List.append_nil, List.map_map]
  have key : ∀ l : List (HitRec K E), (l.map fun h => h.ray.energy * a).sum +
      (l.map fun h => h.ray.energy * (1 - a)).sum = (l.map (Ray.energy ∘ HitRec.ray)).sum := by
    intro l
    induction l with
    | nil => simp
    | cons q l ih =>
      simp only [List.map_cons, List.sum_cons, Function.comp_apply]
      rw [← ih]
      ring
  rw [← key hits]
  ring

/-- Refraction loses no energy either. -/
theorem C66_refractive (a b : ℝ) (absorbed : σ → ℝ) :
    (refractiveHomogenous a b : Optics σ ℝ E).Balanced absorbed := by
  intro w up hits out w' h
  obtain ⟨_, _, hw, _, hout⟩ := refractive_ok h
  rw [hout, hw, totalEnergy_append]
  congr 1
  have key : ∀ l : List (HitRec ℝ E), totalEnergy (l.map (hitReflected a b)) +
      totalEnergy ((l.filter (hitRefr a b)).map (hitRefracted a b)) = totalEnergy (l.map HitRec.ray) := by
    intro l
    induction l with
    | nil => simp [totalEnergy]
    | cons q l ih =>
      rw [List.filter_cons]
      simp only [totalEnergy, List.map_cons, List.sum_cons] at ih ⊢
      split
      · simp only [List.map_cons, List.sum_cons]
        rw [← ih]
        simp only [hitReflected, hitRefracted, reflectedRay, refractedRay]
        ring
      · rename_i hr
        rw [← ih]
        simp only [hitReflected, reflectedRay, hitR, hr]
        simp
        ring
  exact key hits

/-! ### Scenes with any number of receivers -/

/-- A world that holds the memories of numbered receivers. -/
abbrev Receivers (K : Type _) := Nat → Account K

/-- Receiver number `i`. -/
def receiverAt (i : Nat) (a : K) : Optics (Receivers K) K E :=
  reflectiveReceiver a (fun w => w i) (fun acc w => Function.update w i acc)

/-- All that the first `n` receivers have absorbed. -/
def absorbedBy (n : Nat) (w : Receivers K) : K :=
  ((List.range n).map fun i => (w i).absorbed.flatten.sum).sum

theorem sum_split (n i : Nat) (hi : i < n) (f : Nat → K) :
    ((List.range n).map f).sum = f i + ((List.range n).map fun j => if j = i then 0 else f j).sum := by
  induction n with
  | zero => omega
  | succ n ih =>
    rw [List.range_succ, List.map_append, List.map_append, List.sum_append, List.sum_append]
    simp only [List.map_cons, List.map_nil, List.sum_cons, List.sum_nil, add_zero]
    by_cases h : i < n
    · rw [ih h, if_neg (by omega)]; ring
    · have hin : n = i := by omega
      subst hin
      have : ((List.range n).map fun j => if j = n then 0 else f j) = (List.range n).map f := by
        apply List.map_congr_left
        intro j hj
        rw [if_neg (by have := List.mem_range.1 hj; omega)]
      rw [this, if_pos rfl]; ring

theorem receiverAt_balanced (n i : Nat) (hi : i < n) (a : K) :
    (receiverAt i a : Optics (Receivers K) K E).Balanced (absorbedBy n) := by
  have h := C66_receiver (a := a) (get := fun w : Receivers K => w i) (set := fun acc w => Function.update w i acc)
    (opt := (reflective a : Optics (Receivers K) K E))
    (rest := fun w => ((List.range n).map fun j => if j = i then 0 else (w j).absorbed.flatten.sum).sum)
    (fun acc w => by simp) (C51_reflective a _).1
    (fun acc w => by
      congr 1
      apply List.map_congr_left
      intro j _
      by_cases hj : j = i
      · simp [hj]
      · simp [hj])
    (fun w up hits out w' h => by
      simp only [reflective, Except.ok.injEq, Prod.mk.injEq] at h
      rw [h.2])
    (fun w up hits out w' h => by
      simp only [reflective, Except.ok.injEq, Prod.mk.injEq] at h
      rw [← h.1, List.map_map]
      rfl)
  intro w up hits out w' ho
  have := h w up hits out w' ho
  have e : ∀ v : Receivers K, absorbedBy n v = (v i).absorbed.flatten.sum +
      ((List.range n).map fun j => if j = i then 0 else (v j).absorbed.flatten.sum).sum := fun v =>
    sum_split n i hi fun j => (v j).absorbed.flatten.sum
  rw [e w', e w]
  exact this

/-- The surface is a perfect mirror or one of the first `n` receivers, of any shape. -/
def MirrorOrReceiver (n : Nat) (s : Surf (Receivers K) K E) : Prop :=
  ∃ (g : Geometry K E) (f : Tf K → V3 K → V3 K → WithTop K) (frame : Tf K), g.PerRay f ∧
    (s = mkSurf g (reflective 0) frame ∨ ∃ (i : Nat) (a : K), i < n ∧ s = mkSurf g (receiverAt i a) frame)

/-- C66, partial, for scenes of perfect mirrors and receivers of any shape and absorptivity: what the
receivers have absorbed during the trace is what the source carried less what the childless rays
carry.  Missing: ties. -/
theorem C66_receivers_partial {objs : List (Obj (Receivers K) K E)} {w : Receivers K}
    {res : TraceResult (Receivers K) K E} {n : Nat} (hobj : ∀ o ∈ objs, o.ShapeOk)
    (hs : AllSurfs (MirrorOrReceiver n) objs) (h : rayTracer objs w b reps minE true = .ok res)
    (hnt : ∀ lvl ∈ res.tree, ∀ p ∈ lvl, NoTie Surf.single (objs.flatMap Obj.surfs) p) :
    absorbedBy n res.world - absorbedBy n w = totalEnergy b - totalEnergy (treeLeaves res.tree) := by
  have hall : ∀ {P : Surf (Receivers K) K E → Prop}, (∀ s, MirrorOrReceiver n s → P s) → AllSurfs P objs :=
    fun hp o ho s hso => hp s (hs o ho s hso)
  have := C66_balance_partial hobj (per := Surf.single) (absorbed := absorbedBy n)
    (hall fun s ⟨g, f, frame, hg, hc⟩ => by
      rcases hc with rfl | ⟨i, a, _, rfl⟩ <;> exact (mkSurf_perRay hg _ _).single)
    (hall fun s ⟨g, f, frame, hg, hc⟩ => by
      rcases hc with rfl | ⟨i, a, _, rfl⟩
      · exact mkSurf_parentsOk g (reflective_atHit (0 : K)) frame
      · exact mkSurf_parentsOk g (opt := receiverAt i a) (fun w up hits out w' he =>
          reflective_atHit a _ up hits out w' he) frame)
    (hall fun s ⟨g, f, frame, hg, hc⟩ => by
      rcases hc with rfl | ⟨i, a, _, rfl⟩
      · exact mkSurf_total g (reflective_total (0 : K)) frame
      · exact mkSurf_total g (opt := receiverAt i a) (fun w up hits out w' he =>
          reflective_total a _ up hits out w' he) frame)
    (hall fun s ⟨g, f, frame, hg, hc⟩ => by
      rcases hc with rfl | ⟨i, a, hi, rfl⟩
      · exact mkSurf_balanced _ (C66_mirror _) _
      · exact mkSurf_balanced _ (receiverAt_balanced n i hi a) _) h hnt
  linarith

/-! ### What one receiver holds -/

theorem accountant_logs {g : Geometry K E} {frame : Tf K} {a : K} {get : σ → Account K}
    {set : Account K → σ → σ} {opt : Optics σ K E} (hgs : ∀ acc w, get (set acc w) = acc)
    (hk : KeepsMemory get opt) :
    (mkSurf g (accountant a get set opt) frame).Logs (fun w => (get w).absorbed.flatten)
      (fun p _ => [p.energy * a]) ∧
    (mkSurf g (accountant a get set opt) frame).Logs (fun w => (get w).hits.flatten)
      (fun p t => [p.at t]) := by
  constructor
  · intro w rays sel out w' h
    obtain ⟨recs, h1, h2⟩ := mkSurf_ok h
    have h3 := hitRecs_entries h1 (e := fun p _ => [p.energy * a]) (e' := fun q => [q.ray.energy * a])
      (fun _ _ _ => rfl)
    unfold accountant at h2
    have h4 := hk _ _ _ _ _ h2
    simp only [h4, hgs]
    rw [List.flatten_append]
    congr 1
    refine Eq.trans ?_ h3.symm
    rw [flatMap_singleton']
    simp
  · intro w rays sel out w' h
    obtain ⟨recs, h1, h2⟩ := mkSurf_ok h
    have h3 := hitRecs_entries h1 (e := fun p t => [p.at t]) (e' := fun q => [q.point])
      (fun _ _ hq => by rw [hq])
    unfold accountant at h2
    have h4 := hk _ _ _ _ _ h2
    simp only [h4, hgs]
    rw [List.flatten_append]
    congr 1
    refine Eq.trans ?_ h3.symm
    rw [flatMap_singleton']
    simp

/-- The surface's calls do not touch a receiver's memory. -/
def Surf.Ignores (get : σ → Account K) (s : Surf σ K E) : Prop :=
  ∀ w rays sel out w', s.outgoing w rays sel = .ok (out, w') → get w' = get w

theorem levelEntries_one {α : Type _} (per : Surf σ K E → Ray K E → WithTop K) (surfs : List (Surf σ K E)) (minE : K)
    (e : Ray K E → K → List α) (i : Nat) (s : Surf σ K E) (hi : surfs[i]? = some s) (x : Bundle K E × Nat) :
    levelEntries per surfs minE (fun j => if j = i then e else fun _ _ => []) x =
      (hitsIn per surfs s (propagated minE x.2 x.1)).flatMap fun z => e z.1 z.2 := by
  unfold levelEntries
  generalize propagated minE x.2 x.1 = l
  have key : ∀ (l' : List (Surf σ K E)) (k : Nat), (l'.zipIdx k).flatMap (fun y => (hitsIn per surfs y.1 l).flatMap fun z =>
      (if y.2 = i then e else fun _ _ => []) z.1 z.2) =
      (if k ≤ i then (l'[i - k]?).toList.flatMap fun s => (hitsIn per surfs s l).flatMap fun z => e z.1 z.2 else []) := by
    intro l'
    induction l' with
    | nil => intro k; simp
    | cons s' l' ih =>
      intro k
      rw [List.zipIdx_cons, List.flatMap_cons, ih (k + 1)]
      by_cases hki : k = i
      · subst hki
        simp
      · rw [if_neg hki]
        by_cases hle : k ≤ i
        · rw [if_pos hle, if_pos (by omega), show i - k = (i - (k + 1)) + 1 by omega]
          simp
        · rw [if_neg hle, if_neg (by omega)]
          simp
  rw [key surfs 0, if_pos (Nat.zero_le _)]
  simp [hi]

/-- C67: after a trace, a receiver has written down one entry per ray that hit its surface, in the
order of the trace: the ray's energy times the absorptivity, and the point where it hit. Its surface
may have any shape; nothing else in the scene touches its memory. -/
theorem C67_receiver (hdef : ∀ o ∈ objs, o.Default) (hper : AllSurfs (fun s => s.PerRay (per s)) objs)
    {i : Nat} {s : Surf σ K E} {g : Geometry K E} {frame : Tf K} {a : K} {get : σ → Account K}
    {set : Account K → σ → σ} {opt : Optics σ K E} (hgs : ∀ acc w, get (set acc w) = acc)
    (hk : KeepsMemory get opt) (hi : (objs.flatMap Obj.surfs)[i]? = some s)
    (hs : s = mkSurf g (accountant a get set opt) frame)
    (hign : ∀ (j : Nat) s', j ≠ i → (objs.flatMap Obj.surfs)[j]? = some s' → s'.Ignores get)
    (h : rayTracer objs w b reps minE true = .ok res) :
    (get res.world).absorbed.flatten = (get w).absorbed.flatten ++
      (hitsOn per (objs.flatMap Obj.surfs) minE reps res.tree s).map (fun x => x.1.energy * a) ∧
    (get res.world).hits.flatten = (get w).hits.flatten ++
      (hitsOn per (objs.flatMap Obj.surfs) minE reps res.tree s).map (fun x => x.1.at x.2) := by
  have gen : ∀ {α : Type _} (log : Account K → List α) (e : Ray K E → K → α),
      s.Logs (fun w => log (get w)) (fun p t => [e p t]) →
      log (get res.world) = log (get w) ++
        (hitsOn per (objs.flatMap Obj.surfs) minE reps res.tree s).map (fun x => e x.1 x.2) := by
    intro α log e hl
    have := trace_log hdef hper (log := fun w => log (get w))
      (e := fun j => if j = i then (fun p t => [e p t]) else fun _ _ => []) (by
        intro j s' hj
        by_cases hji : j = i
        · subst hji
          rw [hi] at hj
          cases hj
          simpa using hl
        · simp only [hji, if_false]
          intro w rays sel out w' ho
          show log (get w') = log (get w) ++ _
          rw [hign j s' hji hj _ _ _ _ _ ho]
          symm
          apply List.append_right_eq_self.2
          rw [List.flatMap_eq_nil_iff]
          intro i _
          split <;> rfl) h
    rw [this]
    congr 1
    unfold hitsOn
    rw [List.map_flatMap]
    congr 1
    funext x
    rw [levelEntries_one _ _ _ (fun p t => [e p t]) i s hi x, flatMap_singleton']
  obtain ⟨l1, l2⟩ := accountant_logs (g := g) (frame := frame) (a := a) hgs hk
  subst hs
  exact ⟨gen (fun acc => acc.absorbed.flatten) (fun p _ => p.energy * a) l1,
    gen (fun acc => acc.hits.flatten) (fun p t => p.at t) l2⟩

/-- C67, as `get_all_hits` reports it: if the memory was empty before the trace and some ray hit. -/
theorem C67_get_all_hits (hdef : ∀ o ∈ objs, o.Default) (hper : AllSurfs (fun s => s.PerRay (per s)) objs)
    {i : Nat} {s : Surf σ K E} {g : Geometry K E} {frame : Tf K} {a : K} {get : σ → Account K}
    {set : Account K → σ → σ} {opt : Optics σ K E} (hgs : ∀ acc w, get (set acc w) = acc)
    (hk : KeepsMemory get opt) (hi : (objs.flatMap Obj.surfs)[i]? = some s)
    (hs : s = mkSurf g (accountant a get set opt) frame)
    (hign : ∀ (j : Nat) s', j ≠ i → (objs.flatMap Obj.surfs)[j]? = some s' → s'.Ignores get)
    (h : rayTracer objs w b reps minE true = .ok res) (h0 : get w = Account.reset)
    (hne : hitsOn per (objs.flatMap Obj.surfs) minE reps res.tree s ≠ []) :
    (get res.world).getAllHits =
      .ok ((hitsOn per (objs.flatMap Obj.surfs) minE reps res.tree s).map (fun x => x.1.energy * a),
        (hitsOn per (objs.flatMap Obj.surfs) minE reps res.tree s).map (fun x => x.1.at x.2)) := by
  obtain ⟨h1, h2⟩ := C67_receiver hdef hper hgs hk hi hs hign h
  rw [h0] at h1 h2
  have := getAllHits_ok (E := E) (a := a)
    (hits := (hitsOn per (objs.flatMap Obj.surfs) minE reps res.tree s).map fun x => ⟨0, x.1, x.1.at x.2, 0⟩)
    (by rw [h1]; simp [Account.reset, Function.comp_def]) (by rw [h2]; simp [Account.reset, Function.comp_def])
    (by simpa using hne)
  rw [this]
  simp [Function.comp_def]

/-! ### What holds of the memories throughout -/

theorem surfLoop_inv {P : σ → Prop} {k : Nat} {w w' : σ} {surfs : List (Surf σ K E)}
    {fronts owneds : List (List Bool)} {cs : List (Contribution K E)}
    (hP : ∀ s ∈ surfs, ∀ w rays sel out w', sel ≠ [] → s.outgoing w rays sel = .ok (out, w') → P w → P w')
    (h : surfLoop objs minE b w k surfs fronts owneds = .ok (cs, w')) (h0 : P w) : P w' := by
  induction surfs generalizing k w fronts owneds cs with
  | nil =>
    unfold surfLoop at h
    simp only [Except.ok.injEq, Prod.mk.injEq] at h
    exact h.2 ▸ h0
  | cons s surfs ih =>
    have ih' := fun {k w fronts owneds cs} => ih (k := k) (w := w) (fronts := fronts) (owneds := owneds)
      (cs := cs) (fun s hs => hP s (List.mem_cons_of_mem _ hs))
    cases fronts with
    | nil =>
      unfold surfLoop at h
      simp only [Except.ok.injEq, Prod.mk.injEq] at h
      exact h.2 ▸ h0
    | cons f fronts =>
      cases owneds with
      | nil =>
        unfold surfLoop at h
        simp only [Except.ok.injEq, Prod.mk.injEq] at h
        exact h.2 ▸ h0
      | cons o owneds =>
        unfold surfLoop at h
        split at h
        · rename_i hany
          split at h
          · simp at h
          · rename_i c w1 hc
            split at h
            · simp at h
            · rename_i cs' w2 hcs
              simp only [Except.ok.injEq, Prod.mk.injEq] at h
              obtain ⟨rfl, rfl⟩ := h
              refine ih' hcs ?_
              unfold contribute at hc
              simp only at hc
              split at hc
              · simp at hc
              · rename_i raw w3 hraw
                have hw : P w3 := hP s (by simp) _ _ _ _ _ (by
                  intro hnil
                  obtain ⟨x, hx, hx1⟩ := List.any_eq_true.1 hany
                  obtain ⟨j, hj, hjx⟩ := List.getElem_of_mem hx
                  have : j ∈ Np.nonzero (Np.mask o f) := Np.mem_nonzero.2 (by
                    rw [List.getElem?_eq_getElem hj, hjx]
                    simpa using hx1)
                  rw [hnil] at this
                  simp at this) hraw h0
                split at hc
                · simp at hc
                · split at hc
                  · simp at hc
                  · split at hc
                    · simp only [Except.ok.injEq, Prod.mk.injEq] at hc
                      exact hc.2 ▸ hw
                    · simp at hc
        · exact ih' h h0

theorem Run.inv {P : σ → Prop} {st st' : TraceState σ K E} {steps}
    (hP : ∀ s ∈ objs.flatMap Obj.surfs, ∀ w rays sel out w', sel ≠ [] →
      s.outgoing w rays sel = .ok (out, w') → P w → P w')
    (h : Run objs minE st steps st') (h0 : P st.world) : P st'.world := by
  induction h with
  | nil => exact h0
  | cons hi _ ih =>
    apply ih
    unfold iterate at hi
    split at hi
    · simp at hi
    · split at hi
      · simp at hi
      · rename_i cs w1 hcs
        simp only at hi
        split at hi
        · simp at hi
        · simp only [Except.ok.injEq, Prod.mk.injEq] at hi
          rw [← hi.1]
          exact surfLoop_inv hP hcs h0

/-- A property of the world that every call with a ray to work on keeps holds after a trace. -/
theorem trace_inv {P : σ → Prop} (hP : AllSurfs (fun s => ∀ w rays sel out w', sel ≠ [] →
      s.outgoing w rays sel = .ok (out, w') → P w → P w') objs)
    (h : rayTracer objs w b reps minE true = .ok res) (h0 : P w) : P res.world := by
  obtain ⟨_, steps, stf, hrun, _, _, _, _, hw, _⟩ := rayTracer_run h
  rw [hw]
  exact hrun.inv (fun s hs => mem_allSurfs hP hs) h0

/-- The memory of a receiver that can be read out. -/
def Account.Readable (acc : Account K) : Prop :=
  acc.getAllHits = .ok (acc.absorbed.flatten, acc.hits.flatten)

theorem filter_flatten {α : Type _} (ll : List (List α)) :
    (ll.filter fun l => ! l.isEmpty).flatten = ll.flatten := by
  induction ll with
  | nil => rfl
  | cons x ll ih => cases x <;> simp [ih]

theorem readable_append {acc : Account K} {l : List K} {l' : List (V3 K)} (hl : l ≠ []) (hl' : l' ≠ []) :
    Account.Readable ⟨acc.absorbed ++ [l], acc.hits ++ [l']⟩ := by
  unfold Account.Readable Account.getAllHits
  have h1 : ¬ (acc.absorbed ++ [l]).isEmpty = true := by simp
  have h2 : ¬ ((acc.absorbed ++ [l]).filter fun l => ! l.isEmpty).isEmpty = true := by
    simp [hl]
  have h3 : ¬ ((acc.hits ++ [l']).filter fun l => ! l.isEmpty).isEmpty = true := by
    simp [hl']
  rw [if_neg h1]
  simp only [h2, h3, filter_flatten]
  simp

/-- C67: after any number of traces that begin with an empty memory, `get_all_hits` does not raise, and
gives all that has been written down; a receiver never hit reports nothing.  Any scene, any object
policies; every surface either works on this memory, as a receiver, or leaves it alone. -/
theorem C67_readable {get : σ → Account K} {set : Account K → σ → σ}
    (hgs : ∀ acc w, get (set acc w) = acc)
    (hs : AllSurfs (fun s => s.Ignores get ∨ ∃ (g : Geometry K E) (frame : Tf K) (a : K) (opt : Optics σ K E),
      KeepsMemory get opt ∧ s = mkSurf g (accountant a get set opt) frame) objs)
    (h : rayTracer objs w b reps minE true = .ok res) (h0 : (get w).Readable) :
    (get res.world).Readable := by
  refine trace_inv (P := fun w => (get w).Readable) ?_ h h0
  intro o ho s hso w1 rays sel out w2 hsel hout h1
  rcases hs o ho s hso with hi | ⟨g, frame, a, opt, hk, rfl⟩
  · rw [hi _ _ _ _ _ hout]; exact h1
  · obtain ⟨recs, hr1, hr2⟩ := mkSurf_ok hout
    have hlen : recs ≠ [] := by
      intro hnil
      have := (hitRecs_ok hr1).1
      rw [hnil] at this
      exact hsel this.symm
    unfold accountant at hr2
    have := hk _ _ _ _ _ hr2
    rw [this, hgs]
    exact readable_append (by simpa using hlen) (by simpa using hlen)

theorem reset_readable : (Account.reset : Account K).Readable := rfl

/-! ### A scene with two receivers -/

namespace Examples

/-- The two facing plates of `facing`, as receivers number 0 and 1. -/
def lowerReceiver : Surf (Receivers ℚ) ℚ Unit := mkSurf flatGM (receiverAt 0 (1/2)) 1
def upperReceiver : Surf (Receivers ℚ) ℚ Unit :=
  mkSurf (finiteFlatGM (rectOutside 4 4)) (receiverAt 1 (1/4)) ⟨1, ⟨0, 0, 2⟩⟩

def receiving : List (Obj (Receivers ℚ) ℚ Unit) :=
  [⟨[lowerReceiver], Obj.defaultOwn, Obj.defaultNext 1⟩, ⟨[upperReceiver], Obj.defaultOwn, Obj.defaultNext 1⟩]

theorem receiving_default : ∀ o ∈ receiving, o.Default := by
  intro o ho
  simp only [receiving, List.mem_cons, List.not_mem_nil, or_false] at ho
  rcases ho with rfl | rfl <;> exact ⟨rfl, rfl⟩

theorem receiving_all {P : Surf (Receivers ℚ) ℚ Unit → Prop} (h1 : P lowerReceiver) (h2 : P upperReceiver) :
    AllSurfs P receiving := by
  intro o ho s hs
  simp only [receiving, List.mem_cons, List.not_mem_nil, or_false] at ho
  rcases ho with rfl | rfl <;> simp only [List.mem_cons, List.not_mem_nil, or_false] at hs <;> subst hs
  · exact h1
  · exact h2

theorem receiving_receivers : AllSurfs (MirrorOrReceiver 2) receiving :=
  receiving_all ⟨_, _, _, flatGM_perRay, .inr ⟨0, _, by omega, rfl⟩⟩
    ⟨_, _, _, finiteFlatGM_perRay _, .inr ⟨1, _, by omega, rfl⟩⟩

theorem receiving_perRay : AllSurfs (fun s => s.PerRay s.single) receiving :=
  receiving_all (mkSurf_perRay flatGM_perRay _ _).single (mkSurf_perRay (finiteFlatGM_perRay _) _ _).single

theorem receiving_trace : ∃ res, rayTracer receiving (fun _ => Account.reset) source 4 (1/5) true = .ok res ∧
    (∀ lvl ∈ res.tree, ∀ p ∈ lvl, NoTie Surf.single (receiving.flatMap Obj.surfs) p) ∧
    totalEnergy (treeLeaves res.tree) = 11/16 ∧ (res.world 0).absorbed = [[1/2, 1/2], [3/16]] ∧
    (res.world 1).absorbed = [[1/8]] := by
  have h : ((rayTracer receiving (fun _ => Account.reset) source 4 (1/5) true).toOption.map fun r =>
      ((r.tree.all fun lvl => lvl.all fun p => decide
        (((receiving.flatMap Obj.surfs).map (Surf.single · p)).Pairwise fun x y => x = ⊤ ∨ x ≠ y)),
        totalEnergy (treeLeaves r.tree), (r.world 0).absorbed, (r.world 1).absorbed)) =
      some (true, 11/16, [[1/2, 1/2], [3/16]], [[1/8]]) := by
    decide +kernel
  cases hr : rayTracer receiving (fun _ => Account.reset) source 4 (1/5) true with
  | error e => rw [hr] at h; simp [Except.toOption] at h
  | ok res =>
    rw [hr] at h
    simp only [Except.toOption, Option.map_some, Option.some.injEq, List.all_eq_true,
      decide_eq_true_eq, Prod.mk.injEq] at h
    exact ⟨res, rfl, fun lvl hl p hp => noTie_of_pairwise (h.1 lvl hl p hp), h.2⟩

theorem receiver_ignores {i j : Nat} (hij : i ≠ j) (g : Geometry ℚ Unit) (a : ℚ) (frame : Tf ℚ) :
    (mkSurf g (receiverAt i a : Optics (Receivers ℚ) ℚ Unit) frame).Ignores fun w => w j := by
  intro w rays sel out w' h
  obtain ⟨recs, _, h2⟩ := mkSurf_ok h
  simp only [receiverAt, reflectiveReceiver, accountant, reflective, Except.ok.injEq, Prod.mk.injEq] at h2
  rw [← h2.2]
  simp [Ne.symm hij]

end Examples

/-- The receivers absorb 21/16 of the 2 units of the source: the rest is carried by childless rays. -/
example : ∃ res, rayTracer Examples.receiving (fun _ => Account.reset) Examples.source 4 (1/5) true = .ok res ∧
    absorbedBy 2 res.world - absorbedBy 2 (fun _ => Account.reset) =
      totalEnergy Examples.source - totalEnergy (treeLeaves res.tree) ∧ absorbedBy 2 res.world = 21/16 := by
  obtain ⟨res, h, hnt, hl, h0, h1⟩ := Examples.receiving_trace
  refine ⟨res, h, C66_receivers_partial (fun o ho => (Examples.receiving_default o ho).shapeOk)
    Examples.receiving_receivers h hnt, ?_⟩
  simp only [absorbedBy, List.range, List.range.loop, List.map_cons, List.map_nil, h0, h1]
  norm_num

/-- The tie duplicates energy: two coincident receivers together absorb all of it and reflect it too. -/
theorem C66_counterexample : ∃ (objs : List (Obj (Receivers ℚ) ℚ Unit)) (b : Bundle ℚ Unit)
    (res : TraceResult (Receivers ℚ) ℚ Unit), AllSurfs (MirrorOrReceiver 2) objs ∧ (∀ o ∈ objs, o.ShapeOk) ∧
    rayTracer objs (fun _ => Account.reset) b 1 0 true = .ok res ∧ totalEnergy b = 2 ∧
    absorbedBy 2 res.world = 2 ∧ totalEnergy (treeLeaves res.tree) = 2 := by
  let objs : List (Obj (Receivers ℚ) ℚ Unit) :=
    [⟨[mkSurf flatGM (receiverAt 0 (1/2)) 1], Obj.defaultOwn, Obj.defaultNext 1⟩,
     ⟨[mkSurf flatGM (receiverAt 1 (1/2)) 1], Obj.defaultOwn, Obj.defaultNext 1⟩]
  have h : ((rayTracer objs (fun _ => Account.reset) Examples.source 1 0 true).toOption.map fun r =>
      (absorbedBy 2 r.world, totalEnergy (treeLeaves r.tree))) = some (2, 2) := by
    decide +kernel
  have hall : ∀ {P : Surf (Receivers ℚ) ℚ Unit → Prop}, (∀ i, i < 2 → P (mkSurf flatGM (receiverAt i (1/2)) 1)) →
      AllSurfs P objs := by
    intro P hp o ho s hs
    simp only [objs, List.mem_cons, List.not_mem_nil, or_false] at ho
    rcases ho with rfl | rfl <;> simp only [List.mem_cons, List.not_mem_nil, or_false] at hs <;> subst hs
    · exact hp 0 (by omega)
    · exact hp 1 (by omega)
  cases hr : rayTracer objs (fun _ => Account.reset) Examples.source 1 0 true with
  | error e => rw [hr] at h; simp [Except.toOption] at h
  | ok res =>
    rw [hr] at h
    simp only [Except.toOption, Option.map_some, Option.some.injEq, Prod.mk.injEq] at h
    refine ⟨objs, Examples.source, res, hall fun i hi => ⟨_, _, _, flatGM_perRay, .inr ⟨i, _, hi, rfl⟩⟩, ?_, hr,
      by norm_num [totalEnergy, Examples.source], h⟩
    intro o ho
    simp only [objs, List.mem_cons, List.not_mem_nil, or_false] at ho
    rcases ho with rfl | rfl <;> exact Obj.Default.shapeOk ⟨rfl, rfl⟩

/-- The lower receiver of the scene is hit three times. -/
example : ∃ res, rayTracer Examples.receiving (fun _ => Account.reset) Examples.source 4 (1/5) true = .ok res ∧
    (hitsOn Surf.single (Examples.receiving.flatMap Obj.surfs) (1/5) 4 res.tree Examples.lowerReceiver).map
      (fun x => x.1.energy * (1/2)) = [1/2, 1/2, 3/16] ∧
    (res.world 0).getAllHits = .ok ([1/2, 1/2, 3/16],
      (hitsOn Surf.single (Examples.receiving.flatMap Obj.surfs) (1/5) 4 res.tree Examples.lowerReceiver).map
        fun x => x.1.at x.2) := by
  obtain ⟨res, h, _, _, h0, _⟩ := Examples.receiving_trace
  have hg : ∀ acc (w : Receivers ℚ), (fun w : Receivers ℚ => w 0) ((fun acc w => Function.update w 0 acc) acc w) = acc := by
    intro acc w; simp
  have hign : ∀ (j : Nat) (s' : Surf (Receivers ℚ) ℚ Unit), j ≠ 0 →
      (Examples.receiving.flatMap Obj.surfs)[j]? = some s' → s'.Ignores fun w => w 0 := by
    intro j s' hj hs
    rcases j with _ | _ | j
    · exact absurd rfl hj
    · simp only [Examples.receiving, List.flatMap_cons, List.flatMap_nil] at hs
      cases hs
      exact Examples.receiver_ignores (by omega) _ _ _
    · simp [Examples.receiving] at hs
  have hk := (C51_reflective (E := Unit) (1/2 : ℚ) (fun w : Receivers ℚ => w 0)).1
  have h1 := C67_receiver (i := 0) Examples.receiving_default Examples.receiving_perRay hg hk rfl rfl hign h
  have h2 : (hitsOn Surf.single (Examples.receiving.flatMap Obj.surfs) (1/5) 4 res.tree Examples.lowerReceiver).map
      (fun x => x.1.energy * (1/2)) = [1/2, 1/2, 3/16] := by
    have := h1.1
    simp only [h0, Account.reset] at this
    simpa using this.symm
  refine ⟨res, h, h2, ?_⟩
  have h3 := C67_get_all_hits (i := 0) Examples.receiving_default Examples.receiving_perRay hg hk rfl rfl hign h rfl (by
    intro hnil
    have hnil' : hitsOn Surf.single (Examples.receiving.flatMap Obj.surfs) (1/5) 4 res.tree Examples.lowerReceiver = [] := hnil
    rw [hnil'] at h2
    simp at h2)
  rw [← h2]
  exact h3

/-- Both receivers of the scene can be read out after the trace. -/
example : ∃ res, rayTracer Examples.receiving (fun _ => Account.reset) Examples.source 4 (1/5) true = .ok res ∧
    (res.world 0).Readable := by
  obtain ⟨res, h, _⟩ := Examples.receiving_trace
  refine ⟨res, h, C67_readable (get := fun w : Receivers ℚ => w 0) (set := fun acc w => Function.update w 0 acc)
    (by intro acc w; simp) (Examples.receiving_all ?_ ?_) h reset_readable⟩
  · exact .inr ⟨_, _, _, _, (C51_reflective (1/2 : ℚ) _).1, rfl⟩
  · exact .inl (Examples.receiver_ignores (by omega) _ _ _)

/-- Both receivers of the scene keep their part of the balance. -/
example : (receiverAt 1 (1/4) : Optics (Receivers ℚ) ℚ Unit).Balanced
    fun w => (w 1).absorbed.flatten.sum + (w 0).absorbed.flatten.sum :=
  C66_receiver (get := fun w : Receivers ℚ => w 1) (set := fun acc w => Function.update w 1 acc)
    (rest := fun w => (w 0).absorbed.flatten.sum) (by intro acc w; simp)
    (C51_reflective (1/4 : ℚ) (fun w : Receivers ℚ => w 1)).1 (by intro acc w; simp)
    (by
      intro w up hits out w' h
      simp only [reflective, Except.ok.injEq, Prod.mk.injEq] at h
      rw [h.2])
    (by
      intro w up hits out w' h
      simp only [reflective, Except.ok.injEq, Prod.mk.injEq] at h
      rw [← h.1]
      simp [reflectOne, Function.comp_def])

end Tracer
