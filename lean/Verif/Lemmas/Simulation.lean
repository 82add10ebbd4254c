import Verif.Spec.Simulation
import Verif.Lemmas.Np

/-! A scene that simulates another produces the corresponding trace. -/

set_option linter.unusedSectionVars false

namespace Tracer

variable {K E E' σ σ' : Type _} [Field K] [LinearOrder K]

theorem Np.mask_map' {α β : Type _} (f : α → β) (m : List Bool) (l : List α) :
    Np.mask m (l.map f) = (Np.mask m l).map f := by
  induction l generalizing m with
  | nil => cases m with
    | nil => rfl
    | cons b m => cases b <;> rfl
  | cons a l ih =>
    cases m with
    | nil => rfl
    | cons b m => cases b <;> simp [Np.mask, ih]

theorem Np.take_map' {α β : Type _} (f : α → β) (l : List α) (sel : List Nat) :
    Np.take (l.map f) sel = (Np.take l sel).map (List.map f) := by
  induction sel with
  | nil => rfl
  | cons i sel ih =>
    simp only [Np.take, List.getElem?_map]
    cases l[i]? with
    | none => rfl
    | some x =>
      simp only [Option.map_some, ih]
      cases Np.take l sel <;> rfl

theorem Np.deleteFrom_map' {α β : Type _} (f : α → β) (sel : List Nat) (k : Nat) (l : List α) :
    Np.deleteFrom sel k (l.map f) = (Np.deleteFrom sel k l).map f := by
  induction l generalizing k with
  | nil => rfl
  | cons a l ih =>
    simp only [List.map_cons, Np.deleteFrom]
    split
    · exact ih _
    · rw [List.map_cons, ih]

variable {f : Ray K E → Ray K E'} {ψ : σ → σ'}

theorem sim_inRays (owned : List Bool) (b : Bundle K E) :
    (if owned.any (! ·) then Np.mask owned (b.map f) else b.map f) =
      (if owned.any (! ·) then Np.mask owned b else b).map f := by
  split
  · exact Np.mask_map' f owned b
  · rfl

theorem sim_stackRow {s : Surf σ K E} {s' : Surf σ' K E'} (h : s.Simulates f ψ s') (b : Bundle K E) (owned : List Bool) :
    stackRow (b.map f) s' owned = stackRow b s owned := by
  unfold stackRow
  simp only [sim_inRays, h.register, List.length_map]

theorem sim_stack {surfs : List (Surf σ K E)} {surfs' : List (Surf σ' K E')}
    (h : List.Forall₂ (Surf.Simulates f ψ) surfs surfs') (b : Bundle K E) (owned : List (List Bool)) :
    List.zipWith (stackRow (b.map f)) surfs' owned = List.zipWith (stackRow b) surfs owned := by
  induction h generalizing owned with
  | nil => rfl
  | cons h _ ih =>
    cases owned with
    | nil => rfl
    | cons o owned => rw [List.zipWith_cons_cons, List.zipWith_cons_cons, sim_stackRow h, ih]

theorem sim_intersect {surfs : List (Surf σ K E)} {surfs' : List (Surf σ' K E')}
    (h : List.Forall₂ (Surf.Simulates f ψ) surfs surfs') (b : Bundle K E) (surfOwn : List Nat)
    (rayOwn : List (Option Nat)) (relev : List (List Bool)) :
    intersectRay (b.map f) surfs' surfOwn rayOwn relev = intersectRay b surfs surfOwn rayOwn relev := by
  have h1 : surfs'.isEmpty = surfs.isEmpty := by cases h <;> rfl
  have h2 : (b.map f).isEmpty = b.isEmpty := by cases b <;> rfl
  unfold intersectRay
  simp only [sim_stack h, List.length_map, h1, h2]

theorem sim_fixParents {minE minE' : K} (hf : RayMap f minE minE') (owned : List Bool) (rays : Bundle K E) :
    fixParents owned (rays.map f) = (fixParents owned rays).map (List.map f) := by
  unfold fixParents
  have : (rays.map f).map Ray.parent = rays.map Ray.parent := by
    rw [List.map_map]
    exact List.map_congr_left fun r _ => hf.parent r
  rw [this]
  cases Np.take (Np.nonzero owned) (rays.map Ray.parent) with
  | error e => rfl
  | ok ps =>
    simp only [Except.map]
    rw [List.zipWith_map_left, List.map_zipWith]
    congr 2
    funext r p
    exact (hf.setParent r p).symm

/-- What a surface contributes, with every ray replaced by its counterpart. -/
def Contribution.map (f : Ray K E → Ray K E') (c : Contribution K E) : Contribution K E' :=
  ⟨c.outg.map f, c.record.map f, c.weak, c.own, c.relev⟩

theorem sim_surfsPerObj {objs : List (Obj σ K E)} {objs' : List (Obj σ' K E')}
    (h : List.Forall₂ (Obj.Simulates f ψ) objs objs') : surfsPerObj objs' = surfsPerObj objs := by
  induction h with
  | nil => rfl
  | cons h _ ih =>
    unfold surfsPerObj at ih ⊢
    rw [List.map_cons, List.map_cons, ih, h.surfs.length_eq]

theorem sim_surfs {objs : List (Obj σ K E)} {objs' : List (Obj σ' K E')}
    (h : List.Forall₂ (Obj.Simulates f ψ) objs objs') :
    List.Forall₂ (Surf.Simulates f ψ) (objs.flatMap Obj.surfs) (objs'.flatMap Obj.surfs) := by
  induction h with
  | nil => exact .nil
  | cons h _ ih =>
    rw [List.flatMap_cons, List.flatMap_cons]
    exact List.rel_append h.surfs ih

theorem sim_getElem? {α β : Type _} {R : α → β → Prop} {l : List α} {l' : List β} (h : List.Forall₂ R l l') (i : Nat) :
    (l[i]? = none ∧ l'[i]? = none) ∨ ∃ a b, l[i]? = some a ∧ l'[i]? = some b ∧ R a b := by
  induction h generalizing i with
  | nil => exact Or.inl ⟨rfl, rfl⟩
  | cons h _ ih =>
    cases i with
    | zero => exact Or.inr ⟨_, _, rfl, rfl, h⟩
    | succ i => simpa using ih i

theorem sim_contribute {objs : List (Obj σ K E)} {objs' : List (Obj σ' K E')} {minE minE' : K}
    (h : List.Forall₂ (Obj.Simulates f ψ) objs objs') (hf : RayMap f minE minE') {s : Surf σ K E} {s' : Surf σ' K E'}
    (hs : s.Simulates f ψ s') (b : Bundle K E) (w : σ) (k : Nat) (front owned : List Bool) :
    contribute objs' minE' (b.map f) (ψ w) k s' front owned =
      (contribute objs minE b w k s front owned).map fun p => (p.1.map f, ψ p.2) := by
  unfold contribute
  simp only [sim_inRays, hs.outgoing]
  cases s.outgoing w (if owned.any (! ·) then Np.mask owned b else b) (Np.nonzero (Np.mask owned front)) with
  | error e => rfl
  | ok p =>
    simp only [Except.map]
    rw [sim_fixParents hf]
    cases fixParents owned p.1 with
    | error e => rfl
    | ok rec =>
      simp only [Except.map]
      have hw : (rec.map f).map (fun r => decide (r.energy ≤ minE')) = rec.map fun r => decide (r.energy ≤ minE) := by
        rw [List.map_map]
        refine List.map_congr_left fun r _ => ?_
        simp only [Function.comp, hf.energy]
      have ho : surfOwnership objs' = surfOwnership objs := by unfold surfOwnership; rw [sim_surfsPerObj h]
      have hu : surfsUntilObj objs' = surfsUntilObj objs := by unfold surfsUntilObj; rw [sim_surfsPerObj h]
      have hd : ∀ weak : List Bool, (if weak.any id then Np.delete (rec.map f) (Np.nonzero weak) else rec.map f) =
          (if weak.any id then Np.delete rec (Np.nonzero weak) else rec).map f := by
        intro weak
        split
        · exact Np.deleteFrom_map' f _ 0 rec
        · rfl
      rw [hw, ho, hu, hd]
      cases (surfOwnership objs)[k]? with
      | none => rfl
      | some j =>
        simp only
        rcases sim_getElem? h j with ⟨h1, h2⟩ | ⟨o, o', h1, h2, hR⟩
        · rw [h1, h2]
          cases (surfsUntilObj objs)[j]? <;> rfl
        · rw [h1, h2]
          cases (surfsUntilObj objs)[j]? with
          | none => rfl
          | some before =>
            simp only [hR.own, hR.next, List.length_map]
            rfl

theorem sim_surfLoop {objs : List (Obj σ K E)} {objs' : List (Obj σ' K E')} {minE minE' : K}
    (h : List.Forall₂ (Obj.Simulates f ψ) objs objs') (hf : RayMap f minE minE')
    {surfs : List (Surf σ K E)} {surfs' : List (Surf σ' K E')} (hs : List.Forall₂ (Surf.Simulates f ψ) surfs surfs')
    (b : Bundle K E) (w : σ) (k : Nat) (fronts owneds : List (List Bool)) :
    surfLoop objs' minE' (b.map f) (ψ w) k surfs' fronts owneds =
      (surfLoop objs minE b w k surfs fronts owneds).map fun p => (p.1.map (Contribution.map f), ψ p.2) := by
  induction hs generalizing w k fronts owneds with
  | nil => cases fronts <;> cases owneds <;> rfl
  | @cons s s' surfs surfs' hs _ ih =>
    cases fronts with
    | nil => cases owneds <;> rfl
    | cons front fronts =>
      cases owneds with
      | nil => rfl
      | cons owned owneds =>
        simp only [surfLoop]
        split
        · rw [sim_contribute h hf hs]
          cases contribute objs minE b w k s front owned with
          | error e => rfl
          | ok p =>
            simp only [Except.map]
            rw [ih]
            cases surfLoop objs minE b p.2 (k + 1) surfs fronts owneds <;> rfl
        · exact ih _ _ _ _

/-- The state of a trace, with every ray replaced by its counterpart. -/
def TraceState.map (f : Ray K E → Ray K E') (ψ : σ → σ') (st : TraceState σ K E) : TraceState σ' K E' :=
  ⟨st.bund.map f, st.rayOwn, st.relev, ψ st.world⟩

theorem sim_iterate {objs : List (Obj σ K E)} {objs' : List (Obj σ' K E')} {minE minE' : K}
    (h : List.Forall₂ (Obj.Simulates f ψ) objs objs') (hf : RayMap f minE minE')
    {surfs : List (Surf σ K E)} {surfs' : List (Surf σ' K E')} (hs : List.Forall₂ (Surf.Simulates f ψ) surfs surfs')
    (st : TraceState σ K E) :
    iterate objs' surfs' minE' (st.map f ψ) =
      (iterate objs surfs minE st).map fun p => (p.1.map f ψ, p.2.1.map f, p.2.2.map f) := by
  unfold iterate
  have ho : surfOwnership objs' = surfOwnership objs := by unfold surfOwnership; rw [sim_surfsPerObj h]
  simp only [TraceState.map, sim_intersect hs, ho]
  cases intersectRay st.bund surfs (surfOwnership objs) st.rayOwn st.relev with
  | error e => rfl
  | ok p =>
    simp only
    rw [sim_surfLoop h hf hs]
    cases surfLoop objs minE st.bund st.world 0 surfs p.1 p.2 with
    | error e => rfl
    | ok q =>
      simp only [Except.map, List.flatMap_map]
      have h1 : (q.1.flatMap fun c => (Contribution.map f c).record) = (q.1.flatMap Contribution.record).map f := by
        rw [List.map_flatMap]; rfl
      have h2 : (q.1.flatMap fun c => (Contribution.map f c).outg) = (q.1.flatMap Contribution.outg).map f := by
        rw [List.map_flatMap]; rfl
      have h3 : (q.1.flatMap fun c => (Contribution.map f c).weak) = q.1.flatMap Contribution.weak := rfl
      have h4 : (q.1.flatMap fun c => (Contribution.map f c).own) = q.1.flatMap Contribution.own := rfl
      have h5 : (q.1.map (Contribution.map f)).map Contribution.relev = q.1.map Contribution.relev := by
        rw [List.map_map]; rfl
      rw [h1, h2, h3, h4, h5, Np.take_map', hs.length_eq]
      cases Np.take (q.1.flatMap Contribution.record) (Np.nonzero (q.1.flatMap Contribution.weak)) with
      | error e => rfl
      | ok weak => simp only [Except.map, List.map_append]

theorem sim_traceLoop {objs : List (Obj σ K E)} {objs' : List (Obj σ' K E')} {minE minE' : K}
    (h : List.Forall₂ (Obj.Simulates f ψ) objs objs') (hf : RayMap f minE minE')
    {surfs : List (Surf σ K E)} {surfs' : List (Surf σ' K E')} (hs : List.Forall₂ (Surf.Simulates f ψ) surfs surfs')
    (keepTree : Bool) (reps : Nat) (st : TraceState σ K E) (tree : List (Bundle K E)) (last : Option (Bundle K E)) :
    traceLoop objs' surfs' minE' keepTree reps (st.map f ψ) (tree.map (List.map f)) (last.map (List.map f)) =
      (traceLoop objs surfs minE keepTree reps st tree last).map fun p =>
        (p.1.map f ψ, p.2.1.map (List.map f), p.2.2.map (List.map f)) := by
  induction reps generalizing st tree last with
  | zero => rfl
  | succ reps ih =>
    simp only [traceLoop]
    rw [sim_iterate h hf hs]
    cases iterate objs surfs minE st with
    | error e => rfl
    | ok p =>
      simp only [Except.map]
      have he : ∀ l : Bundle K E, (l.map f).isEmpty = l.isEmpty := fun l => by cases l <;> rfl
      have ht : (if (keepTree && ! (p.2.1.map f).isEmpty) then tree.map (List.map f) ++ [p.2.2.map f]
          else tree.map (List.map f)) =
          (if (keepTree && ! p.2.1.isEmpty) then tree ++ [p.2.2] else tree).map (List.map f) := by
        rw [he]
        split
        · rw [List.map_append]; rfl
        · rfl
      rw [ht]
      have hb : (p.1.map f ψ).bund.isEmpty = p.1.bund.isEmpty := he _
      rw [hb]
      split
      · rfl
      · exact ih _ _ (some p.2.1)

/-- A scene that simulates another raises the same exceptions and produces the corresponding trace. -/
theorem sim_rayTracer {objs : List (Obj σ K E)} {objs' : List (Obj σ' K E')} {minE minE' : K}
    (h : List.Forall₂ (Obj.Simulates f ψ) objs objs') (hf : RayMap f minE minE')
    (w : σ) (b : Bundle K E) (reps : Nat) (keepTree : Bool) :
    (∃ e, rayTracer objs w b reps minE keepTree = .error e ∧
      rayTracer objs' (ψ w) (b.map f) reps minE' keepTree = .error e) ∨
    (∃ (st : TraceState σ K E) (tree : List (Bundle K E)),
      rayTracer objs w b reps minE keepTree = .ok ⟨st.bund.map Ray.vertex, st.bund.map Ray.dir, tree, st.world⟩ ∧
      rayTracer objs' (ψ w) (b.map f) reps minE' keepTree =
        .ok ⟨(st.bund.map f).map Ray.vertex, (st.bund.map f).map Ray.dir, tree.map (List.map f), ψ st.world⟩) := by
  have hs := sim_surfs h
  have he : objs'.isEmpty = objs.isEmpty := by cases h <;> rfl
  unfold rayTracer getSurfaces
  rw [he]
  cases ho : objs.isEmpty with
  | true => exact Or.inl ⟨.type, rfl, rfl⟩
  | false =>
    simp only [Bool.false_eq_true, if_false]
    have hi : initState objs' (b.map f) (ψ w) = (initState objs b w).map f ψ := by
      unfold initState TraceState.map
      rw [List.length_map, hs.length_eq]
    have ht : (if keepTree then [b.map f] else []) = (if keepTree then [b] else []).map (List.map f) := by
      cases keepTree <;> rfl
    have hn : (none : Option (Bundle K E')) = (none : Option (Bundle K E)).map (List.map f) := rfl
    rw [hi, ht, hn, sim_traceLoop h hf hs]
    cases traceLoop objs (objs.flatMap Obj.surfs) minE keepTree reps (initState objs b w) (if keepTree then [b] else []) none with
    | error e => exact Or.inl ⟨e, rfl, rfl⟩
    | ok p =>
      obtain ⟨st, tree, last⟩ := p
      simp only [Except.map]
      cases keepTree with
      | true => exact Or.inr ⟨st, tree, rfl, rfl⟩
      | false =>
        cases last with
        | none => exact Or.inl ⟨.name, rfl, rfl⟩
        | some r =>
          refine Or.inr ⟨st, tree ++ [r], rfl, ?_⟩
          simp only [Option.map_some, List.map_append]
          rfl

end Tracer
