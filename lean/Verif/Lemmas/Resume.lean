import Verif.Lemmas.Default

/-! Helper lemmas about tracing in two parts. -/

set_option linter.unusedSectionVars false
set_option linter.unusedSimpArgs false

namespace Tracer

variable {K E σ : Type _} [Field K] [LinearOrder K] [IsStrictOrderedRing K]

/-- A state in which no ray is claimed and no surface is left out is the state before the first
iteration of a trace of its rays. -/
theorem free_init {objs : List (Obj σ K E)} {st : TraceState σ K E} (hs : st.Shape objs)
    (hf : AllFree st.rayOwn st.relev) : st = initState objs st.bund st.world := by
  have h1 : st.rayOwn = List.replicate st.bund.length none :=
    List.eq_replicate_iff.2 ⟨hs.own_len, hf.own⟩
  have h2 : st.relev = List.replicate (objs.flatMap Obj.surfs).length (List.replicate st.bund.length true) :=
    List.eq_replicate_iff.2 ⟨hs.relev_len, fun row hr =>
      List.eq_replicate_iff.2 ⟨hs.relev_row row hr, hf.relev row hr⟩⟩
  cases st
  simp only [initState] at *
  rw [h1, h2]

theorem surfLoop_dark {objs : List (Obj σ K E)} {minE : K} {b : Bundle K E} {w : σ} {k : Nat}
    {surfs : List (Surf σ K E)} {fronts owneds : List (List Bool)} (h : ∀ o ∈ owneds, o = []) :
    surfLoop objs minE b w k surfs fronts owneds = .ok ([], w) := by
  induction surfs generalizing k fronts owneds with
  | nil => rfl
  | cons s surfs ih =>
    cases fronts with
    | nil => rfl
    | cons f fronts =>
      cases owneds with
      | nil => rfl
      | cons o owneds =>
        rw [surfLoop, h o (by simp)]
        simp only [Np.mask_nil_left, List.any_nil, Bool.false_eq_true, if_false]
        exact ih fun o ho => h o (List.mem_cons_of_mem _ ho)

/-- Without rays nothing happens. -/
theorem iterate_dark {objs : List (Obj σ K E)} {minE : K} (w : σ) :
    ∃ st, iterate objs (objs.flatMap Obj.surfs) minE (initState objs ([] : Bundle K E) w) = .ok (st, [], []) ∧
      st.bund = [] ∧ st.world = w := by
  have hown : ∀ o ∈ List.zipWith (ownedMask ([] : List (Option Nat))) (surfOwnership objs)
      (List.replicate (objs.flatMap Obj.surfs).length ([] : List Bool)), o = [] := by
    intro o ho
    obtain ⟨k, hk⟩ := List.getElem?_of_mem ho
    obtain ⟨a, c, _, _, rfl⟩ := getElem?_zipWith_some.1 hk
    simp [ownedMask]
  have hst : ∀ row ∈ List.zipWith (stackRow ([] : Bundle K E)) (objs.flatMap Obj.surfs)
      (List.zipWith (ownedMask ([] : List (Option Nat))) (surfOwnership objs)
        (List.replicate (objs.flatMap Obj.surfs).length ([] : List Bool))), row = [] := by
    intro row hr
    obtain ⟨k, hk⟩ := List.getElem?_of_mem hr
    obtain ⟨s, c, _, hc, rfl⟩ := getElem?_zipWith_some.1 hk
    rw [hown c (List.mem_of_getElem? hc)]
    simp [stackRow]
  refine ⟨⟨[], [], Np.hstackRows (objs.flatMap Obj.surfs).length [], w⟩, ?_, rfl, rfl⟩
  unfold iterate intersectRay initState
  simp only [List.length_nil, List.replicate_zero]
  rw [if_neg, if_neg]
  · simp only
    rw [surfLoop_dark hown]
    simp [Np.take, Np.nonzero]
  · simp
  · simp only [List.any_eq_true, not_exists, not_and]
    intro row hr
    rw [hst row hr]
    simp

/-- What was recorded before only stands in front. -/
theorem traceLoop_before {objs : List (Obj σ K E)} {surfs : List (Surf σ K E)} {minE : K} {n : Nat} {st : TraceState σ K E}
    {pre tree : List (Bundle K E)} {last last' : Option (Bundle K E)} :
    (traceLoop objs surfs minE true n st (pre ++ tree) last).map (fun x => (x.1, x.2.1)) =
      (traceLoop objs surfs minE true n st tree last').map (fun x => (x.1, pre ++ x.2.1)) := by
  induction n generalizing st tree last last' with
  | zero => rfl
  | succ n ih =>
    simp only [traceLoop]
    cases hi : iterate objs surfs minE st with
    | error e => rfl
    | ok x =>
      obtain ⟨st', gen, rec⟩ := x
      simp only [Bool.true_and]
      cases hb : st'.bund.isEmpty with
      | true => cases hg : gen.isEmpty <;> simp [Except.map, hg]
      | false =>
        cases hg : gen.isEmpty
        · simpa using ih (st := st') (tree := tree ++ [rec])
        · simpa using ih (st := st') (tree := tree)

/-- A loop of `n + m` iterations is one of `n` and then, if there are rays left, one of `m`. -/
theorem traceLoop_add {objs : List (Obj σ K E)} {surfs : List (Surf σ K E)} {minE : K} {keep : Bool} {n m : Nat}
    {st : TraceState σ K E} {tree : List (Bundle K E)} {last : Option (Bundle K E)} :
    traceLoop objs surfs minE keep (n + m) st tree last =
      match traceLoop objs surfs minE keep n st tree last with
      | .error e => .error e
      | .ok (st', tree', last') =>
        if n ≠ 0 ∧ st'.bund = [] then .ok (st', tree', last')
        else traceLoop objs surfs minE keep m st' tree' last' := by
  induction n generalizing st tree last with
  | zero => simp [traceLoop]
  | succ n ih =>
    rw [Nat.succ_add]
    simp only [traceLoop]
    cases hi : iterate objs surfs minE st with
    | error e => rfl
    | ok x =>
      obtain ⟨st', gen, rec⟩ := x
      simp only
      cases hb : st'.bund.isEmpty with
      | true =>
        have : st'.bund = [] := by simpa using hb
        simp [this]
      | false =>
        simp only [Bool.false_eq_true, if_false]
        rw [ih]
        cases hl : traceLoop objs surfs minE keep n st' (if (keep && !gen.isEmpty) = true then tree ++ [rec] else tree)
            (some gen) with
        | error e => rfl
        | ok y =>
          obtain ⟨st2, tree2, last2⟩ := y
          simp only
          cases n with
          | zero =>
            simp only [traceLoop, Except.ok.injEq, Prod.mk.injEq] at hl
            obtain ⟨rfl, _, _⟩ := hl
            have : st'.bund ≠ [] := by simpa using hb
            simp [this]
          | succ n => simp

/-- A trace with the tree kept, as the loop. -/
theorem rayTracer_loop {objs : List (Obj σ K E)} (hne : objs ≠ []) (w : σ) (b : Bundle K E) (n : Nat) (minE : K) :
    rayTracer objs w b n minE true =
      (traceLoop objs (objs.flatMap Obj.surfs) minE true n (initState objs b w) [b] none).map fun x =>
        ⟨x.1.bund.map Ray.vertex, x.1.bund.map Ray.dir, x.2.1, x.1.world⟩ := by
  unfold rayTracer getSurfaces
  have : objs.isEmpty = false := by simpa using hne
  simp only [this, Bool.false_eq_true, if_false, if_true]
  cases traceLoop objs (objs.flatMap Obj.surfs) minE true n (initState objs b w) [b] none with
  | error e => rfl
  | ok x => rfl

theorem rayTracer_dark {objs : List (Obj σ K E)} (hne : objs ≠ []) (w : σ) (n : Nat) (minE : K) :
    rayTracer objs w ([] : Bundle K E) n minE true = .ok ⟨[], [], [[]], w⟩ := by
  rw [rayTracer_loop hne]
  cases n with
  | zero => rfl
  | succ n =>
    obtain ⟨st, hi, hb, hw⟩ := iterate_dark (objs := objs) (minE := minE) (E := E) w
    simp [traceLoop, hi, hb, hw, Except.map]

end Tracer
