import Verif.Spec.Shared
import Verif.Lemmas.Protocol

/-! Lemmas for shared surfaces: without sharing the memory is a list of attributes; with it, `select_rays` raises after `done`. -/

set_option linter.unusedSectionVars false

namespace Tracer

variable {K E σ : Type _} [Field K] [LinearOrder K] [IsStrictOrderedRing K]

/-! ### Memory -/

theorem Mem.read_write (m : Mem K E) (p : Nat × Nat) (a : SurfAttrs K E) : (m.write p a).read p = a := by
  unfold Mem.read Mem.write; simp

theorem Mem.read_write_ne (m : Mem K E) {p q : Nat × Nat} (a : SurfAttrs K E) (h1 : q.1 ≠ p.1) (h2 : q.2 ≠ p.2) :
    (m.write p a).read q = m.read q := by
  unfold Mem.read Mem.write; simp [h1, h2]

theorem Mem.read_write_rest (m : Mem K E) {p : Nat × Nat} {ids : List (Nat × Nat)} (a : SurfAttrs K E)
    (h : Unshared (p :: ids)) : ids.map (m.write p a).read = ids.map m.read := by
  obtain ⟨h1, h2⟩ := h
  simp only [List.map_cons, List.nodup_cons] at h1 h2
  apply List.map_congr_left
  intro q hq
  apply Mem.read_write_ne
  · rintro e; exact h1.1 (e ▸ List.mem_map_of_mem hq)
  · rintro e; exact h2.1 (e ▸ List.mem_map_of_mem hq)

theorem Unshared.tail {p : Nat × Nat} {ids : List (Nat × Nat)} (h : Unshared (p :: ids)) : Unshared ids := by
  obtain ⟨h1, h2⟩ := h
  simp only [List.map_cons, List.nodup_cons] at h1 h2
  exact ⟨h1.2, h2.2⟩

/-- What a part of the trace does not list it does not touch. -/
def SameOutside (ids : List (Nat × Nat)) (m m' : Mem K E) : Prop :=
  ∀ q : Nat × Nat, q.1 ∉ ids.map Prod.fst → q.2 ∉ ids.map Prod.snd → m'.read q = m.read q

theorem sameOutside_write (m : Mem K E) (p : Nat × Nat) (ids : List (Nat × Nat)) (a : SurfAttrs K E) :
    SameOutside (p :: ids) m (m.write p a) := by
  intro q h1 h2
  simp only [List.map_cons, List.mem_cons, not_or] at h1 h2
  exact m.read_write_ne a h1.1 h2.1

theorem SameOutside.cons {p : Nat × Nat} {ids : List (Nat × Nat)} {m m' m'' : Mem K E} (h : SameOutside (p :: ids) m m')
    (h' : SameOutside ids m' m'') : SameOutside (p :: ids) m m'' := by
  intro q h1 h2
  have h3 := h q h1 h2
  simp only [List.map_cons, List.mem_cons, not_or] at h1 h2
  rw [h' q h1.2 h2.2, h3]

theorem head_unchanged {p : Nat × Nat} {ids : List (Nat × Nat)} {m m' : Mem K E} (h : Unshared (p :: ids)) (hs : SameOutside ids m m') :
    m'.read p = m.read p := by
  obtain ⟨h1, h2⟩ := h
  simp only [List.map_cons, List.nodup_cons] at h1 h2
  exact hs p h1.1 h2.1

/-! ### Without sharing -/

theorem registerAllS_eq {b : Bundle K E} {surfs : List (SurfObj σ K E)} {owneds : List (List Bool)} {ids : List (Nat × Nat)}
    (hl : ids.length = surfs.length) (hu : Unshared ids) (m : Mem K E) :
    (registerAllS b surfs owneds ids m).1 = (registerAll b surfs owneds (ids.map m.read)).1 ∧
    ids.map (registerAllS b surfs owneds ids m).2.read = (registerAll b surfs owneds (ids.map m.read)).2 ∧
    SameOutside ids m (registerAllS b surfs owneds ids m).2 := by
  induction surfs generalizing owneds ids m with
  | nil =>
    obtain rfl : ids = [] := List.eq_nil_of_length_eq_zero hl
    exact ⟨rfl, rfl, fun _ _ _ => rfl⟩
  | cons s surfs ih =>
    cases ids with
    | nil => simp at hl
    | cons p ids =>
      cases owneds with
      | nil => exact ⟨rfl, rfl, fun _ _ _ => rfl⟩
      | cons owned owneds =>
        have hl' : ids.length = surfs.length := by simpa using hl
        unfold registerAllS registerAll
        simp only [List.map_cons]
        by_cases ho : owned.any id = true
        · simp only [ho, if_true]
          rcases hr : s.register (if owned.any (! ·) then Np.mask owned b else b) (m.read p) with ⟨e | prms, a⟩
          · refine ⟨rfl, ?_, sameOutside_write m p ids a⟩
            simp only
            rw [m.read_write, m.read_write_rest a hu]
          · simp only
            obtain ⟨h1, h2, h3⟩ := ih (owneds := owneds) hl' hu.tail (m.write p a)
            rw [m.read_write_rest a hu] at h1 h2
            refine ⟨by rw [h1], ?_, (sameOutside_write m p ids a).cons h3⟩
            rw [h2, head_unchanged hu h3, m.read_write]
        · simp only [ho, Bool.false_eq_true, if_false]
          obtain ⟨h1, h2, h3⟩ := ih (owneds := owneds) hl' hu.tail m
          refine ⟨by rw [h1], ?_, SameOutside.cons (fun _ _ _ => rfl) h3⟩
          rw [h2, head_unchanged hu h3]

theorem intersectRayS_eq {b : Bundle K E} {surfs : List (SurfObj σ K E)} {surfOwn : List Nat} {rayOwn : List (Option Nat)}
    {relev : List (List Bool)} {ids : List (Nat × Nat)} (hl : ids.length = surfs.length) (hu : Unshared ids) (m : Mem K E) :
    (intersectRayS b surfs surfOwn rayOwn relev ids m).1 = (intersectRayA b surfs surfOwn rayOwn relev (ids.map m.read)).1 ∧
    ids.map (intersectRayS b surfs surfOwn rayOwn relev ids m).2.read =
      (intersectRayA b surfs surfOwn rayOwn relev (ids.map m.read)).2 := by
  obtain ⟨h1, h2, _⟩ := registerAllS_eq (b := b) (owneds := List.zipWith (ownedMask rayOwn) surfOwn relev) hl hu m
  unfold intersectRayS intersectRayA
  rcases hS : registerAllS b surfs (List.zipWith (ownedMask rayOwn) surfOwn relev) ids m with ⟨x, m'⟩
  rcases hA : registerAll b surfs (List.zipWith (ownedMask rayOwn) surfOwn relev) (ids.map m.read) with ⟨y, as⟩
  rw [hS, hA] at h1 h2
  simp only at h1 h2
  subst h1
  simp only [hS, hA]
  cases x with
  | error e => exact ⟨rfl, h2⟩
  | ok stack =>
    simp only
    split
    · exact ⟨rfl, h2⟩
    · split
      · exact ⟨rfl, h2⟩
      · exact ⟨rfl, h2⟩

theorem surfLoopS_eq {objs : List (TracedObj σ K E)} {minE : K} {surfs : List (SurfObj σ K E)} {fronts owneds : List (List Bool)}
    {ids : List (Nat × Nat)} (hl : ids.length = surfs.length) (hu : Unshared ids) (w : σ) (k : Nat) (m : Mem K E) :
    (surfLoopS objs minE w k surfs fronts owneds ids m).1 = (surfLoopA objs minE w k surfs fronts owneds (ids.map m.read)).1 ∧
    ids.map (surfLoopS objs minE w k surfs fronts owneds ids m).2.read =
      (surfLoopA objs minE w k surfs fronts owneds (ids.map m.read)).2 ∧
    SameOutside ids m (surfLoopS objs minE w k surfs fronts owneds ids m).2 := by
  induction surfs generalizing fronts owneds ids w k m with
  | nil =>
    obtain rfl : ids = [] := List.eq_nil_of_length_eq_zero hl
    exact ⟨rfl, rfl, fun _ _ _ => rfl⟩
  | cons s surfs ih =>
    cases ids with
    | nil => simp at hl
    | cons p ids =>
      cases fronts with
      | nil => exact ⟨rfl, rfl, fun _ _ _ => rfl⟩
      | cons front fronts =>
        cases owneds with
        | nil => exact ⟨rfl, rfl, fun _ _ _ => rfl⟩
        | cons owned owneds =>
          have hl' : ids.length = surfs.length := by simpa using hl
          unfold surfLoopS surfLoopA
          simp only [List.map_cons]
          by_cases ho : (Np.mask owned front).any id = true
          · simp only [ho, if_true]
            rcases hr : contributeA objs minE w k s front owned (m.read p) with ⟨e | ⟨c, w'⟩, a⟩
            · refine ⟨rfl, ?_, sameOutside_write m p ids a⟩
              simp only
              rw [m.read_write, m.read_write_rest a hu]
            · simp only
              obtain ⟨h1, h2, h3⟩ := ih (fronts := fronts) (owneds := owneds) hl' hu.tail w' (k + 1) (m.write p a)
              rw [m.read_write_rest a hu] at h1 h2
              refine ⟨by rw [h1], ?_, (sameOutside_write m p ids a).cons h3⟩
              rw [h2, head_unchanged hu h3, m.read_write]
          · simp only [ho, Bool.false_eq_true, if_false]
            rcases hr : s.done (m.read p) with ⟨e | u, a⟩
            · refine ⟨rfl, ?_, sameOutside_write m p ids a⟩
              simp only
              rw [m.read_write, m.read_write_rest a hu]
            · simp only
              obtain ⟨h1, h2, h3⟩ := ih (fronts := fronts) (owneds := owneds) hl' hu.tail w (k + 1) (m.write p a)
              rw [m.read_write_rest a hu] at h1 h2
              refine ⟨by rw [h1], ?_, (sameOutside_write m p ids a).cons h3⟩
              rw [h2, head_unchanged hu h3, m.read_write]

theorem iterateS_eq {objs : List (TracedObj σ K E)} {surfs : List (SurfObj σ K E)} {minE : K} {st : TraceState σ K E}
    {ids : List (Nat × Nat)} (hl : ids.length = surfs.length) (hu : Unshared ids) (m : Mem K E) :
    (iterateS objs surfs minE st ids m).1 = (iterateA objs surfs minE st (ids.map m.read)).1 ∧
    ids.map (iterateS objs surfs minE st ids m).2.read = (iterateA objs surfs minE st (ids.map m.read)).2 := by
  obtain ⟨h1, h2⟩ := intersectRayS_eq (b := st.bund) (surfOwn := Np.repeatArange 0 (perObjA objs)) (rayOwn := st.rayOwn)
    (relev := st.relev) hl hu m
  unfold iterateS iterateA
  rcases hS : intersectRayS st.bund surfs (Np.repeatArange 0 (perObjA objs)) st.rayOwn st.relev ids m with ⟨x, m'⟩
  rcases hA : intersectRayA st.bund surfs (Np.repeatArange 0 (perObjA objs)) st.rayOwn st.relev (ids.map m.read) with ⟨y, as⟩
  rw [hS, hA] at h1 h2
  simp only at h1 h2
  subst h1
  cases x with
  | error e => exact ⟨rfl, h2⟩
  | ok fo =>
    obtain ⟨front, owned⟩ := fo
    simp only
    obtain ⟨h3, h4, _⟩ := surfLoopS_eq (objs := objs) (minE := minE) (fronts := front) (owneds := owned) hl hu st.world 0 m'
    rw [h2] at h3 h4
    rcases hS' : surfLoopS objs minE st.world 0 surfs front owned ids m' with ⟨x, m''⟩
    rcases hA' : surfLoopA objs minE st.world 0 surfs front owned as with ⟨y, as'⟩
    rw [hS', hA'] at h3 h4
    simp only at h3 h4
    subst h3
    cases x with
    | error e => exact ⟨rfl, h4⟩
    | ok cw =>
      obtain ⟨cs, w⟩ := cw
      simp only
      rcases Np.take (cs.flatMap Contribution.record) (Np.nonzero (cs.flatMap Contribution.weak)) with e | weakRays
      · exact ⟨rfl, h4⟩
      · exact ⟨rfl, h4⟩

theorem traceLoopS_eq {objs : List (TracedObj σ K E)} {surfs : List (SurfObj σ K E)} {minE : K} {keep : Bool}
    {ids : List (Nat × Nat)} (hl : ids.length = surfs.length) (hu : Unshared ids) (reps : Nat) (st : TraceState σ K E)
    (tree : List (Bundle K E)) (last : Option (Bundle K E)) (m : Mem K E) :
    (traceLoopS objs surfs minE keep ids reps st tree last m).1 = (traceLoopA objs surfs minE keep reps st tree last (ids.map m.read)).1 ∧
    ids.map (traceLoopS objs surfs minE keep ids reps st tree last m).2.read =
      (traceLoopA objs surfs minE keep reps st tree last (ids.map m.read)).2 := by
  induction reps generalizing st tree last m with
  | zero => exact ⟨rfl, rfl⟩
  | succ reps ih =>
    obtain ⟨h1, h2⟩ := iterateS_eq (objs := objs) (minE := minE) (st := st) hl hu m
    unfold traceLoopS traceLoopA
    rcases hS : iterateS objs surfs minE st ids m with ⟨x, m'⟩
    rcases hA : iterateA objs surfs minE st (ids.map m.read) with ⟨y, as⟩
    rw [hS, hA] at h1 h2
    simp only at h1 h2
    subst h1
    cases x with
    | error e => exact ⟨rfl, h2⟩
    | ok r =>
      obtain ⟨st', generated, recorded⟩ := r
      simp only
      split
      · exact ⟨rfl, h2⟩
      · have := ih st' (if keep && ! generated.isEmpty then tree ++ [recorded] else tree) (some generated) m'
        rw [h2] at this
        exact this

theorem rayTracerS_eq {objs : List (TracedObj σ K E)} {ids : List (Nat × Nat)} (hl : ids.length = (objs.flatMap TracedObj.surfs).length)
    (hu : Unshared ids) (w : σ) (b : Bundle K E) (reps : Nat) (minE : K) (keep : Bool) (m : Mem K E) :
    (rayTracerS objs w b reps minE keep ids m).1 = (rayTracerA objs w b reps minE keep (ids.map m.read)).1 ∧
    ids.map (rayTracerS objs w b reps minE keep ids m).2.read = (rayTracerA objs w b reps minE keep (ids.map m.read)).2 := by
  unfold rayTracerS rayTracerA
  split
  · exact ⟨rfl, rfl⟩
  · simp only
    obtain ⟨h1, h2⟩ := traceLoopS_eq (objs := objs) (minE := minE) (keep := keep) hl hu reps
      (⟨b, List.replicate b.length none, List.replicate (objs.flatMap TracedObj.surfs).length (List.replicate b.length true), w⟩ :
        TraceState σ K E) (if keep then [b] else []) none m
    generalize traceLoopS objs (objs.flatMap TracedObj.surfs) minE keep ids reps _ _ none m = x at h1 h2
    generalize traceLoopA objs (objs.flatMap TracedObj.surfs) minE keep reps _ _ none _ = y at h1 h2
    obtain ⟨x, m'⟩ := x
    obtain ⟨y, as⟩ := y
    simp only at h1 h2
    subst h1
    cases x with
    | error e => exact ⟨rfl, h2⟩
    | ok r =>
      obtain ⟨st, tree, last⟩ := r
      simp only
      split
      · exact ⟨rfl, h2⟩
      · cases last with
        | none => exact ⟨rfl, h2⟩
        | some r => exact ⟨rfl, h2⟩

/-! ### With sharing -/

/-- The manager at address `g` has been told that the iteration is done. -/
def IsDone (gms : Nat → GM K E) (g : Nat) (m : Mem K E) : Prop :=
  ∃ a, a.Paired ∧ ((gms g).done a).1 = .ok () ∧ m.geom g = ((gms g).done a).2

theorem Mem.write_geom (m : Mem K E) (p : Nat × Nat) (a : SurfAttrs K E) : (m.write p a).geom p.2 = a.geom := by
  unfold Mem.write; simp

theorem Mem.write_geom_ne (m : Mem K E) {p : Nat × Nat} {g : Nat} (a : SurfAttrs K E) (h : g ≠ p.2) : (m.write p a).geom g = m.geom g := by
  unfold Mem.write; simp [h]

/-- A surface that contributes selects, and ends with `done()`. -/
theorem contributeA_done {objs : List (TracedObj σ K E)} {minE : K} {w : σ} {k : Nat} {s : SurfObj σ K E} {front owned : List Bool}
    {a a' : SurfAttrs K E} {x : Contribution K E × σ} (h : contributeA objs minE w k s front owned a = (.ok x, a')) :
    ∃ idxs, (s.gm.select idxs a.geom).1 = .ok () ∧ (s.gm.done (s.gm.select idxs a.geom).2).1 = .ok () ∧
      a'.geom = (s.gm.done (s.gm.select idxs a.geom).2).2 := by
  refine ⟨Np.nonzero (Np.mask owned front), ?_⟩
  unfold contributeA SurfObj.select at h
  simp only at h
  rcases hs : s.gm.select (Np.nonzero (Np.mask owned front)) a.geom with ⟨e | u, a1⟩
  · rw [hs] at h; simp at h
  · rw [hs] at h
    simp only at h
    refine ⟨rfl, ?_⟩
    simp only
    split at h
    · simp at h
    · split at h
      · simp at h
      · unfold SurfObj.done at h
        simp only at h
        rcases hd : s.gm.done a1 with ⟨e | u', a2⟩
        · rw [hd] at h; simp at h
        · rw [hd] at h
          simp only at h
          have := (Prod.mk.inj h).2
          refine ⟨rfl, ?_⟩
          rw [← this]

theorem surfLoopS_done {gms : Nat → GM K E} (hg : ∀ g, (gms g).Once) {objs : List (TracedObj σ K E)} {minE : K} {g : Nat}
    {surfs : List (SurfObj σ K E)} {ids : List (Nat × Nat)} (hp : ManagersAt gms surfs ids) {fronts owneds : List (List Bool)}
    (w : σ) (k : Nat) {m : Mem K E} (hd : IsDone gms g m) {j : Nat} {p : Nat × Nat} {f o : List Bool} (hj : ids[j]? = some p)
    (hpg : p.2 = g) (hf : fronts[j]? = some f) (ho : owneds[j]? = some o) (hit : (Np.mask o f).any id = true) :
    ∃ e, (surfLoopS objs minE w k surfs fronts owneds ids m).1 = .error e := by
  induction hp generalizing fronts owneds w k m j with
  | nil => simp at hj
  | @cons s q surfs ids hsq _ ih =>
    cases fronts with
    | nil => simp at hf
    | cons front fronts =>
      cases owneds with
      | nil => simp at ho
      | cons owned owneds =>
        -- what is left of the loop, once the head has left the manager done
        have tail : ∀ (w : σ) (m' : Mem K E), IsDone gms g m' → ∀ j', j = j' + 1 →
            ∃ e, (surfLoopS objs minE w (k + 1) surfs fronts owneds ids m').1 = .error e := by
          intro w m' hd' j' hj'
          subst hj'
          exact ih w (k + 1) hd' (by simpa using hj) (by simpa using hf) (by simpa using ho)
        obtain ⟨a0, ha0, hok, hm⟩ := hd
        unfold surfLoopS
        by_cases hh : (Np.mask owned front).any id = true
        · simp only [hh, if_true]
          rcases hr : contributeA objs minE w k s front owned (m.read q) with ⟨e | ⟨c, w'⟩, a⟩
          · exact ⟨e, rfl⟩
          · obtain ⟨idxs, h1, h2, h3⟩ := contributeA_done hr
            by_cases hqg : q.2 = g
            · exfalso
              rw [hsq, hqg] at h1
              have hread : (m.read q).geom = ((gms g).done a0).2 := by
                unfold Mem.read; simp only; rw [hqg, hm]
              rw [hread] at h1
              obtain ⟨e, he⟩ := (hg g).again idxs a0 ha0 hok
              rw [he] at h1
              cases h1
            · cases j with
              | zero => simp at hj; exact absurd (hj ▸ hpg) hqg
              | succ j =>
                have hd' : IsDone gms g (m.write q a) :=
                  ⟨a0, ha0, hok, by rw [m.write_geom_ne a (Ne.symm hqg), hm]⟩
                obtain ⟨e, he⟩ := tail w' _ hd' j rfl
                exact ⟨e, by simp only; rw [he]; rfl⟩
        · simp only [hh, Bool.false_eq_true, if_false]
          rcases hr : s.done (m.read q) with ⟨e | u, a⟩
          · exact ⟨e, rfl⟩
          · cases j with
            | zero =>
              simp at hf ho
              subst hf ho
              exact absurd hit hh
            | succ j =>
              have hd' : IsDone gms g (m.write q a) := by
                by_cases hqg : q.2 = g
                · unfold SurfObj.done at hr
                  simp only [Prod.mk.injEq] at hr
                  refine ⟨m.geom g, ?_, ?_, ?_⟩
                  · rw [hm]; exact (hg g).done _ ha0
                  · have := hr.1
                    rw [hsq, hqg] at this
                    unfold Mem.read at this
                    simp only [hqg] at this
                    rw [this]
                  · have e1 : (m.write q a).geom g = a.geom := by rw [← hqg]; exact m.write_geom q a
                    rw [e1, ← hr.2]
                    simp only [hsq]
                    unfold Mem.read
                    simp only [hqg]
                · exact ⟨a0, ha0, hok, by rw [m.write_geom_ne a (Ne.symm hqg), hm]⟩
              exact tail w _ hd' j rfl

theorem surfLoopS_shared {gms : Nat → GM K E} (hg : ∀ g, (gms g).Once) {objs : List (TracedObj σ K E)} {minE : K} {g : Nat}
    {surfs : List (SurfObj σ K E)} {ids : List (Nat × Nat)} (hp : ManagersAt gms surfs ids) {fronts owneds : List (List Bool)}
    (w : σ) (k : Nat) {m : Mem K E} (hm : (m.geom g).Paired) {i j : Nat} {p p' : Nat × Nat} {f o : List Bool} (hij : i < j)
    (hi : ids[i]? = some p') (hpg' : p'.2 = g) (hj : ids[j]? = some p) (hpg : p.2 = g) (hf : fronts[j]? = some f) (ho : owneds[j]? = some o)
    (hit : (Np.mask o f).any id = true) :
    ∃ e, (surfLoopS objs minE w k surfs fronts owneds ids m).1 = .error e := by
  induction hp generalizing fronts owneds w k m i j with
  | nil => simp at hj
  | @cons s q surfs ids hsq hp ih =>
    cases fronts with
    | nil => simp at hf
    | cons front fronts =>
      cases owneds with
      | nil => simp at ho
      | cons owned owneds =>
        cases j with
        | zero => omega
        | succ j =>
          simp only [List.getElem?_cons_succ] at hj hf ho
          unfold surfLoopS
          by_cases hqg : q.2 = g
          · -- the head leaves the manager done
            by_cases hh : (Np.mask owned front).any id = true
            · simp only [hh, if_true]
              rcases hr : contributeA objs minE w k s front owned (m.read q) with ⟨e | ⟨c, w'⟩, a⟩
              · exact ⟨e, rfl⟩
              · obtain ⟨idxs, h1, h2, h3⟩ := contributeA_done hr
                rw [hsq, hqg] at h2 h3
                have hread : (m.read q).geom = m.geom g := by unfold Mem.read; simp only [hqg]
                rw [hread] at h2 h3
                have hd : IsDone gms g (m.write q a) := by
                  refine ⟨_, (hg g).select idxs _ hm, h2, ?_⟩
                  rw [← h3, ← hqg]; exact m.write_geom q a
                obtain ⟨e, he⟩ := surfLoopS_done hg hp (objs := objs) (minE := minE) w' (k + 1) hd hj hpg hf ho hit
                exact ⟨e, by simp only; rw [he]; rfl⟩
            · simp only [hh, Bool.false_eq_true, if_false]
              rcases hr : s.done (m.read q) with ⟨e | u, a⟩
              · exact ⟨e, rfl⟩
              · have hd : IsDone gms g (m.write q a) := by
                  unfold SurfObj.done at hr
                  simp only [Prod.mk.injEq] at hr
                  refine ⟨m.geom g, hm, ?_, ?_⟩
                  · have := hr.1
                    rw [hsq, hqg] at this
                    unfold Mem.read at this
                    simp only [hqg] at this
                    rw [this]
                  · have e1 : (m.write q a).geom g = a.geom := by rw [← hqg]; exact m.write_geom q a
                    rw [e1, ← hr.2]
                    simp only [hsq]
                    unfold Mem.read
                    simp only [hqg]
                exact surfLoopS_done hg hp (objs := objs) (minE := minE) w (k + 1) hd hj hpg hf ho hit
          · cases i with
            | zero => simp at hi; exact absurd (hi ▸ hpg') hqg
            | succ i =>
              simp only [List.getElem?_cons_succ] at hi
              have hm' : ∀ a, ((m.write q a).geom g).Paired := fun a => by
                rw [m.write_geom_ne a (Ne.symm hqg)]; exact hm
              by_cases hh : (Np.mask owned front).any id = true
              · simp only [hh, if_true]
                rcases hr : contributeA objs minE w k s front owned (m.read q) with ⟨e | ⟨c, w'⟩, a⟩
                · exact ⟨e, rfl⟩
                · obtain ⟨e, he⟩ := ih w' (k + 1) (hm' a) (by omega) hi hj hf ho
                  exact ⟨e, by simp only; rw [he]; rfl⟩
              · simp only [hh, Bool.false_eq_true, if_false]
                rcases hr : s.done (m.read q) with ⟨e | u, a⟩
                · exact ⟨e, rfl⟩
                · exact ih w (k + 1) (hm' a) (by omega) hi hj hf ho

/-! ### Registration is right even with sharing -/

/-- Every manager of the scene can be told to finish, and has no bundle without frame. -/
def AllFinish (gms : Nat → GM K E) (ids : List (Nat × Nat)) (m : Mem K E) : Prop :=
  ∀ p ∈ ids, (gms p.2).CanFinish (m.geom p.2) ∧ (m.geom p.2).Paired

theorem registerAllS_ok {gms : Nat → GM K E} (hg : ∀ g, (gms g).Once) {b : Bundle K E} {surfs : List (SurfObj σ K E)}
    {surfs' : List (Surf σ K E)} (h : List.Forall₂ SurfObj.Represents surfs surfs') {ids all : List (Nat × Nat)}
    (hp : ManagersAt gms surfs ids) (hsub : ∀ p ∈ ids, p ∈ all) {owneds : List (List Bool)} (hl : owneds.length = surfs.length)
    {m : Mem K E} (hm : AllFinish gms all m) :
    (registerAllS b surfs owneds ids m).1 = .ok (List.zipWith (stackRow b) surfs' owneds) ∧
    AllFinish gms all (registerAllS b surfs owneds ids m).2 := by
  induction h generalizing ids owneds m with
  | nil =>
    cases hp
    cases owneds with
    | nil => exact ⟨rfl, hm⟩
    | cons o os => simp at hl
  | @cons s s' surfs surfs' hs _ ih =>
    cases hp with
    | @cons _ q _ ids hsq hp =>
      cases owneds with
      | nil => simp at hl
      | cons owned owneds =>
        have hl' : owneds.length = surfs.length := by simpa using hl
        have hq : q ∈ all := hsub q (by simp)
        have hsub' : ∀ p ∈ ids, p ∈ all := fun p hp => hsub p (by simp [hp])
        unfold registerAllS
        simp only [List.zipWith_cons_cons]
        unfold stackRow
        by_cases ho : owned.any id = true
        · simp only [ho, if_true]
          have hfin : s.gm.CanFinish (m.read q).geom := by rw [hsq]; exact (hm q hq).1
          obtain ⟨h1, h2⟩ := register_ok hs (if owned.any (! ·) then Np.mask owned b else b) hfin
          have hpair : (s.register (if owned.any (! ·) then Np.mask owned b else b) (m.read q)).2.geom.Paired := by
            unfold SurfObj.register
            simp only [hsq]
            exact (hg q.2).find _ _ _ (hm q hq).2
          rcases hr : s.register (if owned.any (! ·) then Np.mask owned b else b) (m.read q) with ⟨x, a⟩
          rw [hr] at h1 h2 hpair
          simp only at h1 h2 hpair
          subst h1
          simp only
          have hm' : AllFinish gms all (m.write q a) := by
            intro p hpa
            by_cases he : p.2 = q.2
            · rw [he, m.write_geom q a, ← hsq]
              exact ⟨h2, hpair⟩
            · rw [m.write_geom_ne a he]; exact hm p hpa
          obtain ⟨h3, h4⟩ := ih hp hsub' hl' hm'
          exact ⟨by rw [h3]; rfl, h4⟩
        · simp only [ho, Bool.false_eq_true, if_false]
          obtain ⟨h3, h4⟩ := ih hp hsub' hl' hm
          exact ⟨by rw [h3]; rfl, h4⟩

theorem intersectRayS_ok {gms : Nat → GM K E} (hg : ∀ g, (gms g).Once) {b : Bundle K E} {surfs : List (SurfObj σ K E)}
    {surfs' : List (Surf σ K E)} (h : List.Forall₂ SurfObj.Represents surfs surfs') {ids : List (Nat × Nat)}
    (hp : ManagersAt gms surfs ids) {surfOwn : List Nat} {rayOwn : List (Option Nat)} {relev : List (List Bool)}
    (hs : IShape b.length surfs' surfOwn rayOwn relev) {m : Mem K E} (hm : AllFinish gms ids m) :
    (intersectRayS b surfs surfOwn rayOwn relev ids m).1 = intersectRay b surfs' surfOwn rayOwn relev ∧
    AllFinish gms ids (intersectRayS b surfs surfOwn rayOwn relev ids m).2 := by
  have hl : (List.zipWith (ownedMask rayOwn) surfOwn relev).length = surfs.length := by
    rw [List.length_zipWith, h.length_eq, hs.surf_len, hs.relev_len, Nat.min_self]
  obtain ⟨h1, h2⟩ := registerAllS_ok hg (b := b) h hp (fun p hp => hp) hl hm
  have he : surfs.isEmpty = surfs'.isEmpty := by cases h <;> rfl
  unfold intersectRayS intersectRay
  rcases hr : registerAllS b surfs (List.zipWith (ownedMask rayOwn) surfOwn relev) ids m with ⟨x, m'⟩
  rw [hr] at h1 h2
  simp only at h1 h2
  subst h1
  simp only [hr, he]
  split
  · exact ⟨rfl, h2⟩
  · split
    · exact ⟨rfl, h2⟩
    · exact ⟨rfl, h2⟩

end Tracer
