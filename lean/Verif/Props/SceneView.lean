import Verif.Lemmas.SceneView
import Mathlib.Algebra.Field.Rat

/-! C80: what a `TracerScene` shows. -/

namespace Tracer.View

set_option linter.unusedSectionVars false

variable {A I S M L K : Type _} [DecidableEq I]

/-- The state of a scene whose book-keeping is right; `c` says that it is clear. -/
def Good (c : Bool) (s : Scene A I S M L K) : Prop := Tidy s.meshes s.drawn s.next ∧ (c = true → s.drawn = [])

theorem showAssembly_tidy (w : Outside A I S M L K) (upd : Option (List I)) (s : Scene A I S M L K)
    (t : Tidy s.meshes s.drawn s.next) :
    Tidy (s.showAssembly w upd).1.meshes (s.showAssembly w upd).1.drawn (s.showAssembly w upd).1.next := by
  simpa [Scene.showAssembly] using (showLoop_spec w.look upd s.meshes [] s.drawn s.next (by simpa using t)).1

theorem setAssembly_tidy (w : Outside A I S M L K) (a : A) (s : Scene A I S M L K) (t : Tidy s.meshes s.drawn s.next)
    (hd : s.drawn = []) :
    Tidy (s.setAssembly w a).1.meshes (s.setAssembly w a).1.drawn (s.setAssembly w a).1.next := by
  unfold Scene.setAssembly
  cases hl : w.surfaces a with
  | error e => exact t
  | ok l =>
    refine showAssembly_tidy w none _ ?_
    simp only [hd]
    exact Tidy.blank (keysOf_nodup l) _

theorem updateSurfaces_tidy (w : Outside A I S M L K) (s : Scene A I S M L K) (t : Tidy s.meshes s.drawn s.next) :
    Tidy (s.updateSurfaces w).1.meshes (s.updateSurfaces w).1.drawn (s.updateSurfaces w).1.next := by
  unfold Scene.updateSurfaces
  cases hl : w.surfaces s.asm with
  | error e => exact t
  | ok ids =>
    have h := (removeLoop_spec ids s.meshes [] s.drawn s.next (by simpa using t)).1
    simp only [List.nil_append] at h
    simp only
    generalize Scene.removeLoop ids s.meshes s.drawn = r at h
    obtain ⟨ms, d, o⟩ := r
    cases o with
    | some e => exact h
    | none =>
      refine showAssembly_tidy w _ _ ?_
      exact h.add (newSurfs_spec ids _).1 fun i hi => (((newSurfs_spec ids _).2 i).1 hi).2

theorem clear_tidy (s : Scene A I S M L K) (t : Tidy s.meshes s.drawn s.next) :
    Tidy s.clear.meshes s.clear.drawn s.clear.next := by
  have := Tidy.blank (M := M) t.keys s.next
  rw [List.map_map] at this
  exact this

theorem plot_same (w : Outside A I S M L K) (s : Scene A I S M L K) :
    (s.plotRayTrace w).1.meshes = s.meshes ∧ (s.plotRayTrace w).1.drawn = s.drawn ∧ s.next ≤ (s.plotRayTrace w).1.next ∧
    (s.plotRayTrace w).1.asm = s.asm := by
  unfold Scene.plotRayTrace
  cases s.source with
  | none => exact ⟨rfl, rfl, le_refl _, rfl⟩
  | some b =>
    simp only
    cases w.run s.asm b s.iters s.minEnergy with
    | error e => exact ⟨rfl, rfl, le_refl _, rfl⟩
    | ok x => exact ⟨rfl, rfl, Nat.le_succ _, rfl⟩

theorem plot_tidy (w : Outside A I S M L K) (s : Scene A I S M L K) (t : Tidy s.meshes s.drawn s.next) :
    Tidy (s.plotRayTrace w).1.meshes (s.plotRayTrace w).1.drawn (s.plotRayTrace w).1.next := by
  obtain ⟨a, b, c, _⟩ := plot_same w s
  rw [a, b]
  exact ⟨t.keys, t.ids, t.owned, fun i h hm => lt_of_lt_of_le (t.fresh i h hm) c, t.inj⟩

theorem runOps_tidy (ops : List (Op A I S M L K)) : ∀ (c : Bool) (x : Outside A I S M L K × Scene A I S M L K),
    Careful c ops → Good c x.2 → Tidy (runOps ops x).2.meshes (runOps ops x).2.drawn (runOps ops x).2.next := by
  induction ops with
  | nil => intro c x _ g; exact g.1
  | cons op ops ih =>
    rintro c ⟨w, s⟩ hc ⟨t, hd⟩
    cases op with
    | outside w' => exact ih c (w', s) hc ⟨t, hd⟩
    | setAssembly a => exact ih false _ hc.2 ⟨setAssembly_tidy w a s t (hd hc.1), fun h => by simp at h⟩
    | showAssembly upd => exact ih false _ hc ⟨showAssembly_tidy w upd s t, fun h => by simp at h⟩
    | updateSurfaces => exact ih false _ hc ⟨updateSurfaces_tidy w s t, fun h => by simp at h⟩
    | clear => exact ih true _ hc ⟨clear_tidy s t, fun _ => rfl⟩
    | setSource src =>
      refine ih c _ hc ⟨plot_tidy w { s with source := src } t, fun h => ?_⟩
      exact ((plot_same w { s with source := src }).2.1).trans (hd h)
    | plotRayTrace => exact ih c _ hc ⟨plot_tidy w s t, fun h => ((plot_same w s).2.1).trans (hd h)⟩
    | setTraceControl it e => exact ih c _ hc ⟨t, hd⟩

theorem new_tidy [Field K] {w : Outside A I S M L K} {a : A} {src : Option S} {s : Scene A I S M L K}
    (h : Scene.new w a src = .ok s) : Tidy s.meshes s.drawn s.next := by
  unfold Scene.new at h
  have ht := setAssembly_tidy w a (⟨a, [], [], none, 200000000, 5 / 100, none, [], 0, false⟩ : Scene A I S M L K)
    (Tidy.blank (l := []) (by simp) 0) rfl
  revert h ht
  generalize Scene.setAssembly w a _ = r
  obtain ⟨s1, o⟩ := r
  cases o with
  | some e => intro h; simp at h
  | none =>
    intro h ht
    have hp := plot_tidy w { s1 with source := src } ht
    revert h hp
    simp only
    generalize Scene.plotRayTrace w _ = r
    obtain ⟨s2, o⟩ := r
    cases o with
    | some e => intro h; simp at h
    | none =>
      intro h hp
      simp only [Except.ok.injEq] at h
      subst h
      exact hp

/-- **C80** (partial: `C80_set_assembly_fails`).  In every history in which the assembly is replaced only on a cleared scene,
whatever else is called, whatever raises and whatever changes in between: no surface is drawn twice, and only surfaces the
scene knows of are drawn. -/
theorem C80_once_partial [Field K] {w : Outside A I S M L K} {a : A} {src : Option S} {s₀ : Scene A I S M L K}
    (hnew : Scene.new w a src = .ok s₀) (ops : List (Op A I S M L K)) (hc : Careful false ops) :
    (runOps ops (w, s₀)).2.Once ∧ ∀ i m, (runOps ops (w, s₀)).2.Shows i m → i ∈ (runOps ops (w, s₀)).2.known := by
  have t := runOps_tidy ops false (w, s₀) hc ⟨new_tidy hnew, fun h => by simp at h⟩
  refine ⟨t.ids, ?_⟩
  rintro i m ⟨h, hm⟩
  exact List.mem_map.2 ⟨_, t.owned _ _ _ hm, rfl⟩

/-- A `show_assembly` that does not raise, from a state whose book-keeping is right. -/
theorem show_ok {w : Outside A I S M L K} {upd : Option (List I)} {s s' : Scene A I S M L K}
    (t : Tidy s.meshes s.drawn s.next) (h : s.showAssembly w upd = (s', none)) :
    s'.Once ∧ s'.known = s.known ∧
    (∀ i m, Selected upd i → (s'.Shows i m ↔ i ∈ s.known ∧ w.look i = .ok m)) ∧
    (∀ i m, ¬ Selected upd i → (s'.Shows i m ↔ s.Shows i m)) := by
  obtain ⟨t', hk, hsame, hok, _⟩ := showLoop_spec w.look upd s.meshes [] s.drawn s.next (by simpa using t)
  unfold Scene.showAssembly at h
  simp only [Prod.mk.injEq] at h
  simp only [List.nil_append] at t'
  generalize showLoop w.look upd s.meshes s.drawn s.next = r at h t' hk hsame hok
  obtain ⟨ms, d, n, o⟩ := r
  obtain ⟨rfl, rfl⟩ := h
  simp only at t' hk hsame hok
  refine ⟨t'.ids, hk, fun i m hu => ⟨?_, ?_⟩, fun i m hu => exists_congr fun h => hsame h i m fun hc => hu hc.2⟩
  · rintro ⟨h, hm⟩
    have hi : i ∈ ms.map Prod.fst := List.mem_map.2 ⟨_, t'.owned _ _ _ hm, rfl⟩
    rw [hk] at hi
    refine ⟨hi, ?_⟩
    obtain ⟨k, m', hl, hm'⟩ := hok trivial i hi hu
    have := List.inj_on_of_nodup_map t'.ids hm hm' rfl
    simp only [Prod.mk.injEq] at this
    rw [this.2.2]; exact hl
  · rintro ⟨hi, hl⟩
    obtain ⟨k, m', hl', hm'⟩ := hok trivial i hi hu
    rw [hl, Except.ok.injEq] at hl'
    exact ⟨k, by rw [hl']; exact hm'⟩

/-- **C80** (partial).  After such a history, a `show_assembly()` that does not raise leaves exactly one drawing of every
surface the scene knows of, as the surface is now, and no other drawing. -/
theorem C80_show_partial [Field K] {w : Outside A I S M L K} {a : A} {src : Option S} {s₀ : Scene A I S M L K}
    (hnew : Scene.new w a src = .ok s₀) (ops : List (Op A I S M L K)) (hc : Careful false ops)
    {w' : Outside A I S M L K} {s s' : Scene A I S M L K} (hs : runOps ops (w, s₀) = (w', s))
    (hshow : s.showAssembly w' none = (s', none)) :
    s'.Once ∧ s'.known = s.known ∧ ∀ i m, s'.Shows i m ↔ i ∈ s.known ∧ w'.look i = .ok m := by
  have t := runOps_tidy ops false (w, s₀) hc ⟨new_tidy hnew, fun h => by simp at h⟩
  rw [hs] at t
  obtain ⟨h1, h2, h3, _⟩ := show_ok t hshow
  exact ⟨h1, h2, fun i m => h3 i m fun u hu => by simp at hu⟩

/-- **C80** (partial).  After such a history, `show_assembly(update=u)` redraws the known surfaces in `u` as they are now and
leaves the drawings of all others as they were. -/
theorem C80_show_some_partial [Field K] {w : Outside A I S M L K} {a : A} {src : Option S} {s₀ : Scene A I S M L K}
    (hnew : Scene.new w a src = .ok s₀) (ops : List (Op A I S M L K)) (hc : Careful false ops)
    {w' : Outside A I S M L K} {s s' : Scene A I S M L K} (hs : runOps ops (w, s₀) = (w', s)) (u : List I)
    (hshow : s.showAssembly w' (some u) = (s', none)) :
    s'.Once ∧ s'.known = s.known ∧
    (∀ i m, i ∈ u → (s'.Shows i m ↔ i ∈ s.known ∧ w'.look i = .ok m)) ∧
    (∀ i m, i ∉ u → (s'.Shows i m ↔ s.Shows i m)) := by
  have t := runOps_tidy ops false (w, s₀) hc ⟨new_tidy hnew, fun h => by simp at h⟩
  rw [hs] at t
  obtain ⟨h1, h2, h3, h4⟩ := show_ok t hshow
  exact ⟨h1, h2, fun i m hi => h3 i m fun v hv => by cases hv; exact hi, fun i m hi => h4 i m fun hc => hi (hc u rfl)⟩

/-- **C80** (partial).  After such a history, an `update_surfaces()` that does not raise leaves no drawing of a surface that is
not in the assembly; the surfaces that are new to the scene are drawn once, as they are now; the others are drawn as before. -/
theorem C80_update_partial [Field K] {w : Outside A I S M L K} {a : A} {src : Option S} {s₀ : Scene A I S M L K}
    (hnew : Scene.new w a src = .ok s₀) (ops : List (Op A I S M L K)) (hc : Careful false ops)
    {w' : Outside A I S M L K} {s s' : Scene A I S M L K} (hs : runOps ops (w, s₀) = (w', s))
    (hup : s.updateSurfaces w' = (s', none)) :
    ∃ ids, w'.surfaces s.asm = .ok ids ∧ s'.Once ∧ (∀ i, i ∈ s'.known ↔ i ∈ ids) ∧
      (∀ i m, i ∉ ids → ¬ s'.Shows i m) ∧
      (∀ i m, i ∈ ids → i ∉ s.known → (s'.Shows i m ↔ w'.look i = .ok m)) ∧
      (∀ i m, i ∈ ids → i ∈ s.known → (s'.Shows i m ↔ s.Shows i m)) := by
  have t := runOps_tidy ops false (w, s₀) hc ⟨new_tidy hnew, fun h => by simp at h⟩
  rw [hs] at t
  have t' := updateSurfaces_tidy w' s t
  rw [hup] at t'
  unfold Scene.updateSurfaces at hup
  cases hl : w'.surfaces s.asm with
  | error e => rw [hl] at hup; simp at hup
  | ok ids =>
    rw [hl] at hup
    obtain ⟨tr, hsame, hkeep, _⟩ := removeLoop_spec ids s.meshes [] s.drawn s.next (by simpa using t)
    simp only [List.nil_append] at tr
    simp only at hup
    generalize Scene.removeLoop ids s.meshes s.drawn = r at hup tr hsame hkeep
    obtain ⟨ms, d, o⟩ := r
    cases o with
    | some e => simp at hup
    | none =>
      simp only at hup tr hsame hkeep
      have hms := hkeep trivial
      have hmem : ∀ i, i ∈ ms.map Prod.fst ↔ i ∈ s.known ∧ i ∈ ids := by
        intro i
        rw [hms]
        simp only [Scene.known, List.mem_map, List.mem_filter, decide_eq_true_eq]
        constructor
        · rintro ⟨x, ⟨hx, hxi⟩, rfl⟩; exact ⟨⟨x, hx, rfl⟩, hxi⟩
        · rintro ⟨⟨x, hx, rfl⟩, hxi⟩; exact ⟨x, ⟨hx, hxi⟩, rfl⟩
      have hnw := newSurfs_spec ids (ms.map Prod.fst)
      have tn := tr.add hnw.1 fun i hi => ((hnw.2 i).1 hi).2
      obtain ⟨h1, h2, h3, h4⟩ := show_ok (s := { s with
        meshes := ms ++ (Scene.newSurfs (ms.map Prod.fst) ids).map (fun i => (i, none)), drawn := d }) tn hup
      have hkn : ∀ i, i ∈ s'.known ↔ i ∈ ids := by
        intro i
        rw [h2]
        simp only [Scene.known, List.map_append, List.map_map, List.mem_append]
        have hid : (Prod.fst ∘ fun i : I => ((i, none) : I × Option Nat)) = id := rfl
        rw [hid, List.map_id, hmem, hnw.2, hmem]
        tauto
      refine ⟨ids, rfl, h1, hkn, ?_, ?_, ?_⟩
      · rintro i m hi ⟨h, hm⟩
        exact hi ((hkn i).1 (List.mem_map.2 ⟨_, t'.owned _ _ _ hm, rfl⟩))
      · intro i m hi hk
        have hin : i ∈ Scene.newSurfs (ms.map Prod.fst) ids := (hnw.2 i).2 ⟨hi, fun hc => hk ((hmem i).1 hc).1⟩
        rw [h3 i m fun v hv => by cases hv; exact hin, ← h2]
        exact and_iff_right ((hkn i).2 hi)
      · intro i m hi hk
        have hin : i ∉ Scene.newSurfs (ms.map Prod.fst) ids := fun hc => ((hnw.2 i).1 hc).2 ((hmem i).2 ⟨hk, hi⟩)
        rw [h4 i m fun hc => hin (hc _ rfl)]
        exact exists_congr fun h => hsame h i m fun _ => hi

/-- A scene with nothing drawn, given an assembly. -/
theorem setAssembly_blank (w : Outside A I S M L K) (a : A) (s s' : Scene A I S M L K) (hd : s.drawn = [])
    (h : s.setAssembly w a = (s', none)) :
    ∃ l, w.surfaces a = .ok l ∧ s'.asm = a ∧ s'.Once ∧ (∀ i, i ∈ s'.known ↔ i ∈ l) ∧
      ∀ i m, s'.Shows i m ↔ i ∈ l ∧ w.look i = .ok m := by
  unfold Scene.setAssembly at h
  cases hl : w.surfaces a with
  | error e => rw [hl] at h; simp at h
  | ok l =>
    rw [hl] at h
    simp only at h
    have hasm : s'.asm = a := by
      have := congrArg (fun x => x.1.asm) h
      exact this.symm
    have t : Tidy (M := M) ((Scene.keysOf l).map fun i => (i, none)) s.drawn s.next := by
      rw [hd]; exact Tidy.blank (keysOf_nodup l) s.next
    obtain ⟨h1, h2, h3, _⟩ := show_ok (s := { s with asm := a, meshes := (Scene.keysOf l).map fun i => (i, none) }) t h
    have hkn : ∀ i, i ∈ s'.known ↔ i ∈ l := by
      intro i
      rw [h2]
      simp only [Scene.known, List.map_map]
      have hid : (Prod.fst ∘ fun i : I => ((i, none) : I × Option Nat)) = id := rfl
      rw [hid, List.map_id, mem_keysOf]
    refine ⟨l, rfl, hasm, h1, hkn, fun i m => ?_⟩
    rw [h3 i m fun u hu => by simp at hu, ← h2, hkn]

/-- **C80** (partial).  From any state at all, `clear_scene()` and then a `set_assembly(a)` that does not raise leave exactly
one drawing of each surface of `a`, as it is now, and no other drawing. -/
theorem C80_replace_partial (w : Outside A I S M L K) (a : A) (s s' : Scene A I S M L K)
    (h : s.clear.setAssembly w a = (s', none)) :
    ∃ l, w.surfaces a = .ok l ∧ s'.asm = a ∧ s'.Once ∧ (∀ i, i ∈ s'.known ↔ i ∈ l) ∧
      ∀ i m, s'.Shows i m ↔ i ∈ l ∧ w.look i = .ok m :=
  setAssembly_blank w a s.clear s' rfl h

/-- At most one set of lines, whose handle the scene holds. -/
def RaysOk (s : Scene A I S M L K) : Prop :=
  (s.lines = none ∧ s.rays = []) ∨ ∃ h x, s.lines = some h ∧ s.rays = [(h, x)]

theorem eraseOpt_rays {s : Scene A I S M L K} (h : RaysOk s) : eraseOpt s.lines s.rays = [] := by
  rcases h with ⟨h1, h2⟩ | ⟨k, x, h1, h2⟩
  · rw [h1, h2]; rfl
  · rw [h1, h2]; simp [eraseOpt, erase]

theorem plot_cases (w : Outside A I S M L K) (s : Scene A I S M L K) (hr : RaysOk s) :
    (s.source = none ∧ s.plotRayTrace w = (s, none)) ∨
    (∃ b e, s.source = some b ∧ w.run s.asm b s.iters s.minEnergy = .error e ∧
      s.plotRayTrace w = ({ s with rays := [], lines := none, frozen := true }, some e)) ∨
    (∃ b x, s.source = some b ∧ w.run s.asm b s.iters s.minEnergy = .ok x ∧ s.plotRayTrace w =
      ({ s with rays := [(s.next, x)], lines := some s.next, next := s.next + 1, frozen := false }, none)) := by
  have he := eraseOpt_rays hr
  cases hb : s.source with
  | none => left; exact ⟨rfl, by unfold Scene.plotRayTrace; rw [hb]⟩
  | some b =>
    right
    cases hx : w.run s.asm b s.iters s.minEnergy with
    | error e =>
      left
      refine ⟨b, e, rfl, hx, ?_⟩
      unfold Scene.plotRayTrace
      rw [hb]
      simp only [hx, he]
    | ok x =>
      right
      refine ⟨b, x, rfl, hx, ?_⟩
      unfold Scene.plotRayTrace
      rw [hb]
      simp only [hx, he, List.nil_append]

theorem plot_rays (w : Outside A I S M L K) (s : Scene A I S M L K) (hr : RaysOk s) : RaysOk (s.plotRayTrace w).1 := by
  rcases plot_cases w s hr with ⟨_, h⟩ | ⟨b, e, _, _, h⟩ | ⟨b, x, _, _, h⟩ <;> rw [h]
  · exact hr
  · exact Or.inl ⟨rfl, rfl⟩
  · exact Or.inr ⟨_, _, rfl, rfl⟩

theorem setAssembly_frame (w : Outside A I S M L K) (a : A) (s : Scene A I S M L K) :
    (s.setAssembly w a).1.lines = s.lines ∧ (s.setAssembly w a).1.rays = s.rays ∧
    (s.setAssembly w a).1.iters = s.iters ∧ (s.setAssembly w a).1.minEnergy = s.minEnergy := by
  unfold Scene.setAssembly
  cases w.surfaces a <;> exact ⟨rfl, rfl, rfl, rfl⟩

theorem updateSurfaces_frame (w : Outside A I S M L K) (s : Scene A I S M L K) :
    (s.updateSurfaces w).1.lines = s.lines ∧ (s.updateSurfaces w).1.rays = s.rays := by
  unfold Scene.updateSurfaces
  cases w.surfaces s.asm with
  | error e => exact ⟨rfl, rfl⟩
  | ok ids =>
    simp only
    generalize Scene.removeLoop ids s.meshes s.drawn = r
    obtain ⟨ms, d, o⟩ := r
    cases o <;> exact ⟨rfl, rfl⟩

theorem runOps_rays (ops : List (Op A I S M L K)) : ∀ x : Outside A I S M L K × Scene A I S M L K,
    RaysOk x.2 → RaysOk (runOps ops x).2 := by
  induction ops with
  | nil => intro x h; exact h
  | cons op ops ih =>
    rintro ⟨w, s⟩ h
    refine ih _ ?_
    cases op with
    | outside w' => exact h
    | setAssembly a =>
      obtain ⟨h1, h2, _⟩ := setAssembly_frame w a s
      unfold RaysOk Op.run; simp only [h1, h2]; exact h
    | showAssembly upd => exact h
    | updateSurfaces =>
      obtain ⟨h1, h2⟩ := updateSurfaces_frame w s
      unfold RaysOk Op.run; simp only [h1, h2]; exact h
    | clear => exact Or.inl ⟨rfl, rfl⟩
    | setSource src => exact plot_rays w { s with source := src } h
    | plotRayTrace => exact plot_rays w s h
    | setTraceControl it e => exact h

/-- The two steps of making a scene. -/
theorem new_steps [Field K] {w : Outside A I S M L K} {a : A} {src : Option S} {s : Scene A I S M L K}
    (h : Scene.new w a src = .ok s) :
    ∃ s₁, Scene.setAssembly w a ⟨a, [], [], none, 200000000, 5 / 100, none, [], 0, false⟩ = (s₁, none) ∧
      { s₁ with source := src }.plotRayTrace w = (s, none) := by
  unfold Scene.new at h
  revert h
  generalize Scene.setAssembly w a _ = r
  obtain ⟨s₁, o⟩ := r
  cases o with
  | some e => intro h; simp at h
  | none =>
    intro h
    refine ⟨s₁, rfl, ?_⟩
    revert h
    simp only
    generalize Scene.plotRayTrace w _ = r
    obtain ⟨s₂, o⟩ := r
    cases o with
    | some e => intro h; simp at h
    | none =>
      intro h
      simp only [Except.ok.injEq] at h
      rw [h]

theorem new_blank [Field K] {w : Outside A I S M L K} {a : A} {s₁ : Scene A I S M L K}
    (h₁ : Scene.setAssembly w a ⟨a, [], [], none, 200000000, 5 / 100, none, [], 0, false⟩ = (s₁, none)) :
    RaysOk s₁ ∧ s₁.rays = [] ∧ s₁.iters = 200000000 ∧ s₁.minEnergy = 5 / 100 := by
  obtain ⟨f1, f2, f3, f4⟩ := setAssembly_frame w a
    (⟨a, [], [], none, 200000000, 5 / 100, none, [], 0, false⟩ : Scene A I S M L K)
  rw [h₁] at f1 f2 f3 f4
  exact ⟨Or.inl ⟨f1, f2⟩, f2, f3, f4⟩

theorem new_rays [Field K] {w : Outside A I S M L K} {a : A} {src : Option S} {s : Scene A I S M L K}
    (h : Scene.new w a src = .ok s) : RaysOk s := by
  obtain ⟨s₁, h₁, h₂⟩ := new_steps h
  have := plot_rays w { s₁ with source := src } (new_blank h₁).1
  rw [h₂] at this
  exact this

/-- **C80**.  A new scene shows exactly one drawing of each surface of its assembly, and, if it has a source, the lines of one
trace of it with the default controls. -/
theorem C80_new [Field K] {w : Outside A I S M L K} {a : A} {src : Option S} {s : Scene A I S M L K}
    (h : Scene.new w a src = .ok s) :
    (∃ l, w.surfaces a = .ok l ∧ s.asm = a ∧ s.Once ∧ ∀ i m, s.Shows i m ↔ i ∈ l ∧ w.look i = .ok m) ∧
    (src = none → s.rays = []) ∧
    (∀ b, src = some b → ∃ x, w.run a b 200000000 (5 / 100) = .ok x ∧ s.rays.map Prod.snd = [x]) := by
  obtain ⟨s₁, h₁, h₂⟩ := new_steps h
  obtain ⟨hr, hr0, hit, hme⟩ := new_blank h₁
  obtain ⟨l, g1, g2, g3, _, g5⟩ := setAssembly_blank w a _ s₁ rfl h₁
  obtain ⟨p1, p2, _, p4⟩ := plot_same w { s₁ with source := src }
  rw [h₂] at p1 p2 p4
  simp only at p1 p2 p4
  refine ⟨⟨l, g1, p4.trans g2, ?_, fun i m => ?_⟩, ?_, ?_⟩
  · unfold Scene.Once; rw [p2]; exact g3
  · unfold Scene.Shows; rw [p2]; exact g5 i m
  · rintro rfl
    rcases plot_cases w { s₁ with source := none } hr with ⟨_, hp⟩ | ⟨b, e, hb, _⟩ | ⟨b, x, hb, _⟩
    · rw [hp, Prod.mk.injEq] at h₂
      rw [← h₂.1]; exact hr0
    · simp at hb
    · simp at hb
  · rintro b rfl
    rcases plot_cases w { s₁ with source := some b } hr with ⟨hb, _⟩ | ⟨b', e, _, _, hp⟩ | ⟨b', x, hb, hx, hp⟩
    · simp at hb
    · rw [hp] at h₂; simp at h₂
    · simp only [Option.some.injEq] at hb
      subst hb
      simp only [hit, hme, g2] at hx
      rw [hp, Prod.mk.injEq] at h₂
      exact ⟨x, hx, by rw [← h₂.1]; rfl⟩

/-- **C80**.  After every history whatever, at most one set of ray paths is on the scene.  With a source `b`, a
`set_source(b)` that does not raise leaves exactly one: that of a trace of `b` through the scene's assembly as it is now, with
the scene's current controls.  The same holds of `plot_ray_trace()` and the scene's source.  The meshes stay as they are. -/
theorem C80_rays [Field K] {w : Outside A I S M L K} {a : A} {src : Option S} {s₀ : Scene A I S M L K}
    (hnew : Scene.new w a src = .ok s₀) (ops : List (Op A I S M L K))
    {w' : Outside A I S M L K} {s : Scene A I S M L K} (hs : runOps ops (w, s₀) = (w', s)) :
    s.rays.length ≤ 1 ∧
    (∀ b s', s.setSource w' (some b) = (s', none) → s'.source = some b ∧ s'.drawn = s.drawn ∧ s'.frozen = false ∧
      ∃ x, w'.run s.asm b s.iters s.minEnergy = .ok x ∧ s'.rays.map Prod.snd = [x]) ∧
    (∀ b s', s.source = some b → s.plotRayTrace w' = (s', none) → s'.drawn = s.drawn ∧ s'.frozen = false ∧
      ∃ x, w'.run s.asm b s.iters s.minEnergy = .ok x ∧ s'.rays.map Prod.snd = [x]) := by
  have hr := runOps_rays ops (w, s₀) (new_rays hnew)
  rw [hs] at hr
  have key : ∀ (s₁ s' : Scene A I S M L K) (b : S), RaysOk s₁ → s₁.source = some b → s₁.plotRayTrace w' = (s', none) →
      s'.source = some b ∧ s'.drawn = s₁.drawn ∧ s'.frozen = false ∧
      ∃ x, w'.run s₁.asm b s₁.iters s₁.minEnergy = .ok x ∧ s'.rays.map Prod.snd = [x] := by
    intro s₁ s' b hr₁ hb h
    rcases plot_cases w' s₁ hr₁ with ⟨hn, _⟩ | ⟨b', e, _, _, hp⟩ | ⟨b', x, hb', hx, hp⟩
    · rw [hb] at hn; simp at hn
    · rw [hp] at h; simp at h
    · rw [hb, Option.some.injEq] at hb'
      subst hb'
      rw [hp, Prod.mk.injEq] at h
      obtain ⟨rfl, _⟩ := h
      exact ⟨hb, rfl, rfl, x, hx, rfl⟩
  refine ⟨?_, fun b s' h => key { s with source := some b } s' b hr rfl h, fun b s' hb h => (key s s' b hr hb h).2⟩
  rcases hr with ⟨_, h⟩ | ⟨k, x, _, h⟩
  · have h' : s.rays = [] := h
    rw [h']; exact Nat.zero_le _
  · have h' : s.rays = [(k, x)] := h
    rw [h']; exact le_refl _

/-- **C80**.  The trace controls: what was set last, one at a time or both, else what they were. -/
theorem C80_controls (s : Scene A I S M L K) (n : Nat) (e : K) :
    (s.setTraceControl (some n) none).iters = n ∧ (s.setTraceControl (some n) none).minEnergy = s.minEnergy ∧
    (s.setTraceControl none (some e)).minEnergy = e ∧ (s.setTraceControl none (some e)).iters = s.iters ∧
    (s.setTraceControl (some n) (some e)).iters = n ∧ (s.setTraceControl (some n) (some e)).minEnergy = e :=
  ⟨rfl, rfl, rfl, rfl, rfl, rfl⟩

/-! Where the code falls short, on concrete scenes: an assembly is a list of numbered surfaces. -/

/-- Surfaces with these numbers as assemblies, each drawn as its number plus `v`; tracing succeeds unless the source is 0. -/
def numbers (v : Nat) : Outside (List Nat) Nat Nat Nat (List Nat × Nat × Nat) ℚ where
  surfaces a := if a = [] then .error .type else .ok a
  look i := .ok (i + v)
  run a b n _ := if b = 0 then .error .value else .ok (a, b, n)

/-- A new scene with surfaces 1, 2 and 3 and source 7. -/
def start : Scene (List Nat) Nat Nat Nat (List Nat × Nat × Nat) ℚ :=
  ⟨[1, 2, 3], [(1, some 0), (2, some 1), (3, some 2)], [(0, 1, 1), (1, 2, 2), (2, 3, 3)], some 7, 200000000, 5 / 100,
    some 3, [(3, ([1, 2, 3], 7, 200000000))], 4, false⟩

theorem start_new : Scene.new (numbers 0) [1, 2, 3] (some 7) = .ok start := rfl

/-- **C80 fails**: after `set_assembly` on a scene that was not cleared, a surface of the old assembly is still drawn, and so
are the old assembly's ray paths. -/
theorem C80_set_assembly_fails :
    (start.setAssembly (numbers 0) [4]).2 = none ∧ (start.setAssembly (numbers 0) [4]).1.asm = [4] ∧
    (start.setAssembly (numbers 0) [4]).1.Shows 1 1 ∧
    (start.setAssembly (numbers 0) [4]).1.rays.map Prod.snd = [([1, 2, 3], 7, 200000000)] :=
  ⟨rfl, rfl, ⟨0, by decide⟩, rfl⟩

/-- **C80 fails**: with the same assembly set again, each of its surfaces is drawn twice. -/
theorem C80_set_same_fails : ¬ (start.setAssembly (numbers 0) [1, 2, 3]).1.Once := by
  unfold Scene.Once; decide

/-- **C80 fails**: `update_surfaces` raises if a surface was taken from the assembly after `clear_scene`; the assembly here is
`[1, 2]`, with `3` removed. -/
theorem C80_update_after_clear_fails :
    (start.clear.updateSurfaces { numbers 0 with surfaces := fun _ => .ok [1, 2] }).2 = some .attribute := rfl

/-- **C80 fails**: `set_source(None)` leaves the old source's ray paths on the scene. -/
theorem C80_no_source_fails :
    (start.setSource (numbers 0) none).2 = none ∧ (start.setSource (numbers 0) none).1.source = none ∧
    (start.setSource (numbers 0) none).1.rays = start.rays ∧ start.rays ≠ [] :=
  ⟨rfl, rfl, rfl, by simp [start]⟩

/-- **C80 fails**: when a trace raises, rendering stays disabled, also after redrawing the assembly. -/
theorem C80_render_fails :
    (start.setSource (numbers 0) (some 0)).2 = some .value ∧
    ((start.setSource (numbers 0) (some 0)).1.showAssembly (numbers 0) none).2 = none ∧
    ((start.setSource (numbers 0) (some 0)).1.showAssembly (numbers 0) none).1.frozen = true :=
  ⟨rfl, rfl, rfl⟩

/-! Hypotheses of the theorems above, met: a history that changes the surfaces' looks, clears, replaces the assembly, redraws
some; then updates on a changed assembly. -/

/-- The history. -/
def story : List (Op (List Nat) Nat Nat Nat (List Nat × Nat × Nat) ℚ) :=
  [.outside (numbers 10), .showAssembly (some [2]), .setSource (some 0), .clear, .setAssembly [5, 6, 5], .plotRayTrace,
   .setTraceControl (some 9) none, .setSource (some 8), .outside { numbers 20 with surfaces := fun _ => .ok [6, 9] }]

example : Careful false story := by simp [story, Careful]

example : (runOps story (numbers 0, start)).2.drawn.map (fun x => x.2) = [(5, 15), (6, 16)] := rfl

example : ((runOps story (numbers 0, start)).2.showAssembly (runOps story (numbers 0, start)).1 none).2 = none ∧
    ((runOps story (numbers 0, start)).2.showAssembly (runOps story (numbers 0, start)).1 none).1.drawn.map (fun x => x.2) =
      [(5, 25), (6, 26)] := ⟨rfl, rfl⟩

example : ((runOps story (numbers 0, start)).2.updateSurfaces (runOps story (numbers 0, start)).1).2 = none ∧
    ((runOps story (numbers 0, start)).2.updateSurfaces (runOps story (numbers 0, start)).1).1.drawn.map (fun x => x.2) =
      [(6, 16), (9, 29)] := ⟨rfl, rfl⟩

example : (runOps story (numbers 0, start)).2.rays.map Prod.snd = [([5, 6, 5], 8, 9)] := rfl

example : (start.clear.setAssembly (numbers 3) [4, 4]).2 = none := rfl

end Tracer.View
