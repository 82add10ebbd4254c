import Verif.Props.CurvedMirrors
import Verif.Lemmas.Reversal
import Verif.Lemmas.TubeScene
import Verif.Props.Kaleidoscope
import Verif.Spec.Cavity

/-! Scenes of one surface, whose rays meet it again and again and leave it one by one. -/

namespace Tracer

variable {E σ : Type _}

/-- A scene of one surface. -/
def lone (s : Surf σ ℝ E) : List (Obj σ ℝ E) := [⟨[s], Obj.defaultOwn, Obj.defaultNext 1⟩]

theorem lone_sites (s : Surf σ ℝ E) : sites (lone s) = [⟨0, 0, s⟩] := rfl

theorem lone_mayMeet (s : Surf σ ℝ E) (g : Going ℝ E) (x : Site σ ℝ E) : g.MayMeet (plainPolicy (lone s)) x := by
  intro o j _
  have : plainPolicy (lone s) o = Policy.free := by
    unfold plainPolicy
    refine if_neg ?_
    rintro ⟨obj, ho, hn⟩
    have ho' : obj = ⟨[s], Obj.defaultOwn, Obj.defaultNext 1⟩ := by
      have := List.mem_of_getElem? ho
      simpa [lone] using this
    subst ho'
    have := congrFun (congrFun hn [g.ray]) 0
    simp [Obj.defaultNext, Obj.skipNext] at this
  rw [this]
  exact ⟨fun h => by simp [Policy.free] at h, fun _ => rfl⟩

theorem flatMap_filter {α β : Type _} {l : List α} {p q : α → Bool} {f : α → List β} {g : α → β}
    (h : ∀ x ∈ l, f x = if q x then [g x] else []) : (l.filter p).flatMap f = (l.filter fun x => p x && q x).map g := by
  induction l with
  | nil => rfl
  | cons x l ih =>
    have := h x List.mem_cons_self
    have ih := ih fun y hy => h y (List.mem_cons_of_mem _ hy)
    simp only [List.filter_cons]
    cases p x <;> cases hq : q x <;> simp_all

section
variable {s : Surf σ ℝ E} {w : σ} {b : Bundle ℝ E} {minE : ℝ} {orbit : Ray ℝ E → Nat → Ray ℝ E} {T : Ray ℝ E → Nat → ℝ}
  {hits : Ray ℝ E → Nat → Bool}

theorem goingCut_cases (per : Surf σ ℝ E → Ray ℝ E → WithTop ℝ) (pol : Nat → Policy ℝ E) (xs : List (Site σ ℝ E)) (gs : List (Going ℝ E)) :
    goingCut per pol xs gs ≤ 1 / 10 ^ 6 := by
  unfold goingCut
  split
  · unfold dropTol; norm_num
  · unfold selfTol; norm_num

theorem lone_meets {g : Going ℝ E} {t cut : ℝ} (h : s.single g.ray = (t : WithTop ℝ)) (ht : 1 / 10 ^ 6 < t) (hc : cut ≤ 1 / 10 ^ 6) :
    g.Meets cut Surf.single (plainPolicy (lone s)) (sites (lone s)) ⟨0, 0, s⟩ := by
  refine ⟨lone_mayMeet _ _ _, t, h, by linarith, ?_⟩
  intro y hy _ t' ht' _
  rw [lone_sites, List.mem_singleton] at hy
  subst hy
  have := h.symm.trans ht'
  exact (WithTop.coe_injective this).le

theorem lone_misses {g : Going ℝ E} {cut : ℝ} (h : s.single g.ray = ⊤) :
    ¬ g.Meets cut Surf.single (plainPolicy (lone s)) (sites (lone s)) ⟨0, 0, s⟩ := by
  rintro ⟨_, t, ht, _⟩
  have := h.symm.trans ht
  exact absurd this WithTop.top_ne_coe

/-- The rays that are still followed when generation `k` sets out; `hits r j` says that ray `j` of the orbit meets the surface. -/
noncomputable def followed (minE : ℝ) (hits : Ray ℝ E → Nat → Bool) (orbit : Ray ℝ E → Nat → Ray ℝ E) (k : Nat) (r : Ray ℝ E) : Bool :=
  (List.range k).all fun j => hits r j && decide (minE < (orbit r (j + 1)).energy)

/-- What the rays of a scene of one surface do. -/
structure Orbits (s : Surf σ ℝ E) (w : σ) (b : Bundle ℝ E) (hits : Ray ℝ E → Nat → Bool) (orbit : Ray ℝ E → Nat → Ray ℝ E)
    (T : Ray ℝ E → Nat → ℝ) : Prop where
  first : ∀ r ∈ b, orbit r 0 = r
  hit : ∀ r ∈ b, ∀ k, hits r k = true → s.single (orbit r k) = ((T r k : ℝ) : WithTop ℝ) ∧ 1 / 10 ^ 6 < T r k ∧
    s.alone w (orbit r k) = [orbit r (k + 1)]
  miss : ∀ r ∈ b, ∀ k, hits r k = false → s.single (orbit r k) = ⊤

theorem lone_generation (ho : Orbits s w b hits orbit T) (k : Nat) :
    setOut minE k (goingGeneration Surf.single (Surf.alone w) (plainPolicy (lone s)) (sites (lone s)) minE b k) =
      (b.filter (followed minE hits orbit k)).map (fun r => ⟨orbit r k, if k = 0 then none else some (0, 0)⟩) ∧
    goingGeneration Surf.single (Surf.alone w) (plainPolicy (lone s)) (sites (lone s)) minE b (k + 1) =
      (b.filter (fun r => followed minE hits orbit k r && hits r k)).map (fun r => ⟨orbit r (k + 1), some (0, 0)⟩) := by
  have step : ∀ k, setOut minE k (goingGeneration Surf.single (Surf.alone w) (plainPolicy (lone s)) (sites (lone s)) minE b k) =
      (b.filter (followed minE hits orbit k)).map (fun r => ⟨orbit r k, if k = 0 then none else some (0, 0)⟩) →
      goingGeneration Surf.single (Surf.alone w) (plainPolicy (lone s)) (sites (lone s)) minE b (k + 1) =
      (b.filter (fun r => followed minE hits orbit k r && hits r k)).map (fun r => ⟨orbit r (k + 1), some (0, 0)⟩) := by
    intro k hk
    show nextGoing _ _ _ _ _ = _
    rw [hk]
    unfold nextGoing
    generalize hcut : goingCut Surf.single (plainPolicy (lone s)) (sites (lone s)) _ = cut
    have hc : cut ≤ 1 / 10 ^ 6 := by rw [← hcut]; exact goingCut_cases _ _ _ _
    rw [List.flatMap_map]
    refine flatMap_filter fun r hr => ?_
    unfold Going.children
    rw [lone_sites, List.flatMap_singleton, ← lone_sites s]
    cases hh : hits r k with
    | true =>
      obtain ⟨h1, h2, h3⟩ := ho.hit r hr k hh
      rw [if_pos (lone_meets h1 h2 hc)]
      simp only [h3]
      rfl
    | false =>
      rw [if_neg (lone_misses (ho.miss r hr k hh))]
      rfl
  induction k with
  | zero =>
    have : setOut minE 0 (goingGeneration Surf.single (Surf.alone w) (plainPolicy (lone s)) (sites (lone s)) minE b 0) =
      (b.filter (followed minE hits orbit 0)).map (fun r => ⟨orbit r 0, if 0 = 0 then none else some (0, 0)⟩) := by
      unfold setOut goingGeneration followed
      simp only [↓reduceIte, List.range_zero, List.all_nil, List.filter_true]
      exact List.map_congr_left fun r hr => by rw [ho.first r hr]
    exact ⟨this, step 0 this⟩
  | succ k ih =>
    have : setOut minE (k + 1) (goingGeneration Surf.single (Surf.alone w) (plainPolicy (lone s)) (sites (lone s)) minE b (k + 1)) =
      (b.filter (followed minE hits orbit (k + 1))).map (fun r => ⟨orbit r (k + 1), if k + 1 = 0 then none else some (0, 0)⟩) := by
      unfold setOut
      rw [if_neg (Nat.succ_ne_zero k), ih.2, List.filter_map, List.filter_filter]
      simp only [Nat.succ_ne_zero, ↓reduceIte]
      congr 1
      apply List.filter_congr
      intro r _
      unfold followed
      rw [List.range_succ, List.all_append]
      simp only [Function.comp_apply, List.all_cons, List.all_nil, Bool.and_true]
      generalize (List.range k).all _ = x
      generalize hits r k = y
      generalize decide (minE < (orbit r (k + 1)).energy) = z
      cases x <;> cases y <;> cases z <;> rfl
    exact ⟨this, step _ this⟩

/-- What the surface receives. -/
theorem lone_hits (ho : Orbits s w b hits orbit T) (reps : Nat) :
    traceHits Surf.single (Surf.alone w) (plainPolicy (lone s)) (sites (lone s)) minE b reps ⟨0, 0, s⟩ =
      (List.range reps).flatMap fun k => (b.filter (fun r => followed minE hits orbit k r && hits r k)).map fun r => (orbit r k, T r k) := by
  unfold traceHits
  refine List.flatMap_congr fun k _ => ?_
  rw [(lone_generation ho k).1]
  unfold goingHits
  generalize hcut : goingCut Surf.single (plainPolicy (lone s)) (sites (lone s)) _ = cut
  have hc : cut ≤ 1 / 10 ^ 6 := by rw [← hcut]; exact goingCut_cases _ _ _ _
  rw [List.flatMap_map]
  refine flatMap_filter fun r hr => ?_
  cases hh : hits r k with
  | true =>
    obtain ⟨h1, h2, _⟩ := ho.hit r hr k hh
    rw [if_pos (lone_meets h1 h2 hc)]
    simp only [h1]
    rfl
  | false =>
    rw [if_neg (lone_misses (ho.miss r hr k hh))]
    rfl

end

section
variable {g : Geometry ℝ E} {opt : Optics σ ℝ E} {frame : Tf ℝ}

theorem lone_plain (s : Surf σ ℝ E) : ∀ o ∈ lone s, o.Plain := by
  intro o ho
  rw [lone, List.mem_singleton] at ho
  subst ho
  exact ⟨rfl, Or.inl rfl⟩

theorem lone_mirrors (hg : PlainGeometry g) (ho : MirrorOptics opt) : AllSurfs PlainMirror (lone (mkSurf g opt frame : Surf σ ℝ E)) := by
  intro o hm s hs
  rw [lone, List.mem_singleton] at hm
  subst hm
  rw [List.mem_singleton] at hs
  subst hs
  exact ⟨_, _, _, rfl, hg, ho⟩

/-- The scene is an assembly of one object of one surface, and it is traced without an exception. -/
theorem lone_traced (hg : PlainGeometry g) (ho : MirrorOptics opt) (hf : frame.Rigid) (w : σ) {b : Bundle ℝ E}
    (hb : ∀ r ∈ b, r.dir.IsUnit) (reps : Nat) (minE : ℝ) :
    ∃ res, rayTracer (lone (mkSurf g opt frame)) w b reps minE true = .ok res := by
  let a : SceneAsm σ ℝ E := .mk 1 [] [⟨1, [⟨frame, frame, (g, opt)⟩], (Obj.defaultOwn, Obj.defaultNext 1)⟩]
  have hobjs : a.getObjects = [⟨1, [⟨frame, frame, (g, opt)⟩], (Obj.defaultOwn, Obj.defaultNext 1)⟩] := rfl
  have hall : ∀ o ∈ a.getObjects, ∀ s ∈ o.surfs, s.temp.Rigid ∧ PlainGeometry s.data.1 ∧ MirrorOptics s.data.2 := by
    intro o ho' s hs
    rw [hobjs, List.mem_singleton] at ho'
    subst ho'
    rw [List.mem_singleton] at hs
    subst hs
    exact ⟨hf, hg, ho⟩
  have hlib : LibraryScene 1 1 a := by
    refine ⟨⟨_, by rw [hobjs]; exact List.mem_cons_self, by simp⟩, fun o ho s hs => (hall o ho s hs).1,
      fun o ho s hs => .plain _ (hall o ho s hs).2.1, fun o ho s hs => (hall o ho s hs).2.2.opaque.library 1 1, ?_⟩
    intro o ho'
    rw [hobjs, List.mem_singleton] at ho'
    subst ho'
    exact Or.inl rfl
  exact C75_opaque hlib (fun o ho s hs => (hall o ho s hs).2.1) (fun o ho s hs => (hall o ho s hs).2.2.opaque) w hb minE (Or.inl rfl)

end

end Tracer
