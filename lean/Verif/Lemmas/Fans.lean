import Verif.Lemmas.OneSurface
import Verif.Props.Specular

/-! Scenes of one surface, at which every ray is divided: one part meets the surface again, the others leave it for good. -/

namespace Tracer

variable {E σ : Type _}

/-- What the rays of a scene of one surface do. -/
structure Fans (s : Surf σ ℝ E) (w : σ) (b : Bundle ℝ E) (orbit : Ray ℝ E → Nat → Ray ℝ E) (fan : Ray ℝ E → Nat → List (Ray ℝ E))
    (T : Ray ℝ E → Nat → ℝ) : Prop where
  first : ∀ r ∈ b, orbit r 0 = r
  hit : ∀ r ∈ b, ∀ k, s.single (orbit r k) = ((T r k : ℝ) : WithTop ℝ) ∧ 1 / 10 ^ 6 < T r k ∧ s.alone w (orbit r k) = fan r k
  fan : ∀ r ∈ b, ∀ k, ∃ pre post, fan r k = pre ++ orbit r (k + 1) :: post ∧ ∀ x ∈ pre ++ post, s.single x = ⊤

/-- The rays that are followed until generation `k` sets out. -/
noncomputable def kept (minE : ℝ) (orbit : Ray ℝ E → Nat → Ray ℝ E) (k : Nat) (r : Ray ℝ E) : Bool :=
  (List.range k).all fun j => decide (minE < (orbit r (j + 1)).energy)

section
variable {s : Surf σ ℝ E} {w : σ} {b : Bundle ℝ E} {minE : ℝ} {orbit : Ray ℝ E → Nat → Ray ℝ E} {T : Ray ℝ E → Nat → ℝ}
  {fan : Ray ℝ E → Nat → List (Ray ℝ E)}

theorem kept_succ (k : Nat) (r : Ray ℝ E) : kept minE orbit (k + 1) r = (kept minE orbit k r && decide (minE < (orbit r (k + 1)).energy)) := by
  unfold kept
  rw [List.range_succ, List.all_append]
  simp

theorem flatMap_filter' {α β : Type _} {l : List α} {p q : α → Bool} {f g : α → List β}
    (h : ∀ x ∈ l, f x = if q x then g x else []) : (l.filter p).flatMap f = (l.filter fun x => p x && q x).flatMap g := by
  induction l with
  | nil => rfl
  | cons x l ih =>
    have := h x List.mem_cons_self
    have ih := ih fun y hy => h y (List.mem_cons_of_mem _ hy)
    simp only [List.filter_cons]
    cases p x <;> cases hq : q x <;> simp_all

theorem lone_children_hit {g : Going ℝ E} {t cut : ℝ} (h : s.single g.ray = (t : WithTop ℝ)) (ht : 1 / 10 ^ 6 < t) (hc : cut ≤ 1 / 10 ^ 6) :
    g.children cut Surf.single (Surf.alone w) (plainPolicy (lone s)) (sites (lone s)) = (s.alone w g.ray).map fun r => ⟨r, some (0, 0)⟩ := by
  unfold Going.children
  rw [lone_sites, List.flatMap_singleton, ← lone_sites s, if_pos (lone_meets h ht hc)]

theorem lone_children_miss {g : Going ℝ E} {cut : ℝ} (h : s.single g.ray = ⊤) :
    g.children cut Surf.single (Surf.alone w) (plainPolicy (lone s)) (sites (lone s)) = [] := by
  unfold Going.children
  rw [lone_sites, List.flatMap_singleton, ← lone_sites s, if_neg (lone_misses h)]

theorem fan_generation (ho : Fans s w b orbit fan T) (k : Nat) :
    goingGeneration Surf.single (Surf.alone w) (plainPolicy (lone s)) (sites (lone s)) minE b (k + 1) =
      (b.filter (kept minE orbit k)).flatMap (fun r => (fan r k).map fun x => ⟨x, some (0, 0)⟩) := by
  induction k with
  | zero =>
    show nextGoing _ _ _ _ _ = _
    unfold nextGoing
    generalize hcut : goingCut Surf.single (plainPolicy (lone s)) (sites (lone s)) _ = cut
    have hc : cut ≤ 1 / 10 ^ 6 := by rw [← hcut]; exact goingCut_cases _ _ _ _
    unfold setOut goingGeneration
    rw [if_pos rfl, List.flatMap_map]
    have hk : b.filter (kept minE orbit 0) = b := by
      rw [List.filter_eq_self]; intro r _; simp [kept]
    rw [hk]
    refine List.flatMap_congr fun r hr => ?_
    obtain ⟨h1, h2, h3⟩ := ho.hit r hr 0
    rw [ho.first r hr] at h1 h3
    rw [lone_children_hit (g := ⟨r, none⟩) h1 h2 hc]
    show (s.alone w r).map _ = _
    rw [h3]
  | succ k ih =>
    show nextGoing _ _ _ _ _ = _
    unfold nextGoing
    generalize hcut : goingCut Surf.single (plainPolicy (lone s)) (sites (lone s)) _ = cut
    have hc : cut ≤ 1 / 10 ^ 6 := by rw [← hcut]; exact goingCut_cases _ _ _ _
    rw [ih]
    unfold setOut
    rw [if_neg (Nat.succ_ne_zero k)]
    have hfm : ∀ (l : List (Ray ℝ E)) (f : Ray ℝ E → List (Going ℝ E)) (p : Going ℝ E → Bool),
        (l.flatMap f).filter p = l.flatMap fun r => (f r).filter p := by
      intro l f p
      induction l with
      | nil => rfl
      | cons x l ih => simp [ih]
    rw [hfm, List.flatMap_assoc]
    have : (fun r => kept minE orbit (k + 1) r) = fun r => (kept minE orbit k r && decide (minE < (orbit r (k + 1)).energy)) := by
      funext r; exact kept_succ k r
    show _ = (b.filter fun r => kept minE orbit (k + 1) r).flatMap _
    rw [this]
    refine flatMap_filter' fun r hr => ?_
    obtain ⟨pre, post, hfan, hmiss⟩ := ho.fan r hr k
    obtain ⟨h1, h2, h3⟩ := ho.hit r hr (k + 1)
    have hnone : ∀ l : List (Ray ℝ E), (∀ x ∈ l, s.single x = ⊤) →
        ((l.map fun x => (⟨x, some (0, 0)⟩ : Going ℝ E)).filter fun g => decide (minE < g.ray.energy)).flatMap
          (Going.children cut Surf.single (Surf.alone w) (plainPolicy (lone s)) (sites (lone s))) = [] := by
      intro l hl
      rw [List.flatMap_eq_nil_iff]
      intro g hg
      obtain ⟨x, hx, rfl⟩ := List.mem_map.1 (List.mem_filter.1 hg).1
      exact lone_children_miss (hl x hx)
    rw [hfan, List.map_append, List.map_cons, List.filter_append, List.flatMap_append,
      hnone pre fun x hx => hmiss x (List.mem_append_left _ hx), List.nil_append, List.filter_cons]
    split
    · rename_i h
      rw [List.flatMap_cons, hnone post fun x hx => hmiss x (List.mem_append_right _ hx), List.append_nil,
        lone_children_hit (g := ⟨orbit r (k + 1), some (0, 0)⟩) h1 h2 hc]
      show (s.alone w (orbit r (k + 1))).map _ = _
      rw [h3]
    · rename_i h
      rw [hnone post fun x hx => hmiss x (List.mem_append_right _ hx)]

end

section
variable {g : Geometry ℝ E} {frame : Tf ℝ} {n1 n2 : ℝ}

theorem lone_specular (hg : PlainGeometry g) : AllSurfs SpecularSurf (lone (mkSurf g (refractiveHomogenous n1 n2) frame : Surf σ ℝ E)) := by
  intro o hm s hs
  rw [lone, List.mem_singleton] at hm
  subst hm
  rw [List.mem_singleton] at hs
  subst hs
  exact ⟨_, _, _, _, _, rfl, hg, .refractive⟩

/-- A scene of one refracting surface is traced without an exception. -/
theorem lone_refracting (hg : PlainGeometry g) (h1 : 0 < n1) (h2 : 0 < n2) (hne : n1 ≠ n2) (hf : frame.Rigid) (w : σ) {b : Bundle ℝ E}
    (hb : ∀ r ∈ b, LegalRay n1 n2 r) (reps : Nat) (minE : ℝ) :
    ∃ res, rayTracer (lone (mkSurf g (refractiveHomogenous n1 n2) frame)) w b reps minE true = .ok res := by
  let a : SceneAsm σ ℝ E := .mk 1 [] [⟨1, [⟨frame, frame, (g, refractiveHomogenous n1 n2)⟩], (Obj.defaultOwn, Obj.defaultNext 1)⟩]
  have hobjs : a.getObjects = [⟨1, [⟨frame, frame, (g, refractiveHomogenous n1 n2)⟩], (Obj.defaultOwn, Obj.defaultNext 1)⟩] := rfl
  have hall : ∀ o ∈ a.getObjects, ∀ s ∈ o.surfs, s.temp.Rigid ∧ PlainGeometry s.data.1 ∧ LibraryOptics n1 n2 s.data.2 := by
    intro o ho' s hs
    rw [hobjs, List.mem_singleton] at ho'
    subst ho'
    rw [List.mem_singleton] at hs
    subst hs
    exact ⟨hf, hg, .refractive⟩
  have hlib : LibraryScene n1 n2 a := by
    refine ⟨⟨_, by rw [hobjs]; exact List.mem_cons_self, by simp⟩, fun o ho s hs => (hall o ho s hs).1,
      fun o ho s hs => .plain _ (hall o ho s hs).2.1, fun o ho s hs => (hall o ho s hs).2.2, ?_⟩
    intro o ho'
    rw [hobjs, List.mem_singleton] at ho'
    subst ho'
    exact Or.inl rfl
  exact C75_partial h1 h2 hne hlib (fun o ho s hs => (hall o ho s hs).2.1) w hb minE (Or.inl rfl)

end

end Tracer
