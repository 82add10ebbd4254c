import Verif.Lemmas.WindowTrace
import Verif.Props.Progress

/-!
# A pane of glass (C87)

Two plates that refract, parallel to each other.  Every generation of rays is known in closed form: two rays for each source ray, one on
its way through the pane and one that has left it.
-/

set_option linter.unusedSectionVars false

namespace Tracer

open Real

variable {E σ : Type _} {T : Tf ℝ} {h width height n1 n2 minE : ℝ} {g : Geometry ℝ E} {b : Bundle ℝ E} {reps : ℕ}
  {t : Ray ℝ E → ℝ} {e : Ray ℝ E → V3 ℝ}

/-! ### The scene -/

theorem windowAsm_objects (g : Geometry ℝ E) (n1 n2 h : ℝ) (T : Tf ℝ) (junk : M3 ℝ) :
    (windowAsm g n1 n2 h T junk : SceneAsm σ ℝ E).getObjects =
      [⟨T, [⟨1, T, (g, refractiveHomogenous n1 n2)⟩, ⟨⟨1, ⟨0, 0, -h⟩⟩, lowerFrame T h, (g, refractiveHomogenous n1 n2)⟩],
        (Obj.defaultOwn, Obj.defaultNext 2)⟩] := by
  have e0 : (1 : Tf ℝ) * ⟨1, 0⟩ * T = T := by
    change (1 : Tf ℝ) * 1 * T = T
    rw [Tf.one_mul', Tf.one_mul']
  have e1 : (1 : Tf ℝ) * ⟨1, 0⟩ * T * 1 = T := by rw [e0, Tf.mul_one']
  have e2 : (1 : Tf ℝ) * ⟨1, 0⟩ * T * ⟨1, ⟨0, 0, -h⟩⟩ = lowerFrame T h := by
    rw [e0]
    apply Tf.ext
    · exact M3.mul_one' _
    · change T.rot.mulVec ⟨0, 0, -h⟩ + T.loc = T.loc - h • T.rot.c3
      apply V3.ext <;> simp <;> ring
  change [(⟨T, [⟨1, (1 : Tf ℝ) * ⟨1, 0⟩ * T * 1, (g, refractiveHomogenous n1 n2)⟩,
    ⟨⟨1, ⟨0, 0, -h⟩⟩, (1 : Tf ℝ) * ⟨1, 0⟩ * T * ⟨1, ⟨0, 0, -h⟩⟩, (g, refractiveHomogenous n1 n2)⟩], (Obj.defaultOwn, Obj.defaultNext 2)⟩ : SceneObj σ ℝ E)] = _
  rw [e1, e2]

theorem windowAsm_scene (hg : rectPlateGM width height = .ok g) (n1 n2 h : ℝ) (T : Tf ℝ) (junk : M3 ℝ) :
    (windowAsm g n1 n2 h T junk : SceneAsm σ ℝ E).scene =
      [⟨[upperFace width height n1 n2 T, lowerFace width height n1 n2 h T], Obj.defaultOwn, Obj.defaultNext 2⟩] := by
  unfold Asm.scene
  rw [windowAsm_objects, rect_eq hg]
  rfl

theorem windowAsm_library (hT : T.Rigid) (hg : rectPlateGM width height = .ok g) (junk : M3 ℝ) :
    LibraryScene n1 n2 (windowAsm g n1 n2 h T junk : SceneAsm σ ℝ E) := by
  refine ⟨?_, ?_, ?_, ?_, ?_⟩ <;> rw [windowAsm_objects]
  · exact ⟨_, List.mem_cons_self, fun h => by cases h⟩
  · exact List.forall_mem_cons.2 ⟨List.forall_mem_cons.2 ⟨hT, List.forall_mem_cons.2 ⟨hT, List.forall_mem_nil _⟩⟩, List.forall_mem_nil _⟩
  · exact List.forall_mem_cons.2 ⟨List.forall_mem_cons.2 ⟨.plain _ (.rect _ _ _ hg), List.forall_mem_cons.2 ⟨.plain _ (.rect _ _ _ hg),
      List.forall_mem_nil _⟩⟩, List.forall_mem_nil _⟩
  · exact List.forall_mem_cons.2 ⟨List.forall_mem_cons.2 ⟨.refractive, List.forall_mem_cons.2 ⟨.refractive,
      List.forall_mem_nil _⟩⟩, List.forall_mem_nil _⟩
  · exact List.forall_mem_cons.2 ⟨.inl rfl, List.forall_mem_nil _⟩

/-! ### The rays -/

/-- C87: a pane of glass.  The trace succeeds, and each generation consists, for every source ray, of a ray on its way through the pane and
one that has left it, with the places, directions, energies and media of the textbook. -/
theorem C87_window (hg : rectPlateGM width height = .ok g) (hT : T.Rigid) (hh : 0 < h) (h1 : 0 < n1) (h2 : 0 < n2) (hne : n1 ≠ n2)
    (hb : ∀ r ∈ b, EntersPane T width height h n1 n2 r (t r) (e r) reps)
    (hE : ∀ r ∈ b, ∀ j, 1 ≤ j → j < reps →
      minE < r.energy * (1 - paneR n1 n2 T.rot.c3 (e r) r) * paneR n1 n2 T.rot.c3 (e r) r ^ (j - 1))
    (w : σ) (junk : M3 ℝ) :
    ∃ res, rayTracer (windowAsm g n1 n2 h T junk : SceneAsm σ ℝ E).scene w b reps minE true = .ok res ∧
      ∀ k, 1 ≤ k → k ≤ reps →
        (((res.tree[k]?).getD []).map Ray.strip).Perm (b.flatMap fun r =>
          [paneInside n2 h (paneR n1 n2 T.rot.c3 (e r) r) T.rot.c3 (r.at (t r)) (e r) r k,
           paneOutside h (paneR n1 n2 T.rot.c3 (e r) r) T.rot.c3 (r.at (t r)) (e r) r k]) := by
  obtain ⟨res, hres⟩ := C75_partial h1 h2 hne (windowAsm_library (σ := σ) (h := h) hT hg junk) (by
    rw [windowAsm_objects]
    exact List.forall_mem_cons.2 ⟨List.forall_mem_cons.2 ⟨.rect _ _ _ hg, List.forall_mem_cons.2 ⟨.rect _ _ _ hg,
      List.forall_mem_nil _⟩⟩, List.forall_mem_nil _⟩) w (b := b)
    (fun r hr => ⟨(hb r hr).unit, Or.inl (hb r hr).medium⟩) (reps := reps) minE (Or.inl rfl : true = true ∨ 0 < reps)
  refine ⟨res, hres, ?_⟩
  rintro k hk1 hk
  obtain ⟨k, rfl⟩ : ∃ j, k = j + 1 := ⟨k - 1, by omega⟩
  rw [windowAsm_scene hg] at hres
  have hspec : AllSurfs SpecularSurf [(⟨[upperFace width height n1 n2 T, lowerFace width height n1 n2 h T], Obj.defaultOwn, Obj.defaultNext 2⟩ : Obj σ ℝ E)] := by
    have hp : PlainGeometry (finiteFlatGM (rectOutside width height) : Geometry ℝ E) := rect_eq hg ▸ .rect _ _ _ hg
    intro o ho s hs
    rw [List.mem_singleton] at ho
    subst ho
    rcases List.mem_cons.1 hs with rfl | hs
    · exact ⟨_, _, _, n1, n2, rfl, hp, .refractive⟩
    · rw [List.mem_singleton] at hs
      subst hs
      exact ⟨_, _, _, n1, n2, rfl, hp, .refractive⟩
  have hdef : ∀ o ∈ [(⟨[upperFace width height n1 n2 T, lowerFace width height n1 n2 h T], Obj.defaultOwn, Obj.defaultNext 2⟩ : Obj σ ℝ E)], o.Default := by
    intro o ho
    rw [List.mem_singleton] at ho
    subst ho
    exact ⟨rfl, rfl⟩
  have hex := C14_exact (per := Surf.single) (out := Surf.alone w) hdef (fun o ho s hs => ((hspec o ho s hs).spec w).1)
    (fun o ho s hs => ((hspec o ho s hs).spec w).2.1) (fun o ho s hs => ((hspec o ho s hs).spec w).2.2.1) (hspec.specular_blind w) hres hk
  refine hex.trans ?_
  have hflat : ([(⟨[upperFace width height n1 n2 T, lowerFace width height n1 n2 h T], Obj.defaultOwn, Obj.defaultNext 2⟩ : Obj σ ℝ E)]).flatMap
      Obj.surfs = [upperFace width height n1 n2 T, lowerFace width height n1 n2 h T] := rfl
  rw [hflat, pane_generation (t := t) (e := e) hT hh h1 h2 hne
    (fun r hr => { hb r hr with over := fun j hj => (hb r hr).over j (by omega) }) (fun r hr j hj hjk => hE r hr j hj (by omega)),
    List.map_flatMap]
  refine List.Perm.flatMap_left _ fun r _ => ?_
  unfold paneGen
  split
  · exact List.Perm.swap _ _ _
  · exact List.Perm.refl _

/-! ### The energy -/

theorem fresnelMean_nonneg (n1 n2 c c' : ℝ) : 0 ≤ fresnelMean n1 n2 c c' := by unfold fresnelMean; positivity

/-- The faces reflect some light, but not all of it. -/
theorem fresnelMean_between {c c' : ℝ} (h1 : 0 < n1) (h2 : 0 < n2) (hne : n1 ≠ n2) (hc : 0 < c) (hc' : 0 < c') :
    0 < fresnelMean n1 n2 c c' ∧ fresnelMean n1 n2 c c' < 1 := by
  have hlt : ∀ p q : ℝ, 0 < p → 0 < q → ((p - q) / (p + q)) ^ 2 < 1 := by
    intro p q hp hq
    rw [div_pow, div_lt_one (by positivity)]
    nlinarith [mul_pos hp hq]
  have a1 := hlt (n1 * c) (n2 * c') (by positivity) (by positivity)
  have a2 := hlt (n1 * c') (n2 * c) (by positivity) (by positivity)
  unfold fresnelMean
  refine ⟨?_, by linarith⟩
  by_contra hcon
  have b1 := sq_nonneg ((n1 * c - n2 * c') / (n1 * c + n2 * c'))
  have b2 := sq_nonneg ((n1 * c' - n2 * c) / (n1 * c' + n2 * c))
  have z1 : ((n1 * c - n2 * c') / (n1 * c + n2 * c')) ^ 2 = 0 := by linarith
  have z2 : ((n1 * c' - n2 * c) / (n1 * c' + n2 * c)) ^ 2 = 0 := by linarith
  have y1 : n1 * c - n2 * c' = 0 := by
    rcases div_eq_zero_iff.1 (pow_eq_zero_iff (by norm_num) |>.1 z1) with h | h
    · exact h
    · exact absurd h (by positivity)
  have y2 : n1 * c' - n2 * c = 0 := by
    rcases div_eq_zero_iff.1 (pow_eq_zero_iff (by norm_num) |>.1 z2) with h | h
    · exact h
    · exact absurd h (by positivity)
  have hs : (n1 - n2) * (c + c') = 0 := by linarith
  rcases mul_eq_zero.1 hs with h | h
  · exact hne (by linarith)
  · linarith

theorem paneR_between (hr : ∀ r ∈ b, EntersPane T width height h n1 n2 r (t r) (e r) reps) (h1 : 0 < n1) (h2 : 0 < n2) (hne : n1 ≠ n2)
    {r : Ray ℝ E} (hrb : r ∈ b) : 0 < paneR n1 n2 T.rot.c3 (e r) r ∧ paneR n1 n2 T.rot.c3 (e r) r < 1 := by
  have hd := (hr r hrb).down
  have hi := (hr r hrb).inside
  have tol : (0 : ℝ) < 1 / 10 ^ 10 := by norm_num
  exact fresnelMean_between h1 h2 hne (abs_pos.2 (by linarith : V3.dot r.dir T.rot.c3 < 0).ne)
    (abs_pos.2 (by linarith : V3.dot (e r) T.rot.c3 < 0).ne)

theorem leavingEnergy_strip (n1 : ℝ) (v : V3 ℝ) (lvl : Bundle ℝ E) : leavingEnergy n1 v (lvl.map Ray.strip) = leavingEnergy n1 v lvl := by
  unfold leavingEnergy
  rw [List.filter_map, List.map_map]
  rfl

theorem leavingEnergy_perm (n1 : ℝ) (v : V3 ℝ) {l l' : Bundle ℝ E} (hp : l.Perm l') : leavingEnergy n1 v l = leavingEnergy n1 v l' := by
  unfold leavingEnergy
  exact ((hp.filter _).map _).sum_eq

theorem leavingEnergy_flatMap (n1 : ℝ) (v : V3 ℝ) (l : Bundle ℝ E) (f : Ray ℝ E → Bundle ℝ E) :
    leavingEnergy n1 v (l.flatMap f) = (l.map fun r => leavingEnergy n1 v (f r)).sum := by
  induction l with
  | nil => rfl
  | cons r l ih =>
    rw [List.flatMap_cons, List.map_cons, List.sum_cons, ← ih]
    unfold leavingEnergy
    rw [List.filter_append, List.map_append, List.sum_append]

theorem leavingEnergy_pane (hne : n1 ≠ n2) (v : V3 ℝ) (x y : Ray ℝ E) (hx : x.ref = some n2) (hy : y.ref = some n1) :
    leavingEnergy n1 v [x, y] = if 0 < V3.dot y.dir v then y.energy else 0 := by
  unfold leavingEnergy
  have hx' : x.ref ≠ some n1 := by rw [hx]; intro hc; exact hne (Option.some_inj.1 hc).symm
  by_cases hv : 0 < V3.dot y.dir v <;> simp [List.filter_cons, hx', hy, hv]

theorem sum_sum_list {α : Type _} (l : List α) (n : ℕ) (f : ℕ → α → ℝ) :
    ((List.range n).map fun k => (l.map (f k)).sum).sum = (l.map fun a => ((List.range n).map fun k => f k a).sum).sum := by
  induction l with
  | nil => simp
  | cons a l ih => simp [List.sum_map_add, ih]

theorem list_range_succ_sum (n : ℕ) (f : ℕ → ℝ) : ((List.range (n + 1)).map f).sum = ((List.range n).map f).sum + f n := by
  rw [List.range_succ, List.map_append, List.sum_append]; simp

/-- C87: how much light a pane lets through and how much it sends back.  Traced without an energy threshold for `2 (N + 1)` iterations, the
rays that leave through the lower face carry `(1 - R) (1 - R ^ (2 (N + 1))) / (1 + R)` of the light of each source ray, and those that leave
through the upper face `R + R (1 - R) (1 - R ^ (2 N)) / (1 + R)`. -/
theorem C87_transmitted {N : ℕ} (hg : rectPlateGM width height = .ok g) (hT : T.Rigid) (hh : 0 < h) (h1 : 0 < n1) (h2 : 0 < n2) (hne : n1 ≠ n2)
    (hb : ∀ r ∈ b, EntersPane T width height h n1 n2 r (t r) (e r) (2 * (N + 1))) (hpos : ∀ r ∈ b, 0 < r.energy) (w : σ) (junk : M3 ℝ) :
    ∃ res, rayTracer (windowAsm g n1 n2 h T junk : SceneAsm σ ℝ E).scene w b (2 * (N + 1)) 0 true = .ok res ∧
      ((List.range (2 * (N + 1))).map fun k => leavingEnergy n1 (-T.rot.c3) ((res.tree[k + 1]?).getD [])).sum =
        (b.map fun r => r.energy * (1 - paneR n1 n2 T.rot.c3 (e r) r) * (1 - paneR n1 n2 T.rot.c3 (e r) r ^ (2 * (N + 1))) /
          (1 + paneR n1 n2 T.rot.c3 (e r) r)).sum ∧
      ((List.range (2 * (N + 1))).map fun k => leavingEnergy n1 T.rot.c3 ((res.tree[k + 1]?).getD [])).sum =
        (b.map fun r => r.energy * (paneR n1 n2 T.rot.c3 (e r) r + paneR n1 n2 T.rot.c3 (e r) r * (1 - paneR n1 n2 T.rot.c3 (e r) r) *
          (1 - paneR n1 n2 T.rot.c3 (e r) r ^ (2 * N)) / (1 + paneR n1 n2 T.rot.c3 (e r) r))).sum := by
  have hm : T.rot.c3.IsUnit := ((M3.isRotation_iff T.rot).1 hT).1.2.2.1
  obtain ⟨res, hres, hgen⟩ := C87_window (minE := 0) hg hT hh h1 h2 hne hb (by
    intro r hr j _ _
    obtain ⟨p1, p2⟩ := paneR_between hb h1 h2 hne hr
    have := hpos r hr
    exact mul_pos (mul_pos this (by linarith)) (pow_pos p1 _)) w junk
  refine ⟨res, hres, ?_⟩
  have key : ∀ v : V3 ℝ, ((List.range (2 * (N + 1))).map fun k => leavingEnergy n1 v ((res.tree[k + 1]?).getD [])).sum =
      (b.map fun r => ((List.range (2 * (N + 1))).map fun k =>
        if 0 < V3.dot (paneOutside h (paneR n1 n2 T.rot.c3 (e r) r) T.rot.c3 (r.at (t r)) (e r) r (k + 1)).dir v then
          (paneOutside h (paneR n1 n2 T.rot.c3 (e r) r) T.rot.c3 (r.at (t r)) (e r) r (k + 1)).energy else 0).sum).sum := by
    intro v
    rw [← sum_sum_list]
    congr 1
    refine List.map_congr_left fun k hk => ?_
    rw [← leavingEnergy_strip, leavingEnergy_perm n1 v (hgen (k + 1) (by omega) (by have := List.mem_range.1 hk; omega)), leavingEnergy_flatMap]
    congr 1
    refine List.map_congr_left fun r hr => ?_
    exact leavingEnergy_pane hne v _ _ rfl (hb r hr).medium
  have dirs : ∀ r ∈ b, ∀ k, (0 < V3.dot (paneOutside h (paneR n1 n2 T.rot.c3 (e r) r) T.rot.c3 (r.at (t r)) (e r) r k).dir T.rot.c3 ↔ Odd k) ∧
      (0 < V3.dot (paneOutside h (paneR n1 n2 T.rot.c3 (e r) r) T.rot.c3 (r.at (t r)) (e r) r k).dir (-T.rot.c3) ↔ ¬ Odd k) := by
    intro r hr k
    have hd := (hb r hr).down
    have tol : (0 : ℝ) < 1 / 10 ^ 10 := by norm_num
    have hneg : V3.dot r.dir T.rot.c3 < 0 := by linarith
    have hn : ∀ v : V3 ℝ, V3.dot v (-T.rot.c3) = -V3.dot v T.rot.c3 := by
      intro v; unfold V3.dot; simp only [V3.neg_x, V3.neg_y, V3.neg_z]; ring
    by_cases hk : Odd k
    · have hdir : (paneOutside h (paneR n1 n2 T.rot.c3 (e r) r) T.rot.c3 (r.at (t r)) (e r) r k).dir = flipAlong T.rot.c3 r.dir := if_pos hk
      rw [hdir, hn, dot_flipAlong hm]
      exact ⟨⟨fun _ => hk, fun _ => by linarith⟩, ⟨fun hc => by linarith, fun hc => absurd hk hc⟩⟩
    · have hdir : (paneOutside h (paneR n1 n2 T.rot.c3 (e r) r) T.rot.c3 (r.at (t r)) (e r) r k).dir = r.dir := if_neg hk
      rw [hdir, hn]
      exact ⟨⟨fun hc => by linarith, fun hc => absurd hc hk⟩, ⟨fun _ => hk, fun _ => by linarith⟩⟩
  constructor
  · rw [key]
    congr 1
    refine List.map_congr_left fun r hr => ?_
    simp only [(dirs r hr _).2]
    obtain ⟨p1, p2⟩ := paneR_between hb h1 h2 hne hr
    unfold paneOutside
    generalize paneR n1 n2 T.rot.c3 (e r) r = R at *
    clear hb hgen hres key dirs
    induction N with
    | zero =>
      rw [show 2 * (0 + 1) = 0 + 1 + 1 from rfl, list_range_succ_sum, list_range_succ_sum]
      simp
      field_simp
      ring
    | succ N ih =>
      rw [show 2 * (N + 1 + 1) = 2 * (N + 1) + 1 + 1 by ring, list_range_succ_sum, list_range_succ_sum, ih]
      have o1 : Odd (2 * (N + 1) + 1) := ⟨N + 1, rfl⟩
      have o2 : ¬ Odd (2 * (N + 1) + 1 + 1) := by rw [Nat.not_odd_iff_even]; exact o1.add_one
      simp only [o1, o2, not_true, if_false, not_false_iff, if_true]
      rw [if_neg (by omega), show 2 * (N + 1) + 1 + 1 - 2 = 2 * (N + 1) by omega]
      field_simp
      ring
  · rw [key]
    congr 1
    refine List.map_congr_left fun r hr => ?_
    simp only [(dirs r hr _).1]
    obtain ⟨p1, p2⟩ := paneR_between hb h1 h2 hne hr
    unfold paneOutside
    generalize paneR n1 n2 T.rot.c3 (e r) r = R at *
    clear hb hgen hres key dirs
    induction N with
    | zero =>
      rw [show 2 * (0 + 1) = 0 + 1 + 1 from rfl, list_range_succ_sum, list_range_succ_sum]
      simp [show ¬ Odd 2 by decide]
    | succ N ih =>
      rw [show 2 * (N + 1 + 1) = 2 * (N + 1) + 1 + 1 by ring, list_range_succ_sum, list_range_succ_sum, ih]
      have o1 : Odd (2 * (N + 1) + 1) := ⟨N + 1, rfl⟩
      have o2 : ¬ Odd (2 * (N + 1) + 1 + 1) := by rw [Nat.not_odd_iff_even]; exact o1.add_one
      simp only [o1, o2, if_false, if_true]
      rw [if_neg (by omega), show 2 * (N + 1) + 1 - 2 = 2 * N + 1 by omega]
      field_simp
      ring

theorem pane_limits {R : ℝ} (h0 : 0 ≤ R) (h1 : R < 1) (En : ℝ) :
    Filter.Tendsto (fun N : ℕ => En * (1 - R) * (1 - R ^ (2 * (N + 1))) / (1 + R)) Filter.atTop (nhds (En * ((1 - R) / (1 + R)))) ∧
    Filter.Tendsto (fun N : ℕ => En * (R + R * (1 - R) * (1 - R ^ (2 * N)) / (1 + R))) Filter.atTop (nhds (En * (2 * R / (1 + R)))) := by
  have hsq : Filter.Tendsto (fun N : ℕ => R ^ (2 * N)) Filter.atTop (nhds 0) := by
    have : (fun N : ℕ => R ^ (2 * N)) = fun N : ℕ => (R ^ 2) ^ N := by funext N; rw [pow_mul]
    rw [this]
    exact tendsto_pow_atTop_nhds_zero_of_lt_one (by positivity) (by nlinarith)
  have hsq' : Filter.Tendsto (fun N : ℕ => R ^ (2 * (N + 1))) Filter.atTop (nhds 0) := hsq.comp (Filter.tendsto_add_atTop_nat 1)
  have hp : (1 + R) ≠ 0 := by positivity
  constructor
  · have := ((hsq'.const_sub 1).const_mul (En * (1 - R))).div_const (1 + R)
    convert this using 2
    field_simp
    ring
  · have := ((((hsq.const_sub 1).const_mul (R * (1 - R))).div_const (1 + R)).const_add R).const_mul En
    convert this using 2
    field_simp
    ring

theorem tendsto_list_sum {α : Type _} (l : List α) (f : ℕ → α → ℝ) (F : α → ℝ)
    (hf : ∀ a ∈ l, Filter.Tendsto (fun N => f N a) Filter.atTop (nhds (F a))) :
    Filter.Tendsto (fun N => (l.map (f N)).sum) Filter.atTop (nhds (l.map F).sum) := by
  induction l with
  | nil => exact tendsto_const_nhds
  | cons a l ih =>
    simp only [List.map_cons, List.sum_cons]
    exact (hf a List.mem_cons_self).add (ih fun x hx => hf x (List.mem_cons_of_mem _ hx))

/-- C87: for rays that cross the faces on the plates however often they are reflected, longer and longer traces report, in the limit, that
the pane lets `(1 - R) / (1 + R)` of the light of each source ray through and sends `2 R / (1 + R)` back. -/
theorem C87_limit (hg : rectPlateGM width height = .ok g) (hT : T.Rigid) (hh : 0 < h) (h1 : 0 < n1) (h2 : 0 < n2) (hne : n1 ≠ n2)
    (hb : ∀ N, ∀ r ∈ b, EntersPane T width height h n1 n2 r (t r) (e r) N) (hpos : ∀ r ∈ b, 0 < r.energy) (w : σ) (junk : M3 ℝ)
    {res : ℕ → TraceResult σ ℝ E}
    (hres : ∀ N, rayTracer (windowAsm g n1 n2 h T junk : SceneAsm σ ℝ E).scene w b (2 * (N + 1)) 0 true = .ok (res N)) :
    Filter.Tendsto (fun N => ((List.range (2 * (N + 1))).map fun k => leavingEnergy n1 (-T.rot.c3) (((res N).tree[k + 1]?).getD [])).sum)
      Filter.atTop (nhds (b.map fun r => r.energy * ((1 - paneR n1 n2 T.rot.c3 (e r) r) / (1 + paneR n1 n2 T.rot.c3 (e r) r))).sum) ∧
    Filter.Tendsto (fun N => ((List.range (2 * (N + 1))).map fun k => leavingEnergy n1 T.rot.c3 (((res N).tree[k + 1]?).getD [])).sum)
      Filter.atTop (nhds (b.map fun r => r.energy * (2 * paneR n1 n2 T.rot.c3 (e r) r / (1 + paneR n1 n2 T.rot.c3 (e r) r))).sum) := by
  choose res' hres' hd hu using fun N => C87_transmitted (N := N) hg hT hh h1 h2 hne (hb (2 * (N + 1))) hpos w junk
  obtain rfl : res = res' := funext fun N => Except.ok.inj ((hres N).symm.trans (hres' N))
  constructor
  · simp only [hd]
    refine tendsto_list_sum b _ _ fun r hr => ?_
    obtain ⟨p1, p2⟩ := paneR_between (hb 0) h1 h2 hne hr
    exact (pane_limits p1.le p2 r.energy).1
  · simp only [hu]
    refine tendsto_list_sum b _ _ fun r hr => ?_
    obtain ⟨p1, p2⟩ := paneR_between (hb 0) h1 h2 hne hr
    exact (pane_limits p1.le p2 r.energy).2

/-! ### Examples -/

/-- Light falls head-on on a pane one unit thick, of glass with the refractive index 3/2. -/
def Examples.headOn : Ray ℝ Unit := ⟨⟨0, 0, 2⟩, ⟨0, 0, -1⟩, 10, 0, some 1, ()⟩

/-- Light that falls, at the angle of Brewster, on a sheet of water one unit thick. -/
noncomputable def Examples.brewster : Ray ℝ Unit := ⟨⟨-4, 0, 3⟩, ⟨4 / 5, 0, -3 / 5⟩, 10, 0, some 1, ()⟩

/-- It may be reflected head-on as often as one likes. -/
theorem Examples.headOn_enters (N : ℕ) : EntersPane 1 2 2 1 1 (3 / 2) Examples.headOn 2 ⟨0, 0, -1⟩ N where
  unit := by norm_num [Examples.headOn, V3.IsUnit, V3.dot]
  medium := rfl
  down := by norm_num [Examples.headOn, V3.dot]
  start := by norm_num
  reach := by norm_num [Examples.headOn, V3.dot, Ray.at]
  snell := ⟨by norm_num [V3.IsUnit, V3.dot], by apply V3.ext <;> norm_num [Examples.headOn, V3.cross], by norm_num [Examples.headOn, V3.dot]⟩
  inside := by norm_num [V3.dot]
  thick := by norm_num [V3.dot]
  over := by
    intro j _
    constructor <;> norm_num [Examples.headOn, panePoint, V3.dot, Ray.at]

theorem Examples.headOn_R : paneR 1 (3 / 2) (1 : Tf ℝ).rot.c3 ⟨0, 0, -1⟩ Examples.headOn = 1 / 25 := by
  norm_num [paneR, fresnelMean, Examples.headOn, V3.dot]

/-- C87 applies: of ten units of light, 120/13 pass the pane in the limit of many iterations. -/
example (res : ℕ → TraceResult Unit ℝ Unit)
    (hres : ∀ N, rayTracer (windowAsm (finiteFlatGM (rectOutside 2 2)) 1 (3 / 2) 1 1 1 : SceneAsm Unit ℝ Unit).scene () [Examples.headOn]
      (2 * (N + 1)) 0 true = .ok (res N)) :
    Filter.Tendsto (fun N => ((List.range (2 * (N + 1))).map fun k => leavingEnergy 1 (-(1 : Tf ℝ).rot.c3) (((res N).tree[k + 1]?).getD [])).sum)
      Filter.atTop (nhds (120 / 13)) := by
  have hg : rectPlateGM (2 : ℝ) 2 = .ok (finiteFlatGM (rectOutside 2 2) : Geometry ℝ Unit) := by
    unfold rectPlateGM; norm_num
  have := (C87_limit (b := [Examples.headOn]) (t := fun _ => 2) (e := fun _ => ⟨0, 0, -1⟩) hg Tf.Rigid.one one_pos one_pos (by norm_num) (by norm_num)
    (fun N r hr => by rw [List.mem_singleton] at hr; subst hr; exact Examples.headOn_enters N)
    (fun r hr => by rw [List.mem_singleton] at hr; subst hr; norm_num [Examples.headOn]) () 1 hres).1
  simp only [List.map_cons, List.map_nil, List.sum_cons, List.sum_nil, Examples.headOn_R] at this
  norm_num [Examples.headOn] at this ⊢
  exact this

theorem Examples.brewster_enters : EntersPane 1 10 10 1 1 (4 / 3) Examples.brewster 5 ⟨3 / 5, 0, -4 / 5⟩ 4 where
  unit := by norm_num [Examples.brewster, V3.IsUnit, V3.dot]
  medium := rfl
  down := by norm_num [Examples.brewster, V3.dot]
  start := by norm_num
  reach := by norm_num [Examples.brewster, V3.dot, Ray.at]
  snell := ⟨by norm_num [V3.IsUnit, V3.dot], by apply V3.ext <;> norm_num [Examples.brewster, V3.cross], by norm_num [Examples.brewster, V3.dot]⟩
  inside := by norm_num [V3.dot]
  thick := by norm_num [V3.dot, abs_of_pos]
  over := by
    intro j hj
    obtain rfl | rfl | rfl | rfl : j = 0 ∨ j = 1 ∨ j = 2 ∨ j = 3 := by omega
    all_goals constructor <;> norm_num [Examples.brewster, panePoint, V3.dot, Ray.at, abs_le]

/-- C87 applies: four generations of rays, from one that meets the sheet at an angle. -/
example : ∃ res, rayTracer (windowAsm (finiteFlatGM (rectOutside 10 10)) 1 (4 / 3) 1 1 1 : SceneAsm Unit ℝ Unit).scene () [Examples.brewster]
      4 (1 / 1000) true = .ok res ∧
    (((res.tree[2]?).getD []).map Ray.strip).Perm ([⟨⟨3 / 4, 0, -1⟩, ⟨3 / 5, 0, 4 / 5⟩, 10 * (1201 / 1250) * (49 / 1250), 0, some (4 / 3), ()⟩,
       ⟨⟨3 / 4, 0, -1⟩, ⟨4 / 5, 0, -3 / 5⟩, 10 * (1201 / 1250) ^ 2, 0, some 1, ()⟩] : Bundle ℝ Unit) := by
  have hg : rectPlateGM (10 : ℝ) 10 = .ok (finiteFlatGM (rectOutside 10 10) : Geometry ℝ Unit) := by
    unfold rectPlateGM; norm_num
  have hR : paneR 1 (4 / 3) (1 : Tf ℝ).rot.c3 ⟨3 / 5, 0, -4 / 5⟩ Examples.brewster = 49 / 1250 := by
    norm_num [paneR, fresnelMean, Examples.brewster, V3.dot, abs_of_pos, abs_of_neg]
  obtain ⟨res, h1, h2⟩ := C87_window (n1 := 1) (n2 := 4 / 3) (h := 1) (σ := Unit) (reps := 4) (minE := 1 / 1000) (b := [Examples.brewster]) (t := fun _ => 5) (e := fun _ => ⟨3 / 5, 0, -4 / 5⟩) hg Tf.Rigid.one
    one_pos one_pos (by norm_num) (by norm_num) (fun r hr => by rw [List.mem_singleton] at hr; subst hr; exact Examples.brewster_enters)
    (fun r hr j hj hj' => by
      rw [List.mem_singleton] at hr
      subst hr
      rw [hR]
      obtain rfl | rfl | rfl : j = 1 ∨ j = 2 ∨ j = 3 := by omega
      all_goals norm_num [Examples.brewster]) () 1
  refine ⟨res, h1, (h2 2 (by norm_num) (by norm_num)).trans (List.Perm.of_eq ?_)⟩
  have hodd : ¬ Odd 2 := by decide
  simp only [List.flatMap_cons, List.flatMap_nil, List.append_nil, hR, paneInside, paneOutside, if_neg hodd]
  norm_num [Examples.brewster, panePoint, flipAlong, V3.dot, Ray.at, V3.ext_iff, abs_of_pos, abs_of_neg]

end Tracer
