import Verif.Lemmas.Measurable
import Mathlib.Algebra.BigOperators.Group.Finset.Basic
import Mathlib.Algebra.BigOperators.Ring.List
import Mathlib.Algebra.Order.BigOperators.Group.List

/-! The light that a scene of mirrors sends to a receiver is the sum of what its rays send there one by one. -/

namespace Tracer

open MeasureTheory

variable {E σ δ : Type _}

/-! ### Generations of settled rays -/

section flow
variable (φ : V3 ℝ → ℝ) (per : Surf σ ℝ E → Ray ℝ E → WithTop ℝ) (out : Surf σ ℝ E → Ray ℝ E → Bundle ℝ E) (pol : Nat → Policy ℝ E)
  (xs : List (Site σ ℝ E)) (minE : ℝ) (x : Site σ ℝ E)

/-- One iteration, for rays whose fate does not depend on their companions. -/
noncomputable def goOn (gs : List (Going ℝ E)) : List (Going ℝ E) :=
  (gs.flatMap (Going.children dropTol per out pol xs)).filter fun g => decide (minE < g.ray.energy)

/-- Where a ray meets the surface, if it does. -/
noncomputable def spot (r : Ray ℝ E) : V3 ℝ := r.at ((per x.surf r).untopD 0)

open Classical in
/-- The energy that a ray brings to the surface, weighted according to the place. -/
noncomputable def brings (g : Going ℝ E) : ℝ := if g.Meets dropTol per pol xs x then g.ray.energy * φ (spot per x g.ray) else 0

/-- The energy that rays and their descendants bring to the surface in `n` iterations, weighted according to the place. -/
noncomputable def flow (n : Nat) (gs : List (Going ℝ E)) : ℝ :=
  ∑ k ∈ Finset.range n, (((goOn per out pol xs minE)^[k] gs).map (brings φ per pol xs x)).sum

variable {φ per out pol xs minE x}

theorem goOn_append (l l' : List (Going ℝ E)) :
    goOn per out pol xs minE (l ++ l') = goOn per out pol xs minE l ++ goOn per out pol xs minE l' := by
  unfold goOn
  rw [List.flatMap_append, List.filter_append]

theorem goOn_iterate_append (k : Nat) (l l' : List (Going ℝ E)) : (goOn per out pol xs minE)^[k] (l ++ l') =
    (goOn per out pol xs minE)^[k] l ++ (goOn per out pol xs minE)^[k] l' := by
  induction k generalizing l l' with
  | zero => rfl
  | succ k ih => rw [Function.iterate_succ_apply, Function.iterate_succ_apply, Function.iterate_succ_apply, goOn_append, ih]

theorem goOn_iterate_nil (k : Nat) : (goOn per out pol xs minE)^[k] [] = [] := by
  induction k with
  | zero => rfl
  | succ k ih => rw [Function.iterate_succ_apply]; exact ih

theorem flow_append (n : Nat) (l l' : List (Going ℝ E)) :
    flow φ per out pol xs minE x n (l ++ l') = flow φ per out pol xs minE x n l + flow φ per out pol xs minE x n l' := by
  unfold flow
  rw [← Finset.sum_add_distrib]
  exact Finset.sum_congr rfl fun k _ => by rw [goOn_iterate_append, List.map_append, List.sum_append]

theorem flow_nil (n : Nat) : flow φ per out pol xs minE x n [] = 0 := by
  unfold flow
  refine Finset.sum_eq_zero fun k _ => ?_
  rw [goOn_iterate_nil]
  rfl

theorem flow_each (n : Nat) (l : List (Going ℝ E)) :
    flow φ per out pol xs minE x n l = (l.map fun g => flow φ per out pol xs minE x n [g]).sum := by
  induction l with
  | nil => rw [flow_nil]; rfl
  | cons g l ih =>
    have : g :: l = [g] ++ l := rfl
    rw [this, flow_append, ih]
    simp

theorem flow_succ (n : Nat) (l : List (Going ℝ E)) : flow φ per out pol xs minE x (n + 1) l =
    (l.map (brings φ per pol xs x)).sum + flow φ per out pol xs minE x n (goOn per out pol xs minE l) := by
  unfold flow
  rw [Finset.sum_range_succ', add_comm]
  rfl

theorem goingGeneration_succ (b : Bundle ℝ E) (k : Nat) : goingGeneration per out pol xs minE b (k + 1) =
    nextGoing per out pol xs (setOut minE k (goingGeneration per out pol xs minE b k)) := rfl

theorem setOut_settled {b : Bundle ℝ E} {reps : Nat} (hset : ∀ r ∈ b, GoingsSettled per out pol xs minE [r] reps) {k : Nat} (hk : k < reps) :
    setOut minE k (goingGeneration per out pol xs minE b k) = (goOn per out pol xs minE)^[k] (b.map fun r => ⟨r, none⟩) ∧
    ∀ g ∈ setOut minE k (goingGeneration per out pol xs minE b k), g.Settled per pol xs := by
  -- for single rays first
  have one : ∀ r ∈ b, ∀ k < reps, setOut minE k (goingGeneration per out pol xs minE [r] k) =
      (goOn per out pol xs minE)^[k] [⟨r, none⟩] := by
    intro r hr k
    induction k with
    | zero => intro _; rfl
    | succ k ih =>
      intro hk
      rw [Function.iterate_succ_apply', ← ih (by omega)]
      rw [goingGeneration_succ, nextGoing_settled (hset r hr k (by omega))]
      exact if_neg (Nat.succ_ne_zero k)
  have split : ∀ k (l : Bundle ℝ E), (goOn per out pol xs minE)^[k] (l.map fun r => ⟨r, none⟩) =
      l.flatMap fun r => (goOn per out pol xs minE)^[k] [⟨r, none⟩] := by
    intro k l
    induction l with
    | nil => exact goOn_iterate_nil k
    | cons r l ih =>
      have : List.map (fun r : Ray ℝ E => (⟨r, none⟩ : Going ℝ E)) (r :: l) = [⟨r, none⟩] ++ l.map fun r => ⟨r, none⟩ := rfl
      rw [this, goOn_iterate_append, ih]
      rfl
  have settled : ∀ k < reps, ∀ g ∈ (goOn per out pol xs minE)^[k] (b.map fun r => ⟨r, none⟩), g.Settled per pol xs := by
    intro k hk g hg
    rw [split] at hg
    obtain ⟨r, hr, hg⟩ := List.mem_flatMap.1 hg
    rw [← one r hr k hk] at hg
    exact hset r hr k hk g hg
  have main : ∀ k < reps, setOut minE k (goingGeneration per out pol xs minE b k) =
      (goOn per out pol xs minE)^[k] (b.map fun r => ⟨r, none⟩) := by
    intro k
    induction k with
    | zero => intro _; rfl
    | succ k ih =>
      intro hk
      have e := ih (by omega)
      rw [Function.iterate_succ_apply', ← e]
      rw [goingGeneration_succ, nextGoing_settled (by rw [e]; exact settled k (by omega))]
      exact if_neg (Nat.succ_ne_zero k)
  exact ⟨main k hk, by rw [main k hk]; exact settled k hk⟩

/-- Settled rays meet the same surfaces whatever their companions. -/
theorem meets_settled {gs : List (Going ℝ E)} (hset : ∀ g ∈ gs, g.Settled per pol xs) {g : Going ℝ E} (hg : g ∈ gs) (hx : x ∈ xs) :
    g.Meets (goingCut per pol xs gs) per pol xs x ↔ g.Meets dropTol per pol xs x := by
  classical
  have hd : (selfTol : ℝ) < dropTol := selfTol_lt_dropTol
  have hc : goingCut per pol xs gs = (dropTol : ℝ) ∨ goingCut per pol xs gs = (selfTol : ℝ) := by
    unfold goingCut
    split
    · exact Or.inl rfl
    · exact Or.inr rfl
  have hcut : ∀ x ∈ xs, ∀ t : ℝ, per x.surf g.ray = (t : WithTop ℝ) → (goingCut per pol xs gs < t ↔ dropTol < t) := by
    intro x hx t ht
    rcases hset g hg with ⟨y, hy, h0⟩ | hfree
    · have : goingCut per pol xs gs = dropTol := by
        unfold goingCut
        exact if_pos ⟨y, hy, g, hg, h0⟩
      rw [this]
    · rcases hc with e | e
      · rw [e]
      · rw [e]
        constructor
        · intro hlt
          rcases hfree x hx t ht with h' | h'
          · exact absurd hlt (not_lt.2 h')
          · exact h'
        · exact fun hlt => hd.trans hlt
  unfold Going.Meets
  constructor
  · rintro ⟨h0, t, h1, h2, h3⟩
    exact ⟨h0, t, h1, (hcut x hx t h1).1 h2, fun y hy hm t' ht' hlt => h3 y hy hm t' ht' ((hcut y hy t' ht').2 hlt)⟩
  · rintro ⟨h0, t, h1, h2, h3⟩
    exact ⟨h0, t, h1, (hcut x hx t h1).2 h2, fun y hy hm t' ht' hlt => h3 y hy hm t' ht' ((hcut y hy t' ht').1 hlt)⟩

/-- What a trace brings to a surface. -/
theorem traceHits_flow {b : Bundle ℝ E} {reps : Nat} (hset : ∀ r ∈ b, GoingsSettled per out pol xs minE [r] reps) (hx : x ∈ xs) (a : ℝ) :
    ((traceHits per out pol xs minE b reps x).map fun y => y.1.energy * a * φ (y.1.at y.2)).sum =
      a * flow φ per out pol xs minE x reps (b.map fun r => ⟨r, none⟩) := by
  classical
  have key : ∀ (F : Going ℝ E → List (Ray ℝ E × ℝ)) (gs l : List (Going ℝ E)), (∀ g ∈ l, g ∈ gs) → (∀ g ∈ gs, g.Settled per pol xs) →
      (∀ g : Going ℝ E, g.Meets (goingCut per pol xs gs) per pol xs x → ∃ t : ℝ, per x.surf g.ray = (t : WithTop ℝ) ∧ F g = [(g.ray, t)]) →
      (∀ g : Going ℝ E, ¬ g.Meets (goingCut per pol xs gs) per pol xs x → F g = []) →
      ((l.flatMap F).map fun y => y.1.energy * a * φ (y.1.at y.2)).sum = a * (l.map (brings φ per pol xs x)).sum := by
    intro F gs l hl hset h1 h2
    induction l with
    | nil => simp
    | cons g l ih =>
      rw [List.flatMap_cons, List.map_append, List.sum_append, ih fun g hg => hl g (List.mem_cons_of_mem _ hg),
        List.map_cons, List.sum_cons, mul_add]
      congr 1
      have hiff := meets_settled (x := x) hset (hl g (List.mem_cons_self ..)) hx
      unfold brings
      by_cases h : g.Meets (goingCut per pol xs gs) per pol xs x
      · obtain ⟨t, hper, ht⟩ := h1 g h
        rw [if_pos (hiff.1 h), ht]
        unfold spot
        rw [hper, WithTop.untopD_coe, List.map_singleton, List.sum_singleton]
        ring
      · rw [h2 g h, if_neg fun h' => h (hiff.2 h')]
        simp
  unfold traceHits flow
  rw [Finset.mul_sum]
  have aux : ∀ n ≤ reps, (((List.range n).flatMap fun k => goingHits per pol xs (setOut minE k (goingGeneration per out pol xs minE b k)) x).map
      fun y => y.1.energy * a * φ (y.1.at y.2)).sum = ∑ k ∈ Finset.range n, a * (((goOn per out pol xs minE)^[k] (b.map fun r => ⟨r, none⟩)).map (brings φ per pol xs x)).sum := by
    intro n
    induction n with
    | zero => intro _; simp
    | succ n ih =>
      intro hn
      obtain ⟨e, hs⟩ := setOut_settled hset (k := n) (by omega)
      rw [List.range_succ, List.flatMap_append, List.map_append, List.sum_append, ih (by omega), Finset.sum_range_succ]
      congr 1
      rw [List.flatMap_cons, List.flatMap_nil, List.append_nil, ← e]
      unfold goingHits
      refine key _ _ _ (fun g hg => hg) hs (fun g h => ?_) fun g h => if_neg h
      obtain ⟨_, t, ht, _⟩ := id h
      exact ⟨t, ht, by rw [if_pos h, ht]⟩
  exact aux reps le_rfl

/-! ### Scaling -/

section scaling
variable {c : ℝ} (hper : ∀ y ∈ xs, ∀ r, per y.surf (r.scale c) = per y.surf r)
  (hmay : ∀ (r : Ray ℝ E) l (y : Site σ ℝ E), Going.MayMeet pol ⟨r.scale c, l⟩ y ↔ Going.MayMeet pol ⟨r, l⟩ y)
include hper hmay

theorem meets_scale (cut : ℝ) (g : Going ℝ E) {y} (hy : y ∈ xs) :
    Going.Meets cut per pol xs ⟨g.ray.scale c, g.left⟩ y ↔ g.Meets cut per pol xs y := by
  unfold Going.Meets
  simp only [hmay, hper y hy]
  refine and_congr Iff.rfl (exists_congr fun t => and_congr Iff.rfl (and_congr Iff.rfl ?_))
  exact forall_congr' fun z => forall_congr' fun hz => by rw [hper z hz]

theorem settled_scale (g : Going ℝ E) (h : g.Settled per pol xs) : Going.Settled per pol xs ⟨g.ray.scale c, g.left⟩ := by
  rcases h with ⟨x, hx, h⟩ | h
  · exact Or.inl ⟨x, hx, h.imp (fun h h' => h ((hmay _ _ _).1 h')) fun h => by rw [hper x hx]; exact h⟩
  · exact Or.inr fun x hx t ht => h x hx t (by rw [← hper x hx]; exact ht)

theorem goingCut_scale (gs : List (Going ℝ E)) :
    goingCut per pol xs (gs.map fun g => ⟨g.ray.scale c, g.left⟩) = goingCut per pol xs gs := by
  classical
  unfold goingCut
  refine if_congr ?_ rfl rfl
  refine exists_congr fun y => and_congr_right fun hy => ?_
  constructor
  · rintro ⟨g, hg, h⟩
    obtain ⟨g, hg', rfl⟩ := List.mem_map.1 hg
    exact ⟨g, hg', h.imp (fun h h' => h ((hmay _ _ _).2 h')) fun h => by rw [← hper y hy]; exact h⟩
  · rintro ⟨g, hg, h⟩
    exact ⟨_, List.mem_map.2 ⟨g, hg, rfl⟩, h.imp (fun h h' => h ((hmay _ _ _).1 h')) fun h => by rw [hper y hy]; exact h⟩

variable (hout : ∀ y ∈ xs, ∀ r, ∀ t : ℝ, per y.surf r = (t : WithTop ℝ) → out y.surf (r.scale c) = (out y.surf r).map (Ray.scale c))
include hout

theorem children_scale (cut : ℝ) (gs : List (Going ℝ E)) :
    (gs.map fun g : Going ℝ E => (⟨g.ray.scale c, g.left⟩ : Going ℝ E)).flatMap (Going.children cut per out pol xs) =
      (gs.flatMap (Going.children cut per out pol xs)).map fun g => ⟨g.ray.scale c, g.left⟩ := by
  classical
  rw [List.flatMap_map, List.map_flatMap]
  refine List.flatMap_congr fun g _ => ?_
  unfold Going.children
  rw [List.map_flatMap]
  refine List.flatMap_congr fun y hy => ?_
  by_cases h : g.Meets cut per pol xs y
  · obtain ⟨_, t, ht, _⟩ := id h
    rw [if_pos h, if_pos ((meets_scale hper hmay cut g hy).2 h), hout y hy _ t ht, List.map_map, List.map_map]
    rfl
  · rw [if_neg h, if_neg fun h' => h ((meets_scale hper hmay cut g hy).1 h')]
    rfl

omit hper hmay hout in
theorem filter_scale (hc : 0 < c) (gs : List (Going ℝ E)) :
    (gs.map fun g : Going ℝ E => (⟨g.ray.scale c, g.left⟩ : Going ℝ E)).filter (fun g => decide (c * minE < g.ray.energy)) =
      (gs.filter fun g => decide (minE < g.ray.energy)).map fun g => ⟨g.ray.scale c, g.left⟩ := by
  have e1 : ((fun g : Going ℝ E => decide (c * minE < g.ray.energy)) ∘ fun g : Going ℝ E => (⟨g.ray.scale c, g.left⟩ : Going ℝ E)) =
      fun g => decide (minE < g.ray.energy) := by
    funext g
    exact decide_eq_decide.2 (mul_lt_mul_iff_right₀ hc)
  rw [List.filter_map, e1]

theorem goingGeneration_scale (hc : 0 < c) (b : Bundle ℝ E) (k : Nat) :
    setOut (c * minE) k (goingGeneration per out pol xs (c * minE) (b.map (Ray.scale c)) k) =
      (setOut minE k (goingGeneration per out pol xs minE b k)).map fun g => ⟨g.ray.scale c, g.left⟩ := by
  have h : goingGeneration per out pol xs (c * minE) (b.map (Ray.scale c)) k =
      (goingGeneration per out pol xs minE b k).map fun g => ⟨g.ray.scale c, g.left⟩ := by
    induction k with
    | zero =>
      show (b.map (Ray.scale c)).map _ = (b.map _).map _
      rw [List.map_map, List.map_map]
      rfl
    | succ k ih =>
      rw [goingGeneration_succ, goingGeneration_succ, ih]
      have e : setOut (c * minE) k ((goingGeneration per out pol xs minE b k).map fun g => (⟨g.ray.scale c, g.left⟩ : Going ℝ E)) =
          (setOut minE k (goingGeneration per out pol xs minE b k)).map fun g => ⟨g.ray.scale c, g.left⟩ := by
        unfold setOut
        split
        · rfl
        · exact filter_scale hc _
      rw [e]
      unfold nextGoing
      rw [goingCut_scale hper hmay, children_scale hper hmay hout]
  rw [h]
  unfold setOut
  split
  · rfl
  · exact filter_scale hc _

theorem goingsSettled_scale (hc : 0 < c) {b : Bundle ℝ E} {reps : Nat} (h : GoingsSettled per out pol xs minE b reps) :
    GoingsSettled per out pol xs (c * minE) (b.map (Ray.scale c)) reps := by
  intro k hk g hg
  rw [goingGeneration_scale hper hmay hout hc] at hg
  obtain ⟨g, hg', rfl⟩ := List.mem_map.1 hg
  exact settled_scale hper hmay g (h k hk g hg')

theorem flow_scale (hc : 0 < c) (hx : x ∈ xs) (n : Nat) (gs : List (Going ℝ E)) :
    flow φ per out pol xs (c * minE) x n (gs.map fun g => ⟨g.ray.scale c, g.left⟩) = c * flow φ per out pol xs minE x n gs := by
  classical
  have hstep : ∀ gs : List (Going ℝ E), goOn per out pol xs (c * minE) (gs.map fun g => ⟨g.ray.scale c, g.left⟩) =
      (goOn per out pol xs minE gs).map fun g => ⟨g.ray.scale c, g.left⟩ := by
    intro gs
    unfold goOn
    rw [children_scale hper hmay hout, filter_scale hc]
  have hiter : ∀ k (gs : List (Going ℝ E)), (goOn per out pol xs (c * minE))^[k] (gs.map fun g => ⟨g.ray.scale c, g.left⟩) =
      ((goOn per out pol xs minE)^[k] gs).map fun g => ⟨g.ray.scale c, g.left⟩ := by
    intro k
    induction k with
    | zero => intro gs; rfl
    | succ k ih => intro gs; rw [Function.iterate_succ_apply, hstep, ih, Function.iterate_succ_apply]
  unfold flow
  rw [Finset.mul_sum]
  refine Finset.sum_congr rfl fun k _ => ?_
  rw [hiter, List.map_map, ← List.sum_map_mul_left]
  congr 1
  refine List.map_congr_left fun g _ => ?_
  simp only [Function.comp, brings]
  by_cases h : g.Meets dropTol per pol xs x
  · rw [if_pos h, if_pos ((meets_scale hper hmay _ g hx).2 h)]
    unfold spot
    rw [hper x hx, ← mul_assoc]
    rfl
  · rw [if_neg h, if_neg fun h' => h ((meets_scale hper hmay _ g hx).1 h'), mul_zero]

end scaling

end flow

/-! ### Mirrors -/

theorem MirrorOptics.law [MeasurableSpace δ] {opt : Optics σ ℝ E} (h : MirrorOptics opt) : ∃ share : V3 ℝ → V3 ℝ → ℝ,
    (Optics.PerHit opt fun up q => [⟨q.point, reflection q.ray.dir q.normal, q.ray.energy * share up q.ray.dir, q.idx, q.ray.ref, q.ray.extra⟩]) ∧
    (∃ C, ∀ up d, |share up d| ≤ C) ∧ ∀ up (d : δ → V3 ℝ), V3M d → Measurable fun x => share up (d x) := by
  induction h with
  | mirror a => exact ⟨fun _ _ => 1 - a, reflective_perHit a, ⟨_, fun _ _ => le_rfl⟩, fun _ _ _ => measurable_const⟩
  | oneSided a =>
    refine ⟨fun up d => if 0 < V3.dot d up then 0 else 1 - a, ?_, ⟨|1 - a|, fun up d => ?_⟩, fun up d hd => ?_⟩
    · have e : (fun (up : V3 ℝ) (q : HitRec ℝ E) => [(⟨q.point, reflection q.ray.dir q.normal, q.ray.energy * (if 0 < V3.dot q.ray.dir up then 0 else 1 - a),
          q.idx, q.ray.ref, q.ray.extra⟩ : Ray ℝ E)]) = fun up h =>
          [let r := reflectOne a h
           if 0 < V3.dot h.ray.dir up then { r with energy := 0 } else r] := by
        funext up q
        simp only
        split
        · rw [mul_zero]; rfl
        · rfl
      rw [e]
      exact absorberReflector_perHit a
    · dsimp only
      split
      · rw [abs_zero]; exact abs_nonneg _
      · exact le_rfl
    · exact Measurable.ite (measurableSet_lt measurable_const (hd.dot (V3M.const up))) measurable_const measurable_const
  | receiver a get set opt _ ih =>
    obtain ⟨share, h1, h2⟩ := ih
    exact ⟨share, accountant_perHit h1, h2⟩

/-- How a ray is reflected by a mirror of the package. -/
theorem PlainMirror.law [MeasurableSpace δ] {s : Surf σ ℝ E} (h : PlainMirror s) (w : σ) :
    ∃ (f : V3 ℝ → V3 ℝ → WithTop ℝ) (N : V3 ℝ → V3 ℝ → V3 ℝ) (share : V3 ℝ → ℝ), (∀ r, s.single r = f r.vertex r.dir) ∧
    (∀ r (t : ℝ), s.single r = (t : WithTop ℝ) → s.alone w r =
      [⟨r.at t, reflection r.dir (N (r.at t) r.dir), r.energy * share r.dir, 0, r.ref, r.extra⟩]) ∧
    (∃ C, ∀ d, |share d| ≤ C) ∧ ∀ v d : δ → V3 ℝ, V3M v → V3M d → (TopM fun x => f (v x) (d x)) ∧ (V3M fun x => N (v x) (d x)) ∧
      Measurable fun x => share (d x) := by
  obtain ⟨g, opt, frame, rfl, hg, ho⟩ := h
  obtain ⟨f, hf, hm⟩ := PlainGeometry.measurable (δ := δ) hg frame
  obtain ⟨share, hs, ⟨C, hC⟩, hsm⟩ := MirrorOptics.law (δ := δ) ho
  obtain ⟨_, hnf, _⟩ := ho.spec
  have hsingle : ∀ r : Ray ℝ E, (mkSurf g opt frame).single r = f frame r.vertex r.dir := by
    intro r
    unfold Surf.single
    rw [mkSurf_perRay hf opt frame]
    rfl
  refine ⟨f frame, g.normal frame, share frame.rot.c3, hsingle, ?_, ⟨C, fun d => hC _ d⟩, fun v d hv hd => ⟨(hm v d hv hd).1, (hm v d hv hd).2, hsm _ d hd⟩⟩
  intro r t ht
  have hp := alone_perm hf hs hnf frame w r
  rw [hsingle] at ht
  unfold outOf at hp
  rw [ht] at hp
  simpa using hp

theorem plainPolicy_mayMeet (objs : List (Obj σ ℝ E)) (r r' : Ray ℝ E) (l) (y : Site σ ℝ E) :
    Going.MayMeet (plainPolicy objs) ⟨r, l⟩ y ↔ Going.MayMeet (plainPolicy objs) ⟨r', l⟩ y := by
  unfold Going.MayMeet
  refine forall_congr' fun o => forall_congr' fun j => ?_
  rcases plainPolicy_cases objs o with e | e <;> rw [e] <;> rfl

theorem PlainMirror.scale {s : Surf σ ℝ E} (h : PlainMirror s) (w : σ) (c : ℝ) (r : Ray ℝ E) :
    s.single (r.scale c) = s.single r ∧ ∀ t : ℝ, s.single r = (t : WithTop ℝ) → s.alone w (r.scale c) = (s.alone w r).map (Ray.scale c) := by
  obtain ⟨f, N, share, h1, h2, _⟩ := PlainMirror.law (δ := Unit) h w
  refine ⟨by rw [h1, h1]; rfl, fun t ht => ?_⟩
  rw [h2 r t ht, h2 (r.scale c) t (by rw [h1] at ht ⊢; exact ht)]
  simp [Ray.scale, Ray.at, mul_assoc]

/-! ### Measurability -/

theorem sum_measurable [MeasurableSpace δ] {ι : Type _} (l : List ι) (F : ι → δ → ℝ) (h : ∀ i ∈ l, Measurable (F i)) :
    Measurable fun d => (l.map fun i => F i d).sum := by
  induction l with
  | nil => exact measurable_const
  | cons i l ih =>
    simp only [List.map_cons, List.sum_cons]
    exact (h i (List.mem_cons_self ..)).add (ih fun j hj => h j (List.mem_cons_of_mem _ hj))

theorem sum_filter_flatMap {ι κ : Type _} (l : List ι) (F : ι → List κ) (p : κ → Bool) (H : κ → ℝ) :
    (((l.flatMap F).filter p).map H).sum = (l.map fun i => (((F i).filter p).map H).sum).sum := by
  induction l with
  | nil => rfl
  | cons i l ih => rw [List.flatMap_cons, List.filter_append, List.map_append, List.sum_append, ih, List.map_cons, List.sum_cons]

section mirrors
variable {φ : V3 ℝ → ℝ} {objs : List (Obj σ ℝ E)} {w : σ} {minE : ℝ} {x : Site σ ℝ E}

theorem sites_mirror (hm : AllSurfs PlainMirror objs) {y : Site σ ℝ E} (hy : y ∈ sites objs) : PlainMirror y.surf := by
  have hxs : y.surf ∈ objs.flatMap Obj.surfs := by
    rw [← sites_surf]; exact List.mem_map.2 ⟨y, hy, rfl⟩
  obtain ⟨o, ho, hs⟩ := List.mem_flatMap.1 hxs
  exact hm o ho y.surf hs

theorem RayM.single [MeasurableSpace δ] {s : Surf σ ℝ E} (h : PlainMirror s) (w : σ) {r : δ → Ray ℝ E} (hr : RayM r) :
    TopM fun d => s.single (r d) := by
  obtain ⟨f, N, share, h1, _, _, h4⟩ := PlainMirror.law (δ := δ) h w
  refine (h4 _ _ hr.vertex hr.dir).1.congr fun d => ?_
  rw [h1]

theorem beyond_measurable [MeasurableSpace δ] {f : δ → WithTop ℝ} (hf : TopM f) (cut : ℝ) :
    MeasurableSet {d | ∃ t : ℝ, f d = (t : WithTop ℝ) ∧ cut < t} := by
  obtain ⟨p, t, hp, ht, h1, h2⟩ := hf
  have e : {d | ∃ t : ℝ, f d = (t : WithTop ℝ) ∧ cut < t} = {d | p d} ∩ {d | cut < t d} := by
    ext d
    constructor
    · rintro ⟨u, hu, hlt⟩
      by_cases h : p d
      · rw [h1 d h] at hu
        exact ⟨h, show cut < t d by rw [WithTop.coe_injective hu]; exact hlt⟩
      · rw [h2 d h] at hu
        cases hu
    · rintro ⟨h, hlt⟩
      exact ⟨t d, h1 d h, hlt⟩
  rw [e]
  exact hp.inter (measurableSet_lt measurable_const ht)

theorem nearer_measurable [MeasurableSpace δ] {f g : δ → WithTop ℝ} (hf : TopM f) (hg : TopM g) (cut : ℝ) :
    MeasurableSet {d | ∀ t t' : ℝ, f d = (t : WithTop ℝ) → g d = (t' : WithTop ℝ) → cut < t' → t ≤ t'} := by
  obtain ⟨p, t, hp, ht, h1, h2⟩ := hf
  obtain ⟨q, u, hq, hu, h3, h4⟩ := hg
  have e : {d | ∀ t t' : ℝ, f d = (t : WithTop ℝ) → g d = (t' : WithTop ℝ) → cut < t' → t ≤ t'} =
      {d | p d}ᶜ ∪ ({d | q d}ᶜ ∪ ({d | cut < u d}ᶜ ∪ {d | t d ≤ u d})) := by
    ext d
    constructor
    · intro h
      by_cases hpd : p d
      · right
        by_cases hqd : q d
        · right
          by_cases hc : cut < u d
          · right
            exact h _ _ (h1 d hpd) (h3 d hqd) hc
          · exact Or.inl hc
        · exact Or.inl hqd
      · exact Or.inl hpd
    · intro h a b ha hb hlt
      rcases h with h | h | h | h
      · rw [h2 d h] at ha
        cases ha
      · rw [h4 d h] at hb
        cases hb
      · by_cases hqd : q d
        · rw [h3 d hqd] at hb
          exact absurd (show cut < u d by rw [WithTop.coe_injective hb]; exact hlt) h
        · rw [h4 d hqd] at hb
          cases hb
      · by_cases hpd : p d
        · by_cases hqd : q d
          · rw [h1 d hpd] at ha
            rw [h3 d hqd] at hb
            rw [← WithTop.coe_injective ha, ← WithTop.coe_injective hb]
            exact h
          · rw [h4 d hqd] at hb
            cases hb
        · rw [h2 d hpd] at ha
          cases ha
  rw [e]
  exact hp.compl.union (hq.compl.union ((measurableSet_lt measurable_const hu).compl.union (measurableSet_le ht hu)))

theorem meets_measurable [MeasurableSpace δ] (hm : AllSurfs PlainMirror objs) (w : σ) {r : δ → Ray ℝ E} (hr : RayM r) (l : Option (Nat × Nat))
    {y : Site σ ℝ E} (hy : y ∈ sites objs) :
    MeasurableSet {d | Going.Meets dropTol Surf.single (plainPolicy objs) (sites objs) ⟨r d, l⟩ y} := by
  classical
  rcases isEmpty_or_nonempty δ with hE | ⟨⟨d0⟩⟩
  · convert MeasurableSet.empty
    ext d
    exact (hE.false d).elim
  have e : {d | Going.Meets dropTol Surf.single (plainPolicy objs) (sites objs) ⟨r d, l⟩ y} =
      {d | Going.MayMeet (plainPolicy objs) ⟨r d0, l⟩ y} ∩ ({d | ∃ t : ℝ, y.surf.single (r d) = (t : WithTop ℝ) ∧ dropTol < t} ∩
        ⋂ z ∈ {z | z ∈ sites objs}, ({d | Going.MayMeet (plainPolicy objs) ⟨r d0, l⟩ z}ᶜ ∪
          {d | ∀ t t' : ℝ, y.surf.single (r d) = (t : WithTop ℝ) → z.surf.single (r d) = (t' : WithTop ℝ) → dropTol < t' → t ≤ t'})) := by
    ext d
    constructor
    · rintro ⟨h0, t, h1, h2, h3⟩
      refine ⟨(plainPolicy_mayMeet objs _ _ l y).1 h0, ⟨t, h1, h2⟩, Set.mem_iInter₂.2 fun z hz => ?_⟩
      by_cases hmay : Going.MayMeet (plainPolicy objs) ⟨r d0, l⟩ z
      · right
        intro a b ha hb hlt
        have : a = t := WithTop.coe_injective (ha.symm.trans h1)
        rw [this]
        exact h3 z hz ((plainPolicy_mayMeet objs _ _ l z).1 hmay) b hb hlt
      · exact Or.inl hmay
    · rintro ⟨h0, ⟨t, h1, h2⟩, h3⟩
      refine ⟨(plainPolicy_mayMeet objs _ _ l y).1 h0, t, h1, h2, fun z hz hmay t' ht' hlt => ?_⟩
      rcases Set.mem_iInter₂.1 h3 z hz with h | h
      · exact absurd ((plainPolicy_mayMeet objs _ _ l z).1 hmay) h
      · exact h t t' h1 ht' hlt
  rw [e]
  refine (MeasurableSet.const _).inter ((beyond_measurable (hr.single (sites_mirror hm hy) w) _).inter ?_)
  refine Set.Finite.measurableSet_biInter (List.finite_toSet _) fun z hz => ?_
  exact (MeasurableSet.const _).compl.union
    (nearer_measurable (hr.single (sites_mirror hm hy) w) (hr.single (sites_mirror hm hz) w) _)

open Classical in
theorem flow_step (n : Nat) (g : Going ℝ E) :
    flow φ Surf.single (Surf.alone w) (plainPolicy objs) (sites objs) minE x (n + 1) [g] =
      brings φ Surf.single (plainPolicy objs) (sites objs) x g + ((sites objs).map fun y =>
        if g.Meets dropTol Surf.single (plainPolicy objs) (sites objs) y then
          ((((y.surf.alone w g.ray).map fun r => (⟨r, some (y.obj, y.num)⟩ : Going ℝ E)).filter fun g => decide (minE < g.ray.energy)).map
            fun c => flow φ Surf.single (Surf.alone w) (plainPolicy objs) (sites objs) minE x n [c]).sum else 0).sum := by
  rw [flow_succ, List.map_singleton, List.sum_singleton, flow_each]
  congr 1
  unfold goOn
  rw [List.flatMap_singleton]
  unfold Going.children
  rw [sum_filter_flatMap]
  congr 1
  refine List.map_congr_left fun y _ => ?_
  split <;> rfl

/-- What a mirror scene brings to a surface depends measurably on the ray. -/
theorem flow_measurable [MeasurableSpace δ] (hφ : Weights φ) (hm : AllSurfs PlainMirror objs) (hx : x ∈ sites objs) (n : Nat) {r : δ → Ray ℝ E} (hr : RayM r)
    (l : Option (Nat × Nat)) :
    Measurable fun d => flow φ Surf.single (Surf.alone w) (plainPolicy objs) (sites objs) minE x n [⟨r d, l⟩] := by
  classical
  induction n generalizing r l with
  | zero => simp only [flow, Finset.range_zero, Finset.sum_empty]; exact measurable_const
  | succ n ih =>
    simp only [flow_step]
    refine Measurable.add ?_ (sum_measurable _ _ fun y hy => ?_)
    · unfold brings
      obtain ⟨p, t, hp, ht, h5, h6⟩ := hr.single (sites_mirror hm hx) w
      have hat : V3M fun d => (r d).at (t d) := hr.vertex.add (hr.dir.smul ht)
      have hwt : Measurable fun d => φ ((r d).at (t d)) := hφ.measurable.comp (hat.x.prodMk (hat.y.prodMk hat.z))
      have hmain : Measurable fun d => if Going.Meets dropTol Surf.single (plainPolicy objs) (sites objs) ⟨r d, l⟩ x then
          (r d).energy * φ ((r d).at (t d)) else 0 :=
        Measurable.ite (meets_measurable hm w hr l hx) (hr.energy.mul hwt) measurable_const
      refine hmain.congr' fun d => ?_
      split
      · rename_i hmeets
        obtain ⟨_, u, hu, _⟩ := hmeets
        have hpd : p d := by
          by_contra hpd
          exact absurd ((h6 d hpd).symm.trans hu) (by simp)
        show _ * φ (spot _ x (r d)) = _
        unfold spot
        have h5' : x.surf.single (r d) = (t d : WithTop ℝ) := h5 d hpd
        rw [h5', WithTop.untopD_coe]
      · rfl
    · obtain ⟨f, N, share, h1, h2, _, h4⟩ := PlainMirror.law (δ := δ) (sites_mirror hm hy) w
      obtain ⟨⟨p, t, hp, ht, h5, h6⟩, _, hsh⟩ := h4 _ _ hr.vertex hr.dir
      have hat : V3M fun d => (r d).at (t d) := hr.vertex.add (hr.dir.smul ht)
      have hN := (h4 _ _ hat hr.dir).2.1
      have hrefl : V3M fun d => reflection (r d).dir (N ((r d).at (t d)) (r d).dir) :=
        hr.dir.sub ((hN.smul (hr.dir.dot hN)).smul (measurable_const (a := (2 : ℝ))))
      have hchild : RayM fun d => (⟨(r d).at (t d), reflection (r d).dir (N ((r d).at (t d)) (r d).dir), (r d).energy * share (r d).dir, 0,
          (r d).ref, (r d).extra⟩ : Ray ℝ E) := ⟨hat, hrefl, hr.energy.mul hsh⟩
      have hmain : Measurable fun d => if Going.Meets dropTol Surf.single (plainPolicy objs) (sites objs) ⟨r d, l⟩ y then
          (if minE < (r d).energy * share (r d).dir then
            flow φ Surf.single (Surf.alone w) (plainPolicy objs) (sites objs) minE x n
              [⟨⟨(r d).at (t d), reflection (r d).dir (N ((r d).at (t d)) (r d).dir), (r d).energy * share (r d).dir, 0,
                (r d).ref, (r d).extra⟩, some (y.obj, y.num)⟩] else 0) else 0 :=
        Measurable.ite (meets_measurable hm w hr l hy)
          (Measurable.ite (measurableSet_lt measurable_const (hr.energy.mul hsh)) (ih hchild _) measurable_const) measurable_const
      refine hmain.congr' fun d => ?_
      split
      · rename_i hmeets
        obtain ⟨_, u, hu, _⟩ := hmeets
        have hpd : p d := by
          by_contra hpd
          have : f (r d).vertex (r d).dir = ⊤ := h6 d hpd
          rw [← h1] at this
          exact absurd (this.symm.trans hu) (by simp)
        rw [h2 (r d) (t d) (by rw [h1]; exact h5 d hpd)]
        simp only [List.map_cons, List.map_nil, List.filter_cons, List.filter_nil]
        by_cases hlt : minE < (r d).energy * share (r d).dir
        · simp [hlt]
        · simp [hlt]
      · rfl

/-- What a mirror scene brings to a surface is at most a constant times the energy of the ray. -/
theorem flow_bounded (hφ : Weights φ) (hm : AllSurfs PlainMirror objs) (n : Nat) : ∃ C, 0 ≤ C ∧ ∀ g : Going ℝ E,
    |flow φ Surf.single (Surf.alone w) (plainPolicy objs) (sites objs) minE x n [g]| ≤ C * |g.ray.energy| := by
  classical
  induction n with
  | zero => exact ⟨0, le_rfl, fun g => by simp [flow]⟩
  | succ n ih =>
    obtain ⟨C, hC0, hC⟩ := ih
    have hsum : ∀ ys : List (Site σ ℝ E), (∀ y ∈ ys, y ∈ sites objs) → ∃ B, 0 ≤ B ∧ ∀ g : Going ℝ E, |(ys.map fun y =>
        if g.Meets dropTol Surf.single (plainPolicy objs) (sites objs) y then
          ((((y.surf.alone w g.ray).map fun r => (⟨r, some (y.obj, y.num)⟩ : Going ℝ E)).filter fun g => decide (minE < g.ray.energy)).map
            fun c => flow φ Surf.single (Surf.alone w) (plainPolicy objs) (sites objs) minE x n [c]).sum else 0).sum| ≤ B * |g.ray.energy| := by
      intro ys
      induction ys with
      | nil => intro _; exact ⟨0, le_rfl, fun g => by simp⟩
      | cons y ys ihy =>
        intro hy
        obtain ⟨B, hB0, hB⟩ := ihy fun z hz => hy z (List.mem_cons_of_mem _ hz)
        obtain ⟨f, N, share, h1, h2, ⟨S, hS⟩, _⟩ := PlainMirror.law (δ := Unit) (sites_mirror hm (hy y (List.mem_cons_self ..))) w
        have hS0 : 0 ≤ S := (abs_nonneg _).trans (hS ⟨0, 0, 0⟩)
        refine ⟨C * S + B, by positivity, fun g => ?_⟩
        rw [List.map_cons, List.sum_cons, add_mul]
        refine (abs_add_le _ _).trans (add_le_add ?_ (hB g))
        split
        · rename_i hmeets
          obtain ⟨_, u, hu, _⟩ := hmeets
          rw [h2 _ u hu]
          simp only [List.map_cons, List.map_nil, List.filter_cons, List.filter_nil]
          split
          · rw [List.map_singleton, List.sum_singleton]
            refine (hC _).trans ?_
            rw [mul_assoc]
            refine mul_le_mul_of_nonneg_left ?_ hC0
            rw [abs_mul, mul_comm]
            exact mul_le_mul_of_nonneg_right (hS _) (abs_nonneg _)
          · simp
            positivity
        · rw [abs_zero]
          positivity
    obtain ⟨B, hB0, hB⟩ := hsum (sites objs) fun _ h => h
    obtain ⟨M, hM⟩ := hφ.bounded
    have hM0 : 0 ≤ M := (abs_nonneg _).trans (hM ⟨0, 0, 0⟩)
    refine ⟨M + B, by positivity, fun g => ?_⟩
    rw [flow_step, add_mul]
    refine (abs_add_le _ _).trans (add_le_add ?_ (hB g))
    unfold brings
    split
    · rw [abs_mul, mul_comm]
      exact mul_le_mul_of_nonneg_right (hM _) (abs_nonneg _)
    · rw [abs_zero]; positivity

end mirrors

end Tracer
