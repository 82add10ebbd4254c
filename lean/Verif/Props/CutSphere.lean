import Verif.Examples.Constructors
import Verif.Props.Quadric
import Verif.Props.Motion

/-! # Hemispheres and cut spheres (C39) -/

set_option linter.unusedSectionVars false

namespace Tracer

open Real

variable {E : Type _}

/-! ## Lemmas -/

/-- `p` is kept at the far crossing only and `q` at the near one only. -/
def Swapped (p q : Bool × Bool) : Prop := (p.1 = false ∧ p.2 = true) ∧ (q.1 = true ∧ q.2 = false)

theorem mem_mask_xor (m : List (Bool × Bool)) :
    ∀ q ∈ Np.mask (m.map fun p => xor p.1 p.2) m, q ∈ m ∧ xor q.1 q.2 = true := by
  induction m with
  | nil => simp
  | cons q m ih =>
    intro x hx
    cases hq : xor q.1 q.2 with
    | false =>
      rw [List.map_cons, hq, Np.mask_false] at hx
      exact ⟨List.mem_cons_of_mem _ (ih x hx).1, (ih x hx).2⟩
    | true =>
      rw [List.map_cons, hq, Np.mask_true] at hx
      rcases List.mem_cons.1 hx with rfl | hx
      · exact ⟨by simp, hq⟩
      · exact ⟨List.mem_cons_of_mem _ (ih x hx).1, (ih x hx).2⟩

theorem nonzeroUT_eq {m : List (Bool × Bool)} (h : m.Pairwise fun p q => ¬ Swapped p q) :
    nonzeroUT (m.map fun p => xor p.1 p.2) m = nonzeroT (m.map fun p => xor p.1 p.2) m := by
  unfold nonzeroUT nonzeroT
  induction m with
  | nil => rfl
  | cons p m ih =>
    obtain ⟨h1, h2⟩ := List.pairwise_cons.1 h
    have ih := ih h2
    rcases p with ⟨a, b⟩
    cases a <;> cases b
    · simpa using ih
    · -- far only: no near only follows
      have hnone : (Np.mask (m.map fun p => xor p.1 p.2) m).countP (fun p => p.1) = 0 := by
        rw [List.countP_eq_zero]
        have hmem := mem_mask_xor m
        intro q hq h1q
        obtain ⟨hq1, hq2⟩ := hmem q hq
        apply h1 q hq1
        refine ⟨⟨rfl, rfl⟩, h1q, ?_⟩
        rw [h1q] at hq2
        simpa using hq2
      rw [hnone] at ih
      simp only [List.map_cons, Bool.false_xor, Np.mask_true, List.countP_cons, hnone, List.flatMap_cons]
      simp only [List.replicate_zero, List.nil_append] at ih
      simp [ih, List.replicate_succ, hnone]
    · simp only [List.map_cons, Bool.xor_false, Np.mask_true, List.countP_cons, List.flatMap_cons]
      simp [List.replicate_succ, ih]
    · simpa using ih

theorem trimSelectUT_eq {test : V3 ℝ → Bool} {cands : List Cand}
    (h : cands.Pairwise fun c e => ¬ Swapped (test c.p0 && decide (0 < c.t0), test c.p1 && decide (0 < c.t1))
      (test e.p0 && decide (0 < e.t0), test e.p1 && decide (0 < e.t1))) :
    trimSelect nonzeroUT test cands = cands.map (trimPick test) := by
  rw [← trimSelect_eq]
  unfold trimSelect
  have : (cands.map fun c => (test c.p0 && decide (0 < c.t0), test c.p1 && decide (0 < c.t1))).Pairwise
      fun p q => ¬ Swapped p q := by
    rw [List.pairwise_map]
    exact h
  simp only [nonzeroUT_eq this]

/-- What a pair of solutions with one kept crossing means. -/
theorem candidate_sphere {frame : Tf ℝ} (h : frame.Rigid) {R : ℝ} {v d : V3 ℝ} (hu : d.IsUnit) {c : Cand}
    (hc : candidate (sphereABC R frame v d) v d = some c) :
    c.t0 ≤ c.t1 ∧ c.p0 = v + c.t0 • d ∧ c.p1 = v + c.t1 • d ∧
      Placed frame (sphereSet R) c.p0 ∧ Placed frame (sphereSet R) c.p1 := by
  have hA : planarTol < (sphereABC R frame v d).1 := by rw [sphereABC_fst]; exact unit_tol hu
  have hA0 := lt_trans planarTol_pos hA
  unfold candidate at hc
  simp only at hc
  split at hc
  · rename_i hd
    rw [if_neg (not_le.2 hA)] at hc
    obtain ⟨hle, hr⟩ := quadratic_roots hA0 hd
    cases hc
    refine ⟨hle, rfl, rfl, ?_, ?_⟩
    · rw [sphere_placed h, sphere_at]; exact (hr _).2 (Or.inl rfl)
    · rw [sphere_placed h, sphere_at]; exact (hr _).2 (Or.inr rfl)
  · simp at hc

/-- The kept part of a placed sphere. -/
def Kept (frame : Tf ℝ) (R : ℝ) (test : V3 ℝ → Bool) (p : V3 ℝ) : Prop :=
  Placed frame (sphereSet R) p ∧ test p = true

theorem swapped_spec {frame : Tf ℝ} (h : frame.Rigid) {R : ℝ} {test : V3 ℝ → Bool} {v d v' d' : V3 ℝ}
    (hu : d.IsUnit) (hu' : d'.IsUnit) {c e : Cand} (hc : candidate (sphereABC R frame v d) v d = some c)
    (he : candidate (sphereABC R frame v' d') v' d' = some e)
    (hs : Swapped (test c.p0 && decide (0 < c.t0), test c.p1 && decide (0 < c.t1))
      (test e.p0 && decide (0 < e.t0), test e.p1 && decide (0 < e.t1))) :
    OnlyFar (Placed frame (sphereSet R)) (Kept frame R test) v d ∧
    OnlyNear (Placed frame (sphereSet R)) (Kept frame R test) v' d' := by
  obtain ⟨hle, hp0, hp1, hS0, hS1⟩ := candidate_sphere h hu hc
  obtain ⟨hle', hp0', hp1', hS0', hS1'⟩ := candidate_sphere h hu' he
  obtain ⟨⟨a1, a2⟩, b1, b2⟩ := hs
  simp only [Bool.and_eq_true, decide_eq_true_eq, Bool.and_eq_false_iff, decide_eq_false_iff_not] at a1 a2 b1 b2
  have hlt : c.t0 < c.t1 := by
    rcases lt_or_eq_of_le hle with h | h
    · exact h
    · exfalso
      have hpp : c.p0 = c.p1 := by rw [hp0, hp1, h]
      rw [hpp, h] at a1
      rcases a1 with h1 | h1
      · rw [h1] at a2; exact absurd a2.1 (by simp)
      · exact h1 a2.2
  have hlt' : e.t0 < e.t1 := by
    rcases lt_or_eq_of_le hle' with h | h
    · exact h
    · exfalso
      have hpp : e.p0 = e.p1 := by rw [hp0', hp1', h]
      rw [hpp, h] at b1
      rcases b2 with h1 | h1
      · rw [h1] at b1; exact absurd b1.1 (by simp)
      · exact h1 b1.2
  constructor
  · refine ⟨c.t0, c.t1, hlt, hp0 ▸ hS0, hp1 ▸ hS1, ?_, a2.2, hp1 ▸ hS1, hp1 ▸ a2.1⟩
    rintro ⟨h1, _, h2⟩
    rw [← hp0] at h2
    rcases a1 with h3 | h3
    · rw [h3] at h2; exact absurd h2 (by simp)
    · exact h3 h1
  · refine ⟨e.t0, e.t1, hlt', hp0' ▸ hS0', hp1' ▸ hS1', b1.2, ⟨hp0' ▸ hS0', hp0' ▸ b1.1⟩, ?_⟩
    rintro ⟨h1, _, h2⟩
    rw [← hp1'] at h2
    rcases b2 with h3 | h3
    · rw [h3] at h2; exact absurd h2 (by simp)
    · exact h3 h1

theorem cut_first {frame : Tf ℝ} (h : frame.Rigid) {R : ℝ} {test : V3 ℝ → Bool} {rays : Bundle ℝ E}
    (hu : ∀ r ∈ rays, r.dir.IsUnit)
    (hord : ∀ (i j : Nat) r s, i < j → rays[i]? = some r → rays[j]? = some s →
      ¬ (OnlyFar (Placed frame (sphereSet R)) (Kept frame R test) r.vertex r.dir ∧
         OnlyNear (Placed frame (sphereSet R)) (Kept frame R test) s.vertex s.dir))
    (i : Nat) (r : Ray ℝ E) (hr : rays[i]? = some r) :
    ∃ p, (quadricFind (sphereABC R frame) (trimSelect nonzeroUT test) rays)[i]? = some p ∧
      FirstAmong (0 < ·) (Kept frame R test) r.vertex r.dir p := by
  have hsel : ∀ cands, cands = (rays.map fun r => candidate (sphereABC R frame r.vertex r.dir) r.vertex r.dir).filterMap id →
      trimSelect nonzeroUT test cands = cands.map (trimPick test) := by
    rintro cands rfl
    apply trimSelectUT_eq
    have hpw : rays.Pairwise fun r s => r.dir.IsUnit ∧ s.dir.IsUnit ∧
        ¬ (OnlyFar (Placed frame (sphereSet R)) (Kept frame R test) r.vertex r.dir ∧
           OnlyNear (Placed frame (sphereSet R)) (Kept frame R test) s.vertex s.dir) := by
      rw [List.pairwise_iff_getElem]
      intro a b ha hb hab
      exact ⟨hu _ (List.getElem_mem _), hu _ (List.getElem_mem _),
        hord a b _ _ hab (List.getElem?_eq_getElem ha) (List.getElem?_eq_getElem hb)⟩
    rw [List.filterMap_map]
    refine List.Pairwise.filterMap _ ?_ hpw
    intro r s hrs c hc e he hsw
    exact hrs.2.2 (swapped_spec h hrs.1 hrs.2.1 hc he hsw)
  refine ⟨_, (congrArg (·[i]?) (quadricFind_of _ rays hsel)).trans (getElem?_map' _ hr), ?_⟩
  apply first_of_abc
  · intro s
    show Placed _ _ _ ∧ _ ↔ _
    rw [sphere_placed h, sphere_at]
  · rw [sphereABC_fst]
    exact unit_tol (hu r (List.mem_of_getElem? hr))

/-! ## C39 -/

theorem kept_hemisphere {frame : Tf ℝ} (h : frame.Rigid) (R : ℝ) (p : V3 ℝ) :
    Kept frame R (hemisphereTest frame) p ↔ Placed frame (hemisphereSet R) p := by
  have hdet := M3.IsRotation.det_ne h
  unfold Kept hemisphereTest
  rw [placed_iff hdet, placed_iff hdet, decide_eq_true_eq]
  rfl

theorem onlyFar_congr {F S S' : V3 ℝ → Prop} (h : ∀ p, S p ↔ S' p) (v d : V3 ℝ) : OnlyFar F S v d ↔ OnlyFar F S' v d := by
  unfold OnlyFar; simp only [h]

theorem onlyNear_congr {F S S' : V3 ℝ → Prop} (h : ∀ p, S p ↔ S' p) (v d : V3 ℝ) : OnlyNear F S v d ↔ OnlyNear F S' v d := by
  unfold OnlyNear; simp only [h]

/-- C39 for hemispheres, in part: right for bundles in which no ray that keeps only its far crossing comes before
one that keeps only its near crossing.  Missing: other bundles, for which it is false, see below. -/
theorem C39_hemisphere_partial {frame : Tf ℝ} (h : frame.Rigid) {R : ℝ} {g : Geometry ℝ E} (hg : hemisphereGM R = .ok g)
    {rays : Bundle ℝ E} (hu : ∀ r ∈ rays, r.dir.IsUnit)
    (hord : ∀ (i j : Nat) r s, i < j → rays[i]? = some r → rays[j]? = some s →
      ¬ (OnlyFar (Placed frame (sphereSet R)) (Placed frame (hemisphereSet R)) r.vertex r.dir ∧
         OnlyNear (Placed frame (sphereSet R)) (Placed frame (hemisphereSet R)) s.vertex s.dir))
    (i : Nat) (r : Ray ℝ E) (hr : rays[i]? = some r) :
    ∃ p, (g.find frame rays)[i]? = some p ∧
      FirstAmong (0 < ·) (Placed frame (hemisphereSet R)) r.vertex r.dir p := by
  unfold hemisphereGM at hg
  split at hg
  · simp at hg
  · rename_i R' hR'
    obtain ⟨hRR, _⟩ := setRadius_ok hR'
    subst R'
    cases hg
    obtain ⟨p, hp, hf⟩ := cut_first h (R := R) (test := hemisphereTest frame) hu (fun i j r s hij hri hsj => by
      rw [onlyFar_congr (kept_hemisphere h R), onlyNear_congr (kept_hemisphere h R)]
      exact hord i j r s hij hri hsj) i r hr
    exact ⟨p, hp, hf.congr (kept_hemisphere h R)⟩

/-- C39 for cut spheres with a bounding volume, in part, likewise. -/
theorem C39_cut_sphere_partial {frame : Tf ℝ} (h : frame.Rigid) {R : ℝ} {b : Tf ℝ → V3 ℝ → Bool} {g : Geometry ℝ E}
    (hg : cutSphereGM R (some b) = .ok g) {rays : Bundle ℝ E} (hu : ∀ r ∈ rays, r.dir.IsUnit)
    (hord : ∀ (i j : Nat) r s, i < j → rays[i]? = some r → rays[j]? = some s →
      ¬ (OnlyFar (Placed frame (sphereSet R)) (fun p => Placed frame (sphereSet R) p ∧ b frame p = true) r.vertex r.dir ∧
         OnlyNear (Placed frame (sphereSet R)) (fun p => Placed frame (sphereSet R) p ∧ b frame p = true) s.vertex s.dir))
    (i : Nat) (r : Ray ℝ E) (hr : rays[i]? = some r) :
    ∃ p, (g.find frame rays)[i]? = some p ∧
      FirstAmong (0 < ·) (fun p => Placed frame (sphereSet R) p ∧ b frame p = true) r.vertex r.dir p := by
  unfold cutSphereGM at hg
  split at hg
  · simp at hg
  · rename_i R' hR'
    obtain ⟨hRR, _⟩ := setRadius_ok hR'
    subst R'
    cases hg
    exact cut_first h (test := b frame) hu hord i r hr

/-- One ray and a sphere cut at the local height one half. -/
example {r : Ray ℝ E} (hu : r.dir.IsUnit) : ∃ (g : Geometry ℝ E) (p : WithTop ℝ),
    cutSphereGM 2 (some fun frame p => decide ((frame.inv.point p).z ≤ 1 / 2)) = .ok g ∧ (g.find 1 [r])[0]? = some p ∧
    FirstAmong (0 < ·) (fun p => Placed 1 (sphereSet 2) p ∧ decide (((1 : Tf ℝ).inv.point p).z ≤ 1 / 2) = true) r.vertex r.dir p := by
  obtain ⟨g, hg⟩ := Examples.cutSphere_exists (E := E) two_pos (some fun frame p => decide ((frame.inv.point p).z ≤ 1 / 2))
  obtain ⟨p, h1, h2⟩ := C39_cut_sphere_partial Tf.Rigid.one hg (rays := [r]) (by simpa using hu)
    (fun i j a b hij _ hb => by
      have : j < [r].length := (List.getElem?_eq_some_iff.1 hb).1
      simp at this
      omega) 0 r rfl
  exact ⟨g, p, hg, h1, h2⟩

/-- C39: without a bounding volume the cut sphere is the closed sphere. -/
theorem C39_uncut {R : ℝ} : (cutSphereGM R none : Except Err (Geometry ℝ E)) = sphereGM R := by
  unfold cutSphereGM sphereGM
  rfl

/-- C39 for single-ray bundles. -/
theorem C39_single {frame : Tf ℝ} (h : frame.Rigid) {R : ℝ} {g : Geometry ℝ E} (hg : hemisphereGM R = .ok g)
    {r : Ray ℝ E} (hu : r.dir.IsUnit) :
    ∃ p, g.find frame [r] = [p] ∧ FirstAmong (0 < ·) (Placed frame (hemisphereSet R)) r.vertex r.dir p := by
  obtain ⟨p, hp, hf⟩ := C39_hemisphere_partial h hg (rays := [r]) (by simpa using hu)
    (fun i j a b hij _ hb => by
      have : j < [r].length := (List.getElem?_eq_some_iff.1 hb).1
      simp at this
      omega) 0 r rfl
  refine ⟨p, ?_, hf⟩
  have hlen : (g.find frame [r]).length = 1 := by
    unfold hemisphereGM at hg
    split at hg
    · simp at hg
    · cases hg
      simp [quadricFind]
  match hl : g.find frame [r] with
  | [] => simp [hl] at hlen
  | [x] => rw [hl] at hp; simp at hp; rw [hp]
  | _ :: _ :: _ => simp [hl] at hlen

/-- Two rays on the axis of a unit hemisphere, one from above and one from below. -/
def Examples.axial : Bundle ℝ Unit := [⟨⟨0, 0, 2⟩, ⟨0, 0, -1⟩, 1, 0, none, ()⟩, ⟨⟨0, 0, -2⟩, ⟨0, 0, 1⟩, 1, 0, none, ()⟩]

theorem candidate_axial (z e : ℝ) (he : e ^ 2 = 1) (hz : z * e = -2) (hzz : z ^ 2 = 4) :
    candidate (sphereABC 1 1 ⟨0, 0, z⟩ ⟨0, 0, e⟩) ⟨0, 0, z⟩ ⟨0, 0, e⟩ =
      some ⟨1, 3, ⟨0, 0, z⟩ + (1 : ℝ) • ⟨0, 0, e⟩, ⟨0, 0, z⟩ + (3 : ℝ) • ⟨0, 0, e⟩⟩ := by
  have habc : sphereABC 1 1 ⟨0, 0, z⟩ ⟨0, 0, e⟩ = (1, -4, 3) := by
    unfold sphereABC
    simp only [Tf.one_loc, V3.sub_x, V3.sub_y, V3.sub_z, V3.zero_x, V3.zero_y, V3.zero_z]
    refine Prod.ext ?_ (Prod.ext ?_ ?_)
    · simp only; linarith
    · simp only; linarith
    · simp only; linarith
  rw [habc]
  unfold candidate
  simp only
  have hs : √((-4 : ℝ) ^ 2 - 4 * 1 * 3) = 2 := by
    rw [show ((-4 : ℝ) ^ 2 - 4 * 1 * 3) = 2 ^ 2 by norm_num, Real.sqrt_sq (by norm_num)]
  rw [hs, if_pos (by norm_num), if_neg (by unfold planarTol; norm_num)]
  norm_num

/-- C39 is false for mixed bundles: with both rays in one bundle each is given the other one's crossing,
and both answers are points of the sphere outside the hemisphere. -/
theorem C39_counterexample :
    ∃ g : Geometry ℝ Unit, hemisphereGM 1 = .ok g ∧
      g.find 1 Examples.axial = [((1 : ℝ) : WithTop ℝ), ((3 : ℝ) : WithTop ℝ)] ∧
      (∀ r ∈ Examples.axial, r.dir.IsUnit) ∧
      FirstAmong (0 < ·) (Placed 1 (hemisphereSet 1)) (⟨0, 0, 2⟩ : V3 ℝ) ⟨0, 0, -1⟩ ((3 : ℝ) : WithTop ℝ) ∧
      FirstAmong (0 < ·) (Placed 1 (hemisphereSet 1)) (⟨0, 0, -2⟩ : V3 ℝ) ⟨0, 0, 1⟩ ((1 : ℝ) : WithTop ℝ) := by
  have h1 := candidate_axial 2 (-1) (by norm_num) (by norm_num) (by norm_num)
  have h2 := candidate_axial (-2) 1 (by norm_num) (by norm_num) (by norm_num)
  have hinv : ∀ p : V3 ℝ, (1 : Tf ℝ).inv.point p = p := by
    intro p
    have := Tf.inv_point_point (t := (1 : Tf ℝ)) (M3.IsRotation.det_ne Tf.Rigid.one) p
    have e : (1 : Tf ℝ).point p = p := by unfold Tf.point; apply V3.ext <;> simp
    rwa [e] at this
  refine ⟨_, by unfold hemisphereGM setRadius; rw [if_neg (by norm_num)], ?_, ?_, ?_, ?_⟩
  · have hp2 : ∀ c : Cand, c.t0 = 1 → c.t1 = 3 → (decide (0 < c.t0), decide (0 < c.t1)) = (true, true) := by
      intro c h0 h1; simp [h0, h1]
    show quadricFind (sphereABC 1 1) (trimSelect nonzeroUT (hemisphereTest 1)) Examples.axial = _
    unfold quadricFind Examples.axial
    simp only [List.map_cons, List.map_nil, h1, h2, Option.isSome_some, List.filterMap_cons, id, List.filterMap_nil]
    have hsel : trimSelect nonzeroUT (hemisphereTest 1)
        [⟨1, 3, (⟨0, 0, 2⟩ : V3 ℝ) + (1 : ℝ) • ⟨0, 0, -1⟩, (⟨0, 0, 2⟩ : V3 ℝ) + (3 : ℝ) • ⟨0, 0, -1⟩⟩,
         ⟨1, 3, (⟨0, 0, -2⟩ : V3 ℝ) + (1 : ℝ) • ⟨0, 0, 1⟩, (⟨0, 0, -2⟩ : V3 ℝ) + (3 : ℝ) • ⟨0, 0, 1⟩⟩] =
        [some false, some true] := by
      unfold trimSelect hemisphereTest
      simp only [List.map_cons, List.map_nil, hinv, V3.add_z, V3.smul_z]
      norm_num
      simp [nonzeroUT, fill, defaultSelect_eq]
    rw [hsel]
    simp [Cand.choose]
  · intro r hr
    unfold Examples.axial at hr
    simp only [List.mem_cons, List.not_mem_nil, or_false] at hr
    rcases hr with rfl | rfl <;> · unfold V3.IsUnit V3.dot; norm_num
  · have hset : ∀ s : ℝ, Placed 1 (hemisphereSet 1) ((⟨0, 0, 2⟩ : V3 ℝ) + s • ⟨0, 0, -1⟩) ↔ s = 3 := by
      intro s
      rw [placed_iff (M3.IsRotation.det_ne Tf.Rigid.one), hinv]
      unfold hemisphereSet sphereSet
      simp only [V3.add_x, V3.add_y, V3.add_z, V3.smul_x, V3.smul_y, V3.smul_z]
      constructor
      · rintro ⟨h1, h2⟩; nlinarith
      · rintro rfl; norm_num
    exact ⟨by norm_num, (hset 3).2 rfl, fun s _ hs => le_of_eq ((hset s).1 hs).symm⟩
  · have hset : ∀ s : ℝ, Placed 1 (hemisphereSet 1) ((⟨0, 0, -2⟩ : V3 ℝ) + s • ⟨0, 0, 1⟩) ↔ s = 1 := by
      intro s
      rw [placed_iff (M3.IsRotation.det_ne Tf.Rigid.one), hinv]
      unfold hemisphereSet sphereSet
      simp only [V3.add_x, V3.add_y, V3.add_z, V3.smul_x, V3.smul_y, V3.smul_z]
      constructor
      · rintro ⟨h1, h2⟩; nlinarith
      · rintro rfl; norm_num
    exact ⟨by norm_num, (hset 1).2 rfl, fun s _ hs => le_of_eq ((hset s).1 hs).symm⟩

/-! Either ray alone is answered correctly. -/
example : ∃ g : Geometry ℝ Unit, hemisphereGM 1 = .ok g ∧
    ∃ p, g.find 1 [⟨⟨0, 0, 2⟩, ⟨0, 0, -1⟩, 1, 0, none, ()⟩] = [p] ∧
      FirstAmong (0 < ·) (Placed 1 (hemisphereSet 1)) (⟨0, 0, 2⟩ : V3 ℝ) ⟨0, 0, -1⟩ p := by
  obtain ⟨g, hg, _⟩ := C39_counterexample
  exact ⟨g, hg, C39_single Tf.Rigid.one hg (by unfold V3.IsUnit V3.dot; norm_num)⟩

end Tracer
