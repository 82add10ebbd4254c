import Verif.Lemmas.SphereLeak
import Verif.Lemmas.Binary64
import Verif.Spec.Arithmetic
import Verif.Props.Rounded
import Verif.Props.Cavity

/-!
# A hollow sphere in floating-point arithmetic (C100)

With exact numbers a hollow spherical mirror keeps its light for ever (C90).  With rounded numbers it need not.
-/

namespace Tracer

open Real

variable {E σ : Type _}

/-! ### Without rounding the rounded models are the models of the other files -/

theorem rounded_id (v : V3 ℝ) : v.rounded (fun x => x) = v := rfl

theorem flReflection_id (d n : V3 ℝ) : flReflection (fun x => x) d n = reflection d n := by
  simp [flReflection, flDot, reflection, rounded_id, V3.dot]

theorem unit_id (n : V3 ℝ) : (⟨n.x / √(flDot (fun x => x) n n), n.y / √(flDot (fun x => x) n n), n.z / √(flDot (fun x => x) n n)⟩ : V3 ℝ) =
    (1 / √(n.x ^ 2 + n.y ^ 2 + n.z ^ 2)) • n := by
  unfold flDot
  simp only [← pow_two]
  apply V3.ext <;> simp only [V3.smul_x, V3.smul_y, V3.smul_z] <;> ring

/-- C98: `flMirror` without rounding is the mirror of the exact model. -/
theorem C98_exact (a : ℝ) (F : Tf ℝ) : (flMirror (fun x => x) a F : Surf σ ℝ E) = mkSurf flatGM (reflective a) F := by
  have hp : ∀ v d, flFlatParam (fun x => x) F v d = flatParam F v d := by
    intro v d
    simp [flFlatParam, flatParam, flDt, flDot, rounded_id, V3.dot]
  have hc : ∀ (rays : Bundle ℝ E) sel, flChildren (fun x => x) a F rays sel =
      match hitRecs flatGM F rays sel with
      | .error e => .error e
      | .ok recs => .ok (recs.map (reflectOne a)) := by
    intro rays sel
    induction sel with
    | nil => rfl
    | cons i sel ih =>
      unfold flChildren hitRecs
      have hf : ((flatGM : Geometry ℝ E).find F rays)[i]? = rays[i]?.map fun r => flatParam F r.vertex r.dir := by simp [flatGM]
      rw [hf]
      cases h : rays[i]? with
      | none => rfl
      | some r =>
        simp only [Option.map_some, hp]
        cases ht : flatParam F r.vertex r.dir with
        | top => rfl
        | coe t =>
          simp only [ih]
          cases hitRecs flatGM F rays sel with
          | error e => rfl
          | ok recs =>
            simp only [List.map_cons]
            congr 2
  unfold flMirror mkSurf
  congr 1
  · funext w rays sel
    rw [hc]
    cases hitRecs flatGM F rays sel <;> rfl

/-- C100: `flSphere` without rounding is the spherical mirror of the exact model. -/
theorem C100_exact {R : ℝ} {g : Geometry ℝ E} (hg : sphereGM R = .ok g) (a : ℝ) (F : Tf ℝ) :
    (flSphere (fun x => x) R a F : Surf σ ℝ E) = mkSurf g (reflective a) F := by
  have hR : 0 < R := (sphere_normal hg).2
  have hg' : g = ⟨fun frame rays => quadricFind (sphereABC R frame) defaultSelect rays, sphereNormal⟩ := by
    unfold sphereGM setRadius at hg
    rw [if_neg (not_le.2 hR)] at hg
    exact (Except.ok.inj hg).symm
  have habc : ∀ v d, flSphereABC (fun x => x) R F v d = sphereABC R F v d := by
    intro v d
    simp [flSphereABC, sphereABC, flDot, rounded_id, pow_two]
  have hcand : ∀ v d, flCandidate (fun x => x) (sphereABC R F v d) v d = candidate (sphereABC R F v d) v d := by
    intro v d; rfl
  have hfind : ∀ rays, g.find F rays = rays.map fun r => chosenParam defaultPick (candidate (sphereABC R F r.vertex r.dir) r.vertex r.dir) := by
    intro rays
    rw [hg']
    exact quadricFind_map _ defaultSelect_eq rays
  have hhit : ∀ v d : V3 ℝ, chosenParam defaultPick (candidate (sphereABC R F v d) v d) =
      (match flSphereHit (fun x => x) R F v d with
        | none => ⊤
        | some (t, _) => (t : WithTop ℝ)) ∧ ∀ t p, flSphereHit (fun x => x) R F v d = some (t, p) → p = v + t • d := by
    intro v d
    unfold flSphereHit
    rw [habc, hcand]
    cases hk : candidate (sphereABC R F v d) v d with
    | none => exact ⟨rfl, fun t p h => by simp at h⟩
    | some c =>
      have hpp : c.p0 = v + c.t0 • d ∧ c.p1 = v + c.t1 • d := by
        unfold candidate at hk
        simp only at hk
        split at hk
        · split at hk
          · split at hk
            · cases hk
            · cases hk; exact ⟨rfl, rfl⟩
          · cases hk; exact ⟨rfl, rfl⟩
        · cases hk
      by_cases h0 : 0 < c.t0
      · simp only [chosenParam, defaultPick, h0, decide_true, if_true]
        constructor
        · cases decide (0 < c.t1) <;> rfl
        · rintro t p h
          cases h
          exact hpp.1
      · by_cases h1 : 0 < c.t1
        · simp only [chosenParam, defaultPick, h0, h1, decide_true, decide_false, if_true, if_false]
          refine ⟨rfl, ?_⟩
          rintro t p h
          cases h
          exact hpp.2
        · simp only [chosenParam, defaultPick, h0, h1, decide_false, if_false]
          exact ⟨rfl, fun t p h => by cases h⟩
  have hnorm : ∀ p d, flSphereNormal (fun x => x) F p d = g.normal F p d := by
    intro p d
    rw [hg']
    exact unit_id _
  have hc : ∀ (rays : Bundle ℝ E) sel, flSphereChildren (fun x => x) R a F rays sel =
      match hitRecs g F rays sel with
      | .error e => .error e
      | .ok recs => .ok (recs.map (reflectOne a)) := by
    intro rays sel
    induction sel with
    | nil => rfl
    | cons i sel ih =>
      unfold flSphereChildren hitRecs
      rw [hfind rays, List.getElem?_map]
      cases h : rays[i]? with
      | none => rfl
      | some r =>
        obtain ⟨h1, h2⟩ := hhit r.vertex r.dir
        simp only [Option.map_some, h1]
        cases hs : flSphereHit (fun x => x) R F r.vertex r.dir with
        | none => rfl
        | some tp =>
          obtain ⟨t, p⟩ := tp
          have hp := h2 t p hs
          simp only [ih]
          cases hitRecs g F rays sel with
          | error e => rfl
          | ok recs =>
            simp only [List.map_cons]
            congr 2
            simp only [flSphereOne, reflectOne, flReflection_id, hnorm, hp]
            rfl
  unfold flSphere mkSurf
  congr 1
  · funext rays
    rw [hfind]
    apply List.map_congr_left
    intro r _
    exact (hhit r.vertex r.dir).1.symm
  · funext w rays sel
    rw [hc]
    cases hitRecs g F rays sel <;> rfl

/-! ### The light gets out -/

/-- A ray from the centre (1, 0, 0) along the x axis. -/
noncomputable def centreRay [Inhabited E] : Ray ℝ E := ⟨⟨1, 0, 0⟩, ⟨1, 0, 0⟩, 1, 0, none, default⟩

/-- C100 fails: a hollow spherical mirror of radius 0.1 about (1, 0, 0) that absorbs nothing, in double precision, loses the light of a source
in its centre after one reflection, however long the trace may go on. -/
theorem C100_keeps_fails [Inhabited E] (w : σ) (reps : Nat) :
    ∃ res, rayTracer (lone (flSphere binary64 tenth 0 ⟨1, ⟨1, 0, 0⟩⟩)) w [(centreRay : Ray ℝ E)] (reps + 2) 0 true = .ok res ∧
      res.vertices = [] ∧ ∃ r : Ray ℝ E, res.tree = [[centreRay], [r]] ∧ r.energy = 1 ∧ r.dir = ⟨-1, 0, 0⟩ := by
  have hT : (0 : ℝ) < tenth := by unfold tenth; norm_num
  obtain ⟨h1, h2⟩ := sphere_first (R := tenth) binary64_zero fl_one fl_neg_one fl_two fl_four fl_R fl_Q fl_4Q fl_4Q' fl_s fl_s' fl_ns fl_t0 fl_t1 fl_tenth fl_hit
    fl_w fl_nw fl_nw' fl_W fl_W' fl_len (by norm_num) hT (by norm_num)
  obtain ⟨p, h3⟩ := sphere_second (R := tenth) binary64_zero fl_one fl_two fl_four fl_R fl_s fl_w fl_nw' fl_2w fl_W fl_W' fl_C fl_4W fl_4C fl_D2 fl_y fl_t
    (by norm_num) (by norm_num)
  let s : Surf σ ℝ E := flSphere binary64 tenth 0 ⟨1, ⟨1, 0, 0⟩⟩
  let r1 : Ray ℝ E := flSphereOne binary64 0 ⟨1, ⟨1, 0, 0⟩⟩ 0 centreRay ⟨4953959590107546 / 2 ^ 52, 0, 0⟩
  have hd1 : r1.dir = ⟨-1, 0, 0⟩ := h2
  have he1 : r1.energy = 1 := by
    show binary64 (1 * binary64 (1 - 0)) = 1
    rw [sub_zero, fl_one, one_mul, fl_one]
  have hp1 : flSphereHit binary64 tenth ⟨1, ⟨1, 0, 0⟩⟩ (centreRay : Ray ℝ E).vertex (centreRay : Ray ℝ E).dir = some (tenth, ⟨4953959590107546 / 2 ^ 52, 0, 0⟩) := h1
  have hp2 : flSphereHit binary64 tenth ⟨1, ⟨1, 0, 0⟩⟩ r1.vertex r1.dir = some (3 / 2 ^ 55, p) := by rw [hd1]; exact h3
  have s1 := lone_step (s := s) (w := w) (w' := w) (r := centreRay) (c := r1) (minE := 0) (flSphere_one hp1 w).1 (by unfold tenth; norm_num)
    (flSphere_one hp1 w).2 rfl (by rw [he1]; norm_num)
  have s2 := lone_drop (s := s) (w := w) (r := r1) (minE := 0) (flSphere_one (a := 0) hp2 w).1 (by norm_num) (by norm_num)
  have hrun : rayTracer (lone s) w [(centreRay : Ray ℝ E)] (reps + 2) 0 true = .ok ⟨[], [], [[centreRay], [r1]], w⟩ := by
    have hs : getSurfaces (lone s) = .ok [s] := rfl
    have hi : initState (lone s) [(centreRay : Ray ℝ E)] w = ⟨[centreRay], [none], [[true]], w⟩ := rfl
    unfold rayTracer
    simp only [hs, hi, traceLoop, s1, s2]
    rfl
  exact ⟨_, hrun, rfl, r1, rfl, he1, hd1⟩

/-! ### When it does not get out -/

/-- C100: double precision is an arithmetic of the kind considered here. -/
theorem C100_binary64 : Arithmetic binary64 :=
  ⟨binary64_mono, binary64_idem, binary64_zero, binary64_neg, binary64_twice, binary64_sqrt_sq⟩

theorem flSphereHit_inside {fl : ℝ → ℝ} (ha : Arithmetic fl) {R : ℝ} {F : Tf ℝ} {v d : V3 ℝ}
    (hout : flDot fl ((v - F.loc).rounded fl) ((v - F.loc).rounded fl) ≤ fl (R ^ 2)) (hA : 1 / 10 ^ 10 < flDot fl d d)
    (hin : 0 < fl (-(2 * flDot fl d ((v - F.loc).rounded fl)) / flDot fl d d)) :
    ∃ t, flSphereHit fl R F v d = some (t, flHit fl v d t) ∧ fl (-(2 * flDot fl d ((v - F.loc).rounded fl)) / flDot fl d d) ≤ t := by
  have hrep : ∀ a b, fl (flDot fl a b) = flDot fl a b := fun a b => ha.idem _
  have habc : flSphereABC fl R F v d = (flDot fl d d, fl (2 * flDot fl d ((v - F.loc).rounded fl)),
      fl (flDot fl ((v - F.loc).rounded fl) ((v - F.loc).rounded fl) - fl (R ^ 2))) := rfl
  rw [ha.twice (hrep _ _)] at habc
  have hC : fl (flDot fl ((v - F.loc).rounded fl) ((v - F.loc).rounded fl) - fl (R ^ 2)) ≤ 0 := by
    have := ha.mono (sub_nonpos.2 hout); rwa [ha.zero] at this
  generalize fl (flDot fl ((v - F.loc).rounded fl) ((v - F.loc).rounded fl) - fl (R ^ 2)) = C at *
  have hrA := hrep d d
  have hrB : fl (2 * flDot fl d ((v - F.loc).rounded fl)) = 2 * flDot fl d ((v - F.loc).rounded fl) := ha.twice (hrep _ _)
  generalize flDot fl d d = A at *
  generalize 2 * flDot fl d ((v - F.loc).rounded fl) = B at *
  have hA0 : 0 < A := lt_trans (by norm_num) hA
  have hB : B < 0 := by
    by_contra h
    have : fl (-B / A) ≤ fl 0 := ha.mono (div_nonpos_of_nonpos_of_nonneg (by linarith) hA0.le)
    rw [ha.zero] at this
    linarith
  have h4 : 0 ≤ fl (4 * A) := by
    have := ha.mono (show (0 : ℝ) ≤ 4 * A by linarith); rwa [ha.zero] at this
  have h5 : fl (fl (4 * A) * C) ≤ 0 := by
    have := ha.mono (mul_nonpos_of_nonneg_of_nonpos h4 hC); rwa [ha.zero] at this
  have h6 : fl (B ^ 2) ≤ fl (fl (B ^ 2) - fl (fl (4 * A) * C)) := by
    have := ha.mono (show fl (B ^ 2) ≤ fl (B ^ 2) - fl (fl (4 * A) * C) by linarith)
    rwa [ha.idem] at this
  have h7 : 0 ≤ fl (B ^ 2) := by
    have := ha.mono (sq_nonneg B); rwa [ha.zero] at this
  have h8 : -B ≤ fl √(fl (fl (B ^ 2) - fl (fl (4 * A) * C))) := by
    have := ha.mono (Real.sqrt_le_sqrt h6)
    rw [ha.root hrB, abs_of_neg hB] at this
    exact this
  have h2A : fl (2 * A) = 2 * A := ha.twice hrA
  unfold flSphereHit
  rw [habc]
  unfold flCandidate
  simp only
  rw [if_pos (h7.trans h6), if_neg (show ¬ A ≤ planarTol from not_le.2 hA)]
  generalize fl √(fl (fl (B ^ 2) - fl (fl (4 * A) * C))) = s at *
  have h9 : fl (fl (-B + -1 * s) / fl (2 * A)) ≤ 0 := by
    have a1 : fl (-B + -1 * s) ≤ 0 := by
      have := ha.mono (show -B + -1 * s ≤ 0 by linarith); rwa [ha.zero] at this
    have := ha.mono (div_nonpos_of_nonpos_of_nonneg a1 (by rw [h2A]; linarith : 0 ≤ fl (2 * A)))
    rwa [ha.zero] at this
  have h10 : fl (-B / A) ≤ fl (fl (-B + 1 * s) / fl (2 * A)) := by
    apply ha.mono
    have a1 : 2 * -B ≤ fl (-B + 1 * s) := by
      have := ha.mono (show 2 * -B ≤ -B + 1 * s by linarith)
      rwa [ha.twice (ha.neg hrB)] at this
    rw [h2A, div_le_div_iff₀ hA0 (by linarith)]
    nlinarith
  simp only
  rw [if_neg (not_lt.2 h9), if_pos (hin.trans_le h10)]
  exact ⟨_, rfl, h10⟩

/-- C100 (the part that holds): light that is computed to be not outside the sphere and to go inwards, far enough for the engine's tolerance, is not
lost: it is reflected, from where the farther crossing is computed.  Missing: that it stays so after the reflection (`C100_keeps_fails`). -/
theorem C100_kept_partial {fl : ℝ → ℝ} (ha : Arithmetic fl) {R a minE : ℝ} {F : Tf ℝ} {r : Ray ℝ E} (w : σ)
    (hout : flDot fl ((r.vertex - F.loc).rounded fl) ((r.vertex - F.loc).rounded fl) ≤ fl (R ^ 2)) (hA : 1 / 10 ^ 10 < flDot fl r.dir r.dir)
    (hin : 1 / 10 ^ 10 < fl (-(2 * flDot fl r.dir ((r.vertex - F.loc).rounded fl)) / flDot fl r.dir r.dir))
    (hE : minE < fl (r.energy * fl (1 - a))) :
    ∃ res c t, rayTracer (lone (flSphere fl R a F)) w [r] 1 minE true = .ok res ∧ res.tree = [[r], [c]] ∧
      fl (-(2 * flDot fl r.dir ((r.vertex - F.loc).rounded fl)) / flDot fl r.dir r.dir) ≤ t ∧
      c.vertex = flHit fl r.vertex r.dir t ∧ c.energy = fl (r.energy * fl (1 - a)) ∧
      c.dir = flReflection fl r.dir (flSphereNormal fl F c.vertex r.dir) := by
  obtain ⟨t, h1, h2⟩ := flSphereHit_inside ha hout hA (lt_trans (by norm_num) hin)
  let s : Surf σ ℝ E := flSphere fl R a F
  let c : Ray ℝ E := flSphereOne fl a F 0 r (flHit fl r.vertex r.dir t)
  have s1 := lone_step (s := s) (w := w) (w' := w) (r := r) (c := c) (minE := minE) (flSphere_one h1 w).1 (hin.trans_le h2) (flSphere_one h1 w).2 rfl hE
  refine ⟨⟨[c.vertex], [c.dir], [[r], [c]], w⟩, c, t, ?_, rfl, h2, rfl, rfl, rfl⟩
  have hs : getSurfaces (lone s) = .ok [s] := rfl
  have hi : initState (lone s) [r] w = ⟨[r], [none], [[true]], w⟩ := rfl
  unfold rayTracer
  simp only [s] at hs hi s1
  simp only [hs, hi, traceLoop, s1]
  rfl

/-! ### The hypotheses can be met -/

/-- Exact arithmetic is one as well. -/
example : Arithmetic fun x => x := ⟨id, fun _ => rfl, rfl, fun _ => rfl, fun _ => rfl, fun _ => Real.sqrt_sq_eq_abs _⟩

/-- In double precision: from (1/2, 0, 0) through the centre of the unit sphere. -/
example (w : σ) : ∃ res c, rayTracer (lone (flSphere binary64 1 0 1)) w [(⟨⟨1 / 2, 0, 0⟩, ⟨-1, 0, 0⟩, 1, 0, none, ()⟩ : Ray ℝ Unit)] 1 0 true = .ok res ∧
    res.tree = [[⟨⟨1 / 2, 0, 0⟩, ⟨-1, 0, 0⟩, 1, 0, none, ()⟩], [c]] := by
  have f2 : binary64 (1 / 2) = 1 / 2 := by
    have := binary64_rep 1 (-1) (by norm_num); norm_num [zpow_neg] at this ⊢; exact this
  have f4 : binary64 (1 / 4) = 1 / 4 := by
    have := binary64_rep 1 (-2) (by norm_num); norm_num [zpow_neg] at this ⊢; exact this
  have fn2 := binary64_neg f2
  have hw : ((⟨1 / 2, 0, 0⟩ : V3 ℝ) - (1 : Tf ℝ).loc).rounded binary64 = ⟨1 / 2, 0, 0⟩ := by
    show V3.mk (binary64 (1 / 2 - 0)) (binary64 (0 - 0)) (binary64 (0 - 0)) = _
    rw [sub_zero, sub_zero, f2, binary64_zero]
  have d1 : flDot binary64 ⟨1 / 2, 0, 0⟩ ⟨1 / 2, 0, 0⟩ = 1 / 4 := by
    unfold flDot
    simp only [mul_zero, binary64_zero, add_zero]
    rw [show (1 / 2 * (1 / 2) : ℝ) = 1 / 4 by norm_num, f4, f4, f4]
  have d2 : flDot binary64 ⟨-1, 0, 0⟩ ⟨-1, 0, 0⟩ = 1 := by
    unfold flDot
    simp only [mul_zero, binary64_zero, add_zero]
    rw [show (-1 * -1 : ℝ) = 1 by norm_num, fl_one, fl_one, fl_one]
  have d3 : flDot binary64 ⟨-1, 0, 0⟩ ⟨1 / 2, 0, 0⟩ = -(1 / 2) := by
    unfold flDot
    simp only [mul_zero, binary64_zero, add_zero]
    rw [show (-1 * (1 / 2) : ℝ) = -(1 / 2) by norm_num, fn2, fn2, fn2]
  obtain ⟨res, c, t, h1, h2, _⟩ := C100_kept_partial (σ := σ) (E := Unit) C100_binary64 (R := 1) (a := 0) (minE := 0) (F := 1)
    (r := ⟨⟨1 / 2, 0, 0⟩, ⟨-1, 0, 0⟩, 1, 0, none, ()⟩) w
    (by rw [hw, d1, one_pow, fl_one]; norm_num) (by rw [d2]; norm_num)
    (by rw [hw, d2, d3, show (-(2 * -(1 / 2)) / 1 : ℝ) = 1 by norm_num, fl_one]; norm_num)
    (by rw [sub_zero, fl_one, one_mul, fl_one]; norm_num)
  exact ⟨res, c, h1, h2⟩

/-- The ray of `C100_keeps_fails` with exact numbers: it is reflected as often as the trace is long. -/
example (w : σ) (reps : Nat) : ∃ res, rayTracer (lone (flSphere (fun x => x) tenth 0 ⟨1, ⟨1, 0, 0⟩⟩)) w [(centreRay : Ray ℝ Unit)] reps 0 true = .ok res ∧
    ∀ k < reps, ((res.tree[k + 1]?).getD []).length = 1 := by
  have hT : (0 : ℝ) < tenth := by unfold tenth; norm_num
  obtain ⟨g, hg⟩ := (C34_constructor (E := Unit) tenth).1 hT
  have hF : (⟨1, ⟨1, 0, 0⟩⟩ : Tf ℝ).Rigid := by
    unfold Tf.Rigid; rw [M3.isRotation_iff]; unfold M3.det V3.dot V3.cross; norm_num
  rw [C100_exact hg]
  obtain ⟨res, h1, h2⟩ := C90_cavity (a := 0) hg hF (Or.inl rfl) w (b := [(centreRay : Ray ℝ Unit)]) (by
    intro r hr
    rw [List.mem_singleton] at hr
    subst hr
    refine ⟨by norm_num [V3.IsUnit, V3.dot, centreRay], ?_, ?_, by norm_num⟩
    · simp [V3.dist2, V3.dot, centreRay]; positivity
    · have : wayToWall tenth ⟨1, 0, 0⟩ (centreRay : Ray ℝ Unit) = tenth := by
        simp [wayToWall, halfChord, missSq, centreRay, V3.dot, V3.cross, hT.le]
      rw [this]; unfold tenth; norm_num) reps 0
  refine ⟨res, h1, fun k hk => ?_⟩
  have := (h2 k hk).length_eq
  rw [List.length_map, List.length_map] at this
  rw [this]
  have hs : stillTraced 0 0 k (centreRay : Ray ℝ Unit) = true := by
    simp [stillTraced, centreRay]
  simp [hs]

end Tracer
