import Verif.Spec.Catalogue
import Verif.Props.Callables
import Verif.Spec.Receiver

/-!
# Receivers (C51), diffuse reflection (C53), dispersion (C54)
-/

set_option linter.unusedSectionVars false

namespace Tracer

open Real

section Accounting
variable {K E σ : Type _} [Field K] [LinearOrder K] [IsStrictOrderedRing K]

/-- What a call or a reset of a receiver does to the world `w`, in which `get`/`set` locate its memory (for
`AbsorptionAccountant` objects wrapping the callable `opt`). -/
def ReceiverOp.apply (a : K) (get : σ → Account K) (set : Account K → σ → σ) (opt : Optics σ K E) (w : σ) :
    ReceiverOp K E → Except Err σ
  | .reset => .ok (set Account.reset w)
  | .call up hits =>
    match accountant a get set opt w up hits with
    | .error e => .error e
    | .ok (_, w') => .ok w'

/-- The world after a history. -/
def runReceiver (a : K) (get : σ → Account K) (set : Account K → σ → σ) (opt : Optics σ K E) :
    σ → List (ReceiverOp K E) → Except Err σ
  | w, [] => .ok w
  | w, op :: ops =>
    match op.apply a get set opt w with
    | .error e => .error e
    | .ok w' => runReceiver a get set opt w' ops

/-- The wrapped callable leaves the receiver's memory alone. -/
def KeepsMemory (get : σ → Account K) (opt : Optics σ K E) : Prop :=
  ∀ w up hits out w', opt w up hits = .ok (out, w') → get w' = get w

theorem getAllHits_ok {acc : Account K} {hits : List (HitRec K E)} {a : K}
    (h1 : acc.absorbed.flatten = hits.map fun h => h.ray.energy * a)
    (h2 : acc.hits.flatten = hits.map HitRec.point) (hne : hits ≠ []) :
    acc.getAllHits = .ok (hits.map fun h => h.ray.energy * a, hits.map HitRec.point) := by
  have fl : ∀ {α : Type _} (l : List (List α)), (l.filter fun x => ! x.isEmpty).flatten = l.flatten := by
    intro α l
    induction l with
    | nil => rfl
    | cons x l ih => cases x <;> simp [ih]
  have n1 : acc.absorbed.flatten ≠ [] := by rw [h1]; simpa using hne
  have n2 : acc.hits.flatten ≠ [] := by rw [h2]; simpa using hne
  have e0 : acc.absorbed.isEmpty = false := by
    cases h : acc.absorbed with
    | nil => rw [h] at n1; simp at n1
    | cons => rfl
  have e1 : (acc.absorbed.filter fun l => ! l.isEmpty).isEmpty = false := by
    cases h : acc.absorbed.filter fun l => ! l.isEmpty with
    | nil => rw [← fl, h] at n1; simp at n1
    | cons => rfl
  have e2 : (acc.hits.filter fun l => ! l.isEmpty).isEmpty = false := by
    cases h : acc.hits.filter fun l => ! l.isEmpty with
    | nil => rw [← fl, h] at n2; simp at n2
    | cons => rfl
  unfold Account.getAllHits
  simp only [e0, e1, e2, Bool.false_eq_true, if_false, Bool.or_self, fl, h1, h2]

theorem run_memory {a : K} {get : σ → Account K} {set : Account K → σ → σ} {opt : Optics σ K E}
    (hgs : ∀ acc w, get (set acc w) = acc) (hk : KeepsMemory get opt) {ops : List (ReceiverOp K E)}
    {w w' : σ} {seen : List (HitRec K E)}
    (h1 : (get w).absorbed.flatten = seen.map fun h => h.ray.energy * a)
    (h2 : (get w).hits.flatten = seen.map HitRec.point)
    (h : runReceiver a get set opt w ops = .ok w') :
    (get w').absorbed.flatten = (hitsSinceReset.go ops seen).map (fun h => h.ray.energy * a) ∧
    (get w').hits.flatten = (hitsSinceReset.go ops seen).map HitRec.point := by
  induction ops generalizing w seen with
  | nil =>
    simp only [runReceiver, Except.ok.injEq] at h
    subst h
    exact ⟨h1, h2⟩
  | cons op ops ih =>
    unfold runReceiver at h
    cases op with
    | reset => exact ih (w := set Account.reset w) (seen := []) (by rw [hgs]; rfl) (by rw [hgs]; rfl) h
    | call up hits =>
      simp only [ReceiverOp.apply] at h
      split at h
      · cases h
      · rename_i w1 hw1
        split at hw1
        · cases hw1
        · rename_i out w2 hopt
          simp only [Except.ok.injEq] at hw1
          subst hw1
          have := hk _ _ _ _ _ hopt
          refine ih (seen := seen ++ hits) ?_ ?_ h
          · rw [this, hgs]; simp [h1]
          · rw [this, hgs]; simp [h2]

variable {a : K} {get : σ → Account K} {set : Account K → σ → σ} {opt : Optics σ K E} {ops : List (ReceiverOp K E)}
  {w0 w : σ}

/-- C51: after any history of calls and resets that begins with an empty memory, `get_all_hits` returns one
entry per ray received since the last reset, in order: its energy times the absorptivity, and its hit
point. -/
theorem C51_history (hgs : ∀ acc w, get (set acc w) = acc) (hk : KeepsMemory get opt)
    (h0 : get w0 = Account.reset) (h : runReceiver a get set opt w0 ops = .ok w) (hne : hitsSinceReset ops ≠ []) :
    (get w).getAllHits = .ok ((hitsSinceReset ops).map (fun h => h.ray.energy * a),
      (hitsSinceReset ops).map HitRec.point) := by
  have hgo : hitsSinceReset ops = hitsSinceReset.go ops [] := by cases ops <;> rfl
  rw [hgo] at hne ⊢
  obtain ⟨h1, h2⟩ := run_memory hgs hk (seen := []) (by rw [h0]; rfl) (by rw [h0]; rfl) h
  exact getAllHits_ok h1 h2 hne

/-- C51: right after a reset there is nothing to report. -/
theorem C51_reset (hgs : ∀ acc w, get (set acc w) = acc)
    (h : runReceiver a get set opt w0 (ops ++ [.reset]) = .ok w) : (get w).getAllHits = .ok ([], []) := by
  have : get w = Account.reset := by
    induction ops generalizing w0 with
    | nil => simp [runReceiver, ReceiverOp.apply] at h; rw [← h, hgs]
    | cons op ops ih =>
      simp only [List.cons_append, runReceiver] at h
      split at h
      · cases h
      · exact ih h
  rw [this]
  rfl

/-- C51 fails for a receiver that was called, but never with a ray: `get_all_hits` raises instead of reporting no
hits. (The engine does not call optics without hits.) -/
theorem C51_empty_calls_counterexample (up : V3 K) (hgs : ∀ acc w, get (set acc w) = acc) (hk : KeepsMemory get opt)
    (h0 : get w0 = Account.reset)
    (h : runReceiver a get set opt w0 [ReceiverOp.call up ([] : List (HitRec K E))] = .ok w) :
    hitsSinceReset [ReceiverOp.call up ([] : List (HitRec K E))] = [] ∧ (get w).getAllHits = .error .value := by
  refine ⟨rfl, ?_⟩
  simp only [runReceiver, ReceiverOp.apply] at h
  split at h
  · cases h
  · rename_i acc1 hacc
    split at hacc
    · cases hacc
    · rename_i out acc2 hopt
      have := hk _ _ _ _ _ hopt
      simp only [Except.ok.injEq] at hacc h
      subst hacc h
      rw [this, hgs, h0]
      rfl

/-- C51: receivers whose callable always answers (both kinds in the package) answer every history. -/
theorem C51_runs (hopt : ∀ w up hits, ∃ r, opt w up hits = .ok r) :
    ∃ w, runReceiver a get set opt w0 ops = .ok w := by
  induction ops generalizing w0 with
  | nil => exact ⟨w0, rfl⟩
  | cons op ops ih =>
    cases op with
    | reset => exact ih
    | call up hits =>
      obtain ⟨r, hr⟩ := hopt (set ⟨(get w0).absorbed ++ [hits.map fun h => h.ray.energy * a],
        (get w0).hits ++ [hits.map HitRec.point]⟩ w0) up hits
      obtain ⟨w, hw⟩ := ih (w0 := r.2)
      refine ⟨w, ?_⟩
      simp only [runReceiver, ReceiverOp.apply, accountant]
      rw [hr]
      exact hw

/-- C51 applies to `ReflectiveReceiver`. -/
theorem C51_reflective (a : K) (get : σ → Account K) :
    KeepsMemory get (reflective a : Optics σ K E) ∧
    ∀ w up hits, ∃ r, (reflective a : Optics σ K E) w up hits = .ok r := by
  constructor
  · intro w up hits out w' h
    simp only [reflective, Except.ok.injEq, Prod.mk.injEq] at h
    rw [h.2]
  · exact fun w up hits => ⟨_, rfl⟩

/-- C51: in every call, the energy absorbed and the energy going on sum to the energy received, ray by ray. -/
theorem C51_balance {w' : σ} {up : V3 K} {hits : List (HitRec K E)} {out : Bundle K E} (hgs : ∀ acc w, get (set acc w) = acc)
    (h : reflectiveReceiver a get set w up hits = .ok (out, w')) :
    ∃ absorbed, (get w').absorbed = (get w).absorbed ++ [absorbed] ∧
      (get w').hits = (get w).hits ++ [hits.map HitRec.point] ∧
      List.zipWith (· + ·) absorbed (out.map Ray.energy) = hits.map fun h => h.ray.energy := by
  simp only [reflectiveReceiver, accountant, reflective, Except.ok.injEq, Prod.mk.injEq] at h
  obtain ⟨h1, h2⟩ := h
  refine ⟨hits.map fun h => h.ray.energy * a, by rw [← h2, hgs], by rw [← h2, hgs], ?_⟩
  rw [← h1, List.map_map, zipWith_map_self]
  apply List.map_congr_left
  intro q _
  simp only [Function.comp_apply, reflectOne]
  ring

end Accounting

example : ∃ acc, runReceiver (1/2 : ℚ) id (fun x _ => x) (reflective (1/2)) Account.reset
      [.call ⟨0, 0, 1⟩ [⟨0, ⟨0, ⟨0, 0, -1⟩, 4, 0, none, ()⟩, ⟨0, 0, -1⟩, ⟨0, 0, 1⟩⟩], .reset,
       .call ⟨0, 0, 1⟩ [⟨0, ⟨0, ⟨0, 0, -1⟩, 6, 0, none, ()⟩, ⟨0, 0, -2⟩, ⟨0, 0, 1⟩⟩,
         ⟨1, ⟨0, ⟨0, 0, -1⟩, 8, 0, none, ()⟩, ⟨0, 0, -3⟩, ⟨0, 0, 1⟩⟩],
       .call ⟨0, 0, 1⟩ [⟨3, ⟨0, ⟨0, 0, -1⟩, 10, 0, none, ()⟩, ⟨0, 0, -4⟩, ⟨0, 0, 1⟩⟩]] = .ok acc ∧
    acc.getAllHits = .ok ([3, 4, 5], [⟨0, 0, -2⟩, ⟨0, 0, -3⟩, ⟨0, 0, -4⟩]) :=
  ⟨_, rfl, by decide +kernel⟩

/-! ### Lambertian surfaces -/

section Lambertian
variable {E σ : Type _}

theorem pillbox_half {x1 x2 : ℝ} (h0 : 0 ≤ x2) (h1 : x2 < 1) :
    (pillboxOne (π / 2) x1 x2).IsUnit ∧ 0 < (pillboxOne (π / 2) x1 x2).z := by
  have hs : √x2 < 1 := by rw [sqrt_lt' one_pos]; simpa using h1
  unfold pillboxOne
  simp only [sin_pi_div_two, one_mul]
  constructor
  · unfold V3.IsUnit V3.dot
    simp only
    have a := sin_sq_add_cos_sq x1
    have b := sin_sq_add_cos_sq (arcsin √x2)
    linear_combination sin (arcsin √x2) ^ 2 * a + b
  · apply cos_pos_of_mem_Ioo
    refine ⟨?_, arcsin_lt_pi_div_two.2 hs⟩
    have : 0 ≤ arcsin √x2 := arcsin_nonneg.2 (sqrt_nonneg _)
    linarith [pi_pos]

/-- C53: whatever the random numbers are, every selected ray gets one child with a unit direction on the side of the
(unit) normal, starting at the hit, with energy times (1 - absorptivity), the right parent and everything else
inherited. -/
theorem C53_lambertian {a : ℝ} {draw : Nat → σ → List (ℝ × ℝ) × σ} (hd : FairDraw draw) {w w' : σ} {up : V3 ℝ}
    {hits : List (HitRec ℝ E)} {out : Bundle ℝ E} (hu : ∀ h ∈ hits, h.normal.IsUnit)
    (h : lambertian a draw w up hits = .ok (out, w')) :
    List.Forall₂ (fun h r => r.dir.IsUnit ∧ 0 < V3.dot r.dir h.normal ∧ r.vertex = h.point ∧
      r.energy = h.ray.energy * (1 - a) ∧ r.parent = h.idx ∧ r.ref = h.ray.ref ∧ r.extra = h.ray.extra) hits out := by
  simp only [lambertian, Except.ok.injEq, Prod.mk.injEq] at h
  obtain ⟨hlen, hrange⟩ := hd hits.length w
  rw [← h.1]
  generalize (draw hits.length w).1 = ds at *
  clear h
  unfold pillbox
  induction hits generalizing ds with
  | nil => simp
  | cons q hits ih =>
    cases ds with
    | nil => simp at hlen
    | cons d ds =>
      simp only [List.map_cons, List.zipWith_cons_cons]
      refine .cons ?_ (ih (fun h hh => hu h (List.mem_cons_of_mem _ hh)) _ (by simpa using hlen)
        (fun d hd => hrange d (List.mem_cons_of_mem _ hd)))
      obtain ⟨p1, p2⟩ := hrange d (by simp)
      obtain ⟨u1, u2⟩ := pillbox_half (x1 := d.1) p1 p2
      obtain ⟨r1, r2, _⟩ := C27_rotation_to_z (hu q (by simp))
      generalize pillboxOne (π / 2) d.1 d.2 = v at *
      have r3 := r1
      rw [M3.isRotation_iff] at r3
      refine ⟨?_, ?_, rfl, rfl, rfl, rfl, rfl⟩
      · unfold V3.IsUnit at *
        rw [r1.dot]; exact u1
      · have : V3.dot ((rotationToZ q.normal).mulVec v) q.normal = v.z := by
          have e : q.normal = (rotationToZ q.normal).mulVec ⟨0, 0, 1⟩ := by
            conv_lhs => rw [← r2]
            apply V3.ext <;> simp
          calc V3.dot ((rotationToZ q.normal).mulVec v) q.normal
              = V3.dot ((rotationToZ q.normal).mulVec v) ((rotationToZ q.normal).mulVec ⟨0, 0, 1⟩) := by rw [← e]
            _ = v.z := by rw [r1.dot]; simp [V3.dot]
        rw [this]; exact u2

/-- C53: the callable always answers, with one child per hit. -/
theorem C53_answers (a : ℝ) (draw : Nat → σ → List (ℝ × ℝ) × σ) (w : σ) (up : V3 ℝ) (hits : List (HitRec ℝ E)) :
    ∃ out, lambertian a draw w up hits = .ok (out, (draw hits.length w).2) := ⟨_, rfl⟩

/-- C51 applies to `LambertianReceiver`, if drawing random numbers does not touch its memory. -/
theorem C51_lambertian (a : ℝ) (get : σ → Account ℝ) (draw : Nat → σ → List (ℝ × ℝ) × σ)
    (hd : ∀ n w, get (draw n w).2 = get w) :
    KeepsMemory get (lambertian a draw : Optics σ ℝ E) ∧
    ∀ w up hits, ∃ r, (lambertian a draw : Optics σ ℝ E) w up hits = .ok r := by
  constructor
  · intro w up hits out w' h
    simp only [lambertian, Except.ok.injEq, Prod.mk.injEq] at h
    rw [← h.2, hd]
  · exact fun w up hits => ⟨_, rfl⟩

example : FairDraw (σ := Unit) fun n w => (List.replicate n (1, 1/2), w) := by
  intro n w
  refine ⟨by simp, ?_⟩
  intro d hd
  rw [List.eq_of_mem_replicate hd]
  norm_num

end Lambertian

/-! ### Hartmann's formula -/

/-- C54 is false of the code: it leaves out the last term. -/
theorem C54_counterexample :
    ∃ L a b c d e : ℚ, c ≠ L ∧ e ≠ L ∧ refrIdxHartmann L a b c d e ≠ a + b / (c - L) + d / (e - L) :=
  ⟨0, 1, 1, 1, 1, 1, by norm_num, by norm_num, by norm_num [refrIdxHartmann]⟩

/-- C54 holds exactly for materials whose last term is zero.  Missing: the term itself. -/
theorem C54_partial {K : Type _} [Field K] [LinearOrder K] (L a b c d e : K) (he : e ≠ L) :
    refrIdxHartmann L a b c d e = a + b / (c - L) + d / (e - L) ↔ d = 0 := by
  unfold refrIdxHartmann
  have : e - L ≠ 0 := sub_ne_zero.2 he
  constructor
  · intro h
    have h0 : d / (e - L) = 0 := by linear_combination -h
    rcases div_eq_zero_iff.1 h0 with h | h
    · exact h
    · exact absurd h this
  · rintro rfl; simp

/-- Scattering by a receiver whose draws are fair. -/
example (up : V3 ℝ) : ∃ out, lambertian (1/4) (fun n (w : Unit) => (List.replicate n (1, 1/2), w)) () up
      [⟨0, ⟨0, ⟨0, 0, -1⟩, 4, 0, none, ()⟩, ⟨0, 0, -1⟩, ⟨0, 0, 1⟩⟩] = .ok (out, ()) ∧
    List.Forall₂ (fun (h : HitRec ℝ Unit) r => r.dir.IsUnit ∧ 0 < V3.dot r.dir h.normal ∧ r.vertex = h.point ∧
      r.energy = h.ray.energy * (1 - 1/4) ∧ r.parent = h.idx ∧ r.ref = h.ray.ref ∧ r.extra = h.ray.extra)
      [⟨0, ⟨0, ⟨0, 0, -1⟩, 4, 0, none, ()⟩, ⟨0, 0, -1⟩, ⟨0, 0, 1⟩⟩] out := by
  obtain ⟨⟨out, _⟩, h⟩ := (C51_lambertian (E := Unit) (1/4) (fun _ : Unit => Account.reset) (fun n w => (List.replicate n (1, 1/2), w))
    (fun _ _ => rfl)).2 () up [⟨0, ⟨0, ⟨0, 0, -1⟩, 4, 0, none, ()⟩, ⟨0, 0, -1⟩, ⟨0, 0, 1⟩⟩]
  refine ⟨out, h, C53_lambertian (draw := fun n w => (List.replicate n (1, 1/2), w)) ?_ ?_ h⟩
  · intro n w
    refine ⟨by simp, ?_⟩
    intro d hd
    rw [List.eq_of_mem_replicate hd]
    norm_num
  · intro q hq
    rw [List.mem_singleton] at hq
    subst hq
    norm_num [V3.IsUnit, V3.dot]

end Tracer
