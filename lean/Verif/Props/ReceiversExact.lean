import Verif.Props.Receivers

/-! # What `get_all_hits` answers after every history (C51) -/

set_option linter.unusedSectionVars false

namespace Tracer

variable {K E σ : Type _} [Field K] [LinearOrder K] [IsStrictOrderedRing K]

/-- The number of calls since the last reset. -/
def callsSinceReset : List (ReceiverOp K E) → Nat :=
  List.foldl (fun n op => match op with
    | .call _ _ => n + 1
    | .reset => 0) 0

theorem run_calls {a : K} {get : σ → Account K} {set : Account K → σ → σ} {opt : Optics σ K E}
    (hgs : ∀ acc w, get (set acc w) = acc) (hk : KeepsMemory get opt) {ops : List (ReceiverOp K E)}
    {w w' : σ} {n : Nat} (h1 : (get w).absorbed.length = n)
    (h : runReceiver a get set opt w ops = .ok w') :
    (get w').absorbed.length = ops.foldl (fun n op => match op with
      | .call _ _ => n + 1
      | .reset => 0) n := by
  induction ops generalizing w n with
  | nil =>
    simp only [runReceiver, Except.ok.injEq] at h
    subst h
    exact h1
  | cons op ops ih =>
    unfold runReceiver at h
    cases op with
    | reset => exact ih (w := set Account.reset w) (n := 0) (by rw [hgs]; rfl) h
    | call up hits =>
      simp only [ReceiverOp.apply] at h
      split at h
      · cases h
      · rename_i w1 hw1
        split at hw1
        · cases hw1
        · rename_i out w2 hopt
          simp only [Except.ok.injEq] at hw1
          subst hw1
          have := hk _ _ _ _ _ hopt
          refine ih (n := n + 1) ?_ h
          rw [this, hgs]
          simp [h1]

variable {a : K} {get : σ → Account K} {set : Account K → σ → σ} {opt : Optics σ K E} {ops : List (ReceiverOp K E)}
  {w0 w : σ}

/-- C51, exactly: after any history of calls and resets that begins with an empty memory, `get_all_hits` reports nothing if there
was no call since the last reset, raises `ValueError` if there were calls but no rays, and otherwise returns one entry per ray
received since the last reset, in order. -/
theorem C51_exact (hgs : ∀ acc w, get (set acc w) = acc) (hk : KeepsMemory get opt)
    (h0 : get w0 = Account.reset) (h : runReceiver a get set opt w0 ops = .ok w) :
    (callsSinceReset ops = 0 → (get w).getAllHits = .ok ([], [])) ∧
    (0 < callsSinceReset ops → hitsSinceReset ops = [] → (get w).getAllHits = .error .value) ∧
    (hitsSinceReset ops ≠ [] → (get w).getAllHits = .ok ((hitsSinceReset ops).map (fun h => h.ray.energy * a),
      (hitsSinceReset ops).map HitRec.point)) := by
  have hc := run_calls hgs hk (n := 0) (by rw [h0]; rfl) h
  obtain ⟨h1, h2⟩ := run_memory hgs hk (seen := []) (by rw [h0]; rfl) (by rw [h0]; rfl) h
  have hgo : hitsSinceReset ops = hitsSinceReset.go ops [] := by cases ops <;> rfl
  refine ⟨fun hz => ?_, fun hp he => ?_, C51_history hgs hk h0 h⟩
  · unfold callsSinceReset at hz
    rw [hz] at hc
    unfold Account.getAllHits
    rw [List.eq_nil_of_length_eq_zero hc]
    rfl
  · rw [hgo] at he
    rw [he] at h1
    have hne : (get w).absorbed ≠ [] := by
      intro h3
      rw [h3] at hc
      unfold callsSinceReset at hp
      rw [← hc] at hp
      simp at hp
    have hfil : (get w).absorbed.filter (fun l => ! l.isEmpty) = [] := by
      rw [List.filter_eq_nil_iff]
      intro l hl
      have := List.flatten_eq_nil_iff.1 h1 l hl
      simp [this]
    unfold Account.getAllHits
    have e0 : (get w).absorbed.isEmpty = false := by simpa using hne
    simp only [e0, hfil, Bool.false_eq_true, if_false, List.isEmpty_nil, Bool.true_or, if_true]

/-- C51: `get_all_hits` raises exactly after calls of which none since the last reset had a ray. -/
theorem C51_raises_iff (hgs : ∀ acc w, get (set acc w) = acc) (hk : KeepsMemory get opt)
    (h0 : get w0 = Account.reset) (h : runReceiver a get set opt w0 ops = .ok w) :
    (∃ e, (get w).getAllHits = .error e) ↔ 0 < callsSinceReset ops ∧ hitsSinceReset ops = [] := by
  obtain ⟨h1, h2, h3⟩ := C51_exact hgs hk h0 h
  constructor
  · rintro ⟨e, he⟩
    refine ⟨Nat.pos_of_ne_zero fun hz => ?_, ?_⟩
    · rw [h1 hz] at he; cases he
    · by_contra hne
      rw [h3 hne] at he; cases he
  · rintro ⟨hp, hn⟩
    exact ⟨_, h2 hp hn⟩

/-- One history of each kind: reset after a hit, empty calls after a reset, and an empty call between two hits. -/
example : ∃ w1 w2 w3,
    runReceiver (1/2 : ℚ) id (fun x _ => x) (reflective (1/2)) Account.reset
      [.call ⟨0, 0, 1⟩ [⟨0, ⟨0, ⟨0, 0, -1⟩, 4, 0, none, ()⟩, ⟨0, 0, -1⟩, ⟨0, 0, 1⟩⟩], .reset] = .ok w1 ∧
    runReceiver (1/2 : ℚ) id (fun x _ => x) (reflective (1/2)) Account.reset
      [.call ⟨0, 0, 1⟩ [⟨0, ⟨0, ⟨0, 0, -1⟩, 4, 0, none, ()⟩, ⟨0, 0, -1⟩, ⟨0, 0, 1⟩⟩], .reset, .call ⟨0, 0, 1⟩ []] = .ok w2 ∧
    runReceiver (1/2 : ℚ) id (fun x _ => x) (reflective (1/2)) Account.reset
      [.call ⟨0, 0, 1⟩ [⟨0, ⟨0, ⟨0, 0, -1⟩, 4, 0, none, ()⟩, ⟨0, 0, -1⟩, ⟨0, 0, 1⟩⟩], .call ⟨0, 0, 1⟩ [],
       .call ⟨0, 0, 1⟩ [⟨3, ⟨0, ⟨0, 0, -1⟩, 10, 0, none, ()⟩, ⟨0, 0, -4⟩, ⟨0, 0, 1⟩⟩]] = .ok w3 ∧
    w1.getAllHits = .ok ([], []) ∧ w2.getAllHits = .error .value ∧ w3.getAllHits = .ok ([2, 5], [⟨0, 0, -1⟩, ⟨0, 0, -4⟩]) := by
  have hg : ∀ (acc w : Account ℚ), id ((fun x _ => x : Account ℚ → Account ℚ → Account ℚ) acc w) = acc := fun _ _ => rfl
  obtain ⟨hk, hr⟩ := C51_reflective (σ := Account ℚ) (E := Unit) (1/2 : ℚ) id
  refine ⟨_, _, _, rfl, rfl, rfl, ?_, ?_, ?_⟩
  · exact (C51_exact hg hk rfl (E := Unit) (a := 1/2) (w0 := Account.reset)
      (ops := [.call ⟨0, 0, 1⟩ [⟨0, ⟨0, ⟨0, 0, -1⟩, 4, 0, none, ()⟩, ⟨0, 0, -1⟩, ⟨0, 0, 1⟩⟩], .reset]) rfl).1 rfl
  · exact (C51_exact hg hk rfl (E := Unit) (a := 1/2) (w0 := Account.reset)
      (ops := [.call ⟨0, 0, 1⟩ [⟨0, ⟨0, ⟨0, 0, -1⟩, 4, 0, none, ()⟩, ⟨0, 0, -1⟩, ⟨0, 0, 1⟩⟩], .reset, .call ⟨0, 0, 1⟩ []]) rfl).2.1
      (by decide) rfl
  · refine ((C51_exact hg hk rfl (E := Unit) (a := 1/2) (w0 := Account.reset)
      (ops := [.call ⟨0, 0, 1⟩ [⟨0, ⟨0, ⟨0, 0, -1⟩, 4, 0, none, ()⟩, ⟨0, 0, -1⟩, ⟨0, 0, 1⟩⟩], .call ⟨0, 0, 1⟩ [],
        .call ⟨0, 0, 1⟩ [⟨3, ⟨0, ⟨0, 0, -1⟩, 10, 0, none, ()⟩, ⟨0, 0, -4⟩, ⟨0, 0, 1⟩⟩]]) rfl).2.2 (by simp [hitsSinceReset,
          hitsSinceReset.go])).trans ?_
    norm_num [hitsSinceReset, hitsSinceReset.go]

end Tracer
