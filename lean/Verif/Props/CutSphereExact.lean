import Verif.Props.CutSphere

/-! # What hemispheres and cut spheres answer for every bundle (C39) -/

set_option linter.unusedSectionVars false

namespace Tracer

open Real

variable {E : Type _}

/-! ## Lemmas -/

/-- Which of the two crossings are kept. -/
noncomputable def keeps (test : V3 ℝ → Bool) (c : Cand) : Bool × Bool :=
  (test c.p0 && decide (0 < c.t0), test c.p1 && decide (0 < c.t1))

noncomputable def oneKept (test : V3 ℝ → Bool) (c : Cand) : Bool := xor (keeps test c).1 (keeps test c).2

noncomputable def nearKept (test : V3 ℝ → Bool) (c : Cand) : Bool := (keeps test c).1 && !(keeps test c).2

/-- Selections with `k` near crossings to give away. -/
noncomputable def dealSel (test : V3 ℝ → Bool) : Nat → List Cand → List (Option Bool)
  | _, [] => []
  | k, c :: l =>
    if oneKept test c then
      match k with
      | 0 => some true :: dealSel test 0 l
      | k + 1 => some false :: dealSel test k l
    else trimPick test c :: dealSel test k l

noncomputable def deal (test : V3 ℝ → Bool) : Nat → List (Option Cand) → List (WithTop ℝ)
  | _, [] => []
  | k, none :: l => ⊤ :: deal test k l
  | k, some c :: l =>
    if oneKept test c then
      match k with
      | 0 => (c.t1 : WithTop ℝ) :: deal test 0 l
      | k + 1 => (c.t0 : WithTop ℝ) :: deal test k l
    else chosenParam (trimPick test) (some c) :: deal test k l

noncomputable def mergeSel : List (Option Cand) → List (Option Bool) → List (WithTop ℝ)
  | none :: l, s => ⊤ :: mergeSel l s
  | some _ :: l, none :: s => ⊤ :: mergeSel l s
  | some c :: l, some b :: s => (c.choose b : WithTop ℝ) :: mergeSel l s
  | _, _ => []

theorem quadricFind_merge (abc : V3 ℝ → V3 ℝ → ℝ × ℝ × ℝ) {select : List Cand → List (Option Bool)} (rays : Bundle ℝ E)
    (hlen : ∀ cands, (select cands).length = cands.length) :
    quadricFind abc select rays = mergeSel (rays.map fun r => candidate (abc r.vertex r.dir) r.vertex r.dir)
      (select ((rays.map fun r => candidate (abc r.vertex r.dir) r.vertex r.dir).filterMap id)) := by
  have key : ∀ (cands : List (Option Cand)) (sel : List (Option Bool)), sel.length = (cands.filterMap fun x => x).length →
      Np.scatter (Np.scatter (cands.map Option.isSome) (sel.map Option.isSome) (cands.map Option.isSome))
        ((List.zipWith Cand.choose (sel.filterMap fun x => x)
          (Np.mask (sel.map Option.isSome) (cands.filterMap fun x => x))).map fun t : ℝ => (t : WithTop ℝ))
        (List.replicate cands.length ⊤) = mergeSel cands sel := by
    intro cands
    induction cands with
    | nil => intro sel _; simp [mergeSel]
    | cons c cands ih =>
      intro sel hl
      cases c with
      | none =>
        simp only [List.map_cons, Option.isSome_none, List.filterMap_cons, Np.scatter_false, List.length_cons,
          List.replicate_succ]
        rw [ih _ hl]
        cases sel <;> rfl
      | some c =>
        cases sel with
        | nil => simp at hl
        | cons o sel =>
          have hl' : sel.length = (cands.filterMap fun x => x).length := by simpa using hl
          cases o with
          | none =>
            simp only [List.map_cons, Option.isSome_none, Option.isSome_some, List.filterMap_cons, Np.scatter_true, Np.mask_false,
              Np.scatter_false, List.length_cons, List.replicate_succ]
            rw [ih _ hl']
            rfl
          | some b =>
            simp only [List.map_cons, Option.isSome_some, List.filterMap_cons, Np.scatter_true, Np.mask_true,
              List.length_cons, List.replicate_succ, List.zipWith_cons_cons]
            rw [ih _ hl']
            rfl
  have := key (rays.map fun r => candidate (abc r.vertex r.dir) r.vertex r.dir)
    (select ((rays.map fun r => candidate (abc r.vertex r.dir) r.vertex r.dir).filterMap id)) (hlen _)
  rw [← this]
  unfold quadricFind
  simp only [List.length_map]
  rfl

theorem merge_deal (test : V3 ℝ → Bool) (cands : List (Option Cand)) :
    ∀ k, mergeSel cands (dealSel test k (cands.filterMap id)) = deal test k cands := by
  induction cands with
  | nil => intro k; simp [mergeSel, deal]
  | cons c cands ih =>
    intro k
    cases c with
    | none =>
      change mergeSel (none :: cands) (dealSel test k (cands.filterMap id)) = ⊤ :: deal test k cands
      rw [← ih k]
      cases dealSel test k (cands.filterMap id) <;> rfl
    | some c =>
      simp only [List.filterMap_cons, id, deal, dealSel]
      by_cases h : oneKept test c = true
      · rw [if_pos h, if_pos h]
        cases k with
        | zero => simp only [mergeSel]; rw [← ih 0]; rfl
        | succ k => simp only [mergeSel]; rw [← ih k]; rfl
      · rw [if_neg h, if_neg h]
        cases ht : trimPick test c with
        | none =>
          simp only [mergeSel, chosenParam, ht]
          rw [← ih k]
          rfl
        | some b =>
          simp only [mergeSel, chosenParam, ht]
          rw [← ih k]
          rfl

theorem scatter_deal (test : V3 ℝ → Bool) (cands : List Cand) : ∀ (s vals : List (Option Bool)) (a b : Nat),
    s.length = cands.length → vals.length = cands.countP (oneKept test) → a + b = cands.countP (oneKept test) →
    Np.scatter (cands.map (oneKept test)) vals s = cands.map (trimPick test) →
    Np.scatter (cands.map (oneKept test)) ((List.replicate a false ++ List.replicate b true).map some) s = dealSel test a cands := by
  induction cands with
  | nil => intro s vals a b hs _ _ _; simpa [dealSel] using hs
  | cons c cands ih =>
    intro s vals a b hs hv hab h
    cases s with
    | nil => simp at hs
    | cons o s =>
      have hs' : s.length = cands.length := by simpa using hs
      by_cases hc : oneKept test c = true
      · cases vals with
        | nil => simp [hc] at hv
        | cons v vals =>
          simp only [List.map_cons, hc, Np.scatter_true, List.cons.injEq] at h
          have hv' : vals.length = cands.countP (oneKept test) := by simpa [hc] using hv
          rw [List.countP_cons, if_pos hc] at hab
          unfold dealSel
          rw [if_pos hc]
          cases a with
          | zero =>
            obtain ⟨b, rfl⟩ : ∃ m, b = m + 1 := ⟨b - 1, by omega⟩
            simp only [List.map_cons, hc, List.replicate_zero, List.nil_append, List.replicate_succ, Np.scatter_true]
            rw [← ih s vals 0 b hs' hv' (by omega) h.2]
            simp
          | succ a =>
            simp only [List.map_cons, hc, List.replicate_succ, List.cons_append, Np.scatter_true]
            rw [← ih s vals a b hs' hv' (by omega) h.2]
      · have hc' : oneKept test c = false := by simpa using hc
        simp only [List.map_cons, hc', Np.scatter_false, List.cons.injEq] at h
        have hv' : vals.length = cands.countP (oneKept test) := by simpa [hc'] using hv
        have hab' : a + b = cands.countP (oneKept test) := by simpa [hc'] using hab
        unfold dealSel
        rw [if_neg hc]
        simp only [List.map_cons, hc', Np.scatter_false]
        rw [ih s vals a b hs' hv' hab' h.2, h.1]

theorem near_count (test : V3 ℝ → Bool) (cands : List Cand) :
    ((cands.filter (oneKept test)).map (keeps test)).countP (fun p => p.1) = cands.countP (nearKept test) := by
  rw [List.countP_map, List.countP_filter]
  refine List.countP_congr fun c _ => ?_
  unfold oneKept nearKept
  simp only [Function.comp]
  generalize keeps test c = p
  obtain ⟨a, b⟩ := p
  cases a <;> cases b <;> simp

theorem one_count (test : V3 ℝ → Bool) (cands : List Cand) :
    cands.countP (nearKept test) + ((cands.filter (oneKept test)).map (keeps test)).countP (fun p => p.2) =
      cands.countP (oneKept test) := by
  induction cands with
  | nil => rfl
  | cons c l ih =>
    rw [List.countP_cons, List.countP_cons, List.filter_cons]
    have e : (oneKept test c = true ∧ ((nearKept test c = true ∧ (keeps test c).2 = false) ∨
        (nearKept test c = false ∧ (keeps test c).2 = true))) ∨ (oneKept test c = false ∧ nearKept test c = false) := by
      unfold oneKept nearKept
      generalize keeps test c = p
      obtain ⟨a, b⟩ := p
      cases a <;> cases b <;> simp
    rcases e with ⟨h, ⟨h1, h2⟩ | ⟨h1, h2⟩⟩ | ⟨h, h1⟩
    · rw [if_pos h, List.map_cons, List.countP_cons]
      simp only [h, h1, h2, if_true, Bool.false_eq_true, if_false]; omega
    · rw [if_pos h, List.map_cons, List.countP_cons]
      simp only [h, h1, h2, if_true, Bool.false_eq_true, if_false]; omega
    · simp only [h, h1, Bool.false_eq_true, if_false]; omega

theorem nonzeroT_count (test : V3 ℝ → Bool) (cands : List Cand) :
    (((cands.filter (oneKept test)).map (keeps test)).flatMap fun p : Bool × Bool =>
      (if p.1 then [false] else []) ++ (if p.2 then [true] else [])).length = cands.countP (oneKept test) := by
  induction cands with
  | nil => rfl
  | cons c l ih =>
    rw [List.countP_cons, List.filter_cons]
    by_cases h : oneKept test c = true
    · rw [if_pos h, if_pos h, List.map_cons, List.flatMap_cons, List.length_append, ih]
      unfold oneKept at h
      revert h
      generalize keeps test c = p
      obtain ⟨a, b⟩ := p
      cases a <;> cases b <;> simp <;> omega
    · rw [if_neg h, if_neg h, ih]; rfl

theorem trimSelectUT_deal (test : V3 ℝ → Bool) (cands : List Cand) :
    trimSelect nonzeroUT test cands = dealSel test (cands.countP (nearKept test)) cands := by
  have hone : ((cands.map (keeps test)).map fun p => xor p.1 p.2) = cands.map (oneKept test) := by
    rw [List.map_map]
    rfl
  have hmask : Np.mask (cands.map (oneKept test)) (cands.map (keeps test)) = (cands.filter (oneKept test)).map (keeps test) := by
    rw [Np.mask_map, Np.mask_map_self]
  have ha := near_count test cands
  have hb := one_count test cands
  have hT := trimSelect_eq test cands
  unfold trimSelect at hT ⊢
  change Np.scatter ((cands.map (keeps test)).map fun p => xor p.1 p.2) ((nonzeroT ((cands.map (keeps test)).map fun p => xor p.1 p.2)
    (cands.map (keeps test))).map some) (fill ((cands.map (keeps test)).map fun p => !(p.1 || p.2)) none (defaultSelect cands)) = _ at hT
  change Np.scatter ((cands.map (keeps test)).map fun p => xor p.1 p.2) ((nonzeroUT ((cands.map (keeps test)).map fun p => xor p.1 p.2)
    (cands.map (keeps test))).map some) (fill ((cands.map (keeps test)).map fun p => !(p.1 || p.2)) none (defaultSelect cands)) = _
  rw [hone] at hT ⊢
  have hUT : nonzeroUT (cands.map (oneKept test)) (cands.map (keeps test)) =
      List.replicate (cands.countP (nearKept test)) false ++
        List.replicate (((cands.filter (oneKept test)).map (keeps test)).countP (fun p => p.2)) true := by
    unfold nonzeroUT
    rw [hmask, ha]
  rw [hUT]
  refine scatter_deal test cands _ _ _ _ ?_ ?_ hb hT
  · have := congrArg List.length hT
    simpa using this
  · unfold nonzeroT
    rw [hmask, List.length_map, nonzeroT_count]


/-- Whether the solutions for a ray are kept at one crossing only. -/
noncomputable def oneKeptO (test : V3 ℝ → Bool) : Option Cand → Bool
  | none => false
  | some c => oneKept test c

noncomputable def nearKeptO (test : V3 ℝ → Bool) : Option Cand → Bool
  | none => false
  | some c => nearKept test c

theorem deal_one (test : V3 ℝ → Bool) (cands : List (Option Cand)) : ∀ (k i : Nat) (c : Cand),
    cands[i]? = some (some c) → oneKept test c = true →
    (deal test k cands)[i]? = some (if (cands.take i).countP (oneKeptO test) < k then (c.t0 : WithTop ℝ) else (c.t1 : WithTop ℝ)) := by
  induction cands with
  | nil => intro k i c h; simp at h
  | cons e cands ih =>
    intro k i c h hc
    cases i with
    | zero =>
      simp only [List.getElem?_cons_zero, Option.some.injEq] at h
      subst h
      unfold deal
      rw [if_pos hc]
      cases k <;> simp
    | succ i =>
      rw [List.getElem?_cons_succ] at h
      rw [List.take_succ_cons, List.countP_cons]
      cases e with
      | none =>
        unfold deal
        rw [List.getElem?_cons_succ, ih k i c h hc]
        simp [oneKeptO]
      | some e =>
        unfold deal
        by_cases he : oneKept test e = true
        · rw [if_pos he, if_pos (show oneKeptO test (some e) = true from he)]
          cases k with
          | zero =>
            simp only
            rw [List.getElem?_cons_succ, ih 0 i c h hc]
            simp
          | succ k =>
            simp only
            rw [List.getElem?_cons_succ, ih k i c h hc]
            simp
        · rw [if_neg he, if_neg (show ¬ oneKeptO test (some e) = true from he), List.getElem?_cons_succ, ih k i c h hc]
          simp

theorem deal_other (test : V3 ℝ → Bool) (cands : List (Option Cand)) : ∀ (k i : Nat) (o : Option Cand),
    cands[i]? = some o → oneKeptO test o = false →
    (deal test k cands)[i]? = some (chosenParam (trimPick test) o) := by
  induction cands with
  | nil => intro k i c h; simp at h
  | cons e cands ih =>
    intro k i o h ho
    cases i with
    | zero =>
      simp only [List.getElem?_cons_zero, Option.some.injEq] at h
      subst h
      cases e with
      | none => rfl
      | some e =>
        unfold deal
        rw [if_neg (show ¬ oneKept test e = true by simpa [oneKeptO] using ho)]
        rfl
    | succ i =>
      rw [List.getElem?_cons_succ] at h
      cases e with
      | none => exact ih k i o h ho
      | some e =>
        unfold deal
        split
        · cases k with
          | zero => exact ih 0 i o h ho
          | succ k => exact ih k i o h ho
        · exact ih k i o h ho

theorem countP_near (test : V3 ℝ → Bool) (cands : List (Option Cand)) :
    (cands.filterMap id).countP (nearKept test) = cands.countP (nearKeptO test) := by
  induction cands with
  | nil => rfl
  | cons c l ih =>
    cases c with
    | none => simpa [nearKeptO] using ih
    | some c => simp only [List.filterMap_cons, id, List.countP_cons] at ih ⊢; rw [← ih]; rfl

theorem cut_deal (abc : V3 ℝ → V3 ℝ → ℝ × ℝ × ℝ) (test : V3 ℝ → Bool) (rays : Bundle ℝ E) :
    quadricFind abc (trimSelect nonzeroUT test) rays =
      deal test ((rays.map fun r => candidate (abc r.vertex r.dir) r.vertex r.dir).countP (nearKeptO test))
        (rays.map fun r => candidate (abc r.vertex r.dir) r.vertex r.dir) := by
  rw [quadricFind_merge, trimSelectUT_deal, merge_deal, countP_near]
  intro cands
  rw [trimSelectUT_deal]
  have : ∀ (cands : List Cand) k, (dealSel test k cands).length = cands.length := by
    intro cands
    induction cands with
    | nil => intro k; rfl
    | cons c l ih =>
      intro k
      unfold dealSel
      split
      · cases k <;> simp [ih]
      · simp [ih]
  exact this _ _

/-- The solutions found for a ray are all the points where it meets the sphere. -/
theorem candidate_roots {frame : Tf ℝ} (h : frame.Rigid) {R : ℝ} {v d : V3 ℝ} (hu : d.IsUnit) {t0 t1 : ℝ} (hlt : t0 < t1)
    (h0 : Placed frame (sphereSet R) (v + t0 • d)) (h1 : Placed frame (sphereSet R) (v + t1 • d)) :
    candidate (sphereABC R frame v d) v d = some ⟨t0, t1, v + t0 • d, v + t1 • d⟩ := by
  have hA : planarTol < (sphereABC R frame v d).1 := by rw [sphereABC_fst]; exact unit_tol hu
  have hA0 := lt_trans planarTol_pos hA
  rw [sphere_placed h, sphere_at] at h0 h1
  unfold candidate
  simp only
  generalize sphereABC R frame v d = abc at *
  obtain ⟨A, B, C⟩ := abc
  simp only at *
  have hd : 0 ≤ B ^ 2 - 4 * A * C := by nlinarith [sq_nonneg (2 * A * t0 + B)]
  obtain ⟨hle, hr⟩ := quadratic_roots hA0 hd
  rw [if_pos hd, if_neg (not_le.2 hA)]
  have e0 := (hr t0).1 h0
  have e1 := (hr t1).1 h1
  have a0 : t0 = (-B + -1 * √(B ^ 2 - 4 * A * C)) / (2 * A) := by
    rcases e0 with e | e
    · exact e
    · rcases e1 with e' | e' <;> linarith
  have a1 : t1 = (-B + 1 * √(B ^ 2 - 4 * A * C)) / (2 * A) := by
    rcases e1 with e | e
    · linarith
    · exact e
  rw [← a0, ← a1]

theorem kept_near {frame : Tf ℝ} (h : frame.Rigid) {R : ℝ} {test : V3 ℝ → Bool} {v d : V3 ℝ} (hu : d.IsUnit) :
    nearKeptO test (candidate (sphereABC R frame v d) v d) = true ↔
      OnlyNear (Placed frame (sphereSet R)) (Kept frame R test) v d := by
  constructor
  · intro hn
    cases hc : candidate (sphereABC R frame v d) v d with
    | none => rw [hc] at hn; simp [nearKeptO] at hn
    | some c =>
      rw [hc] at hn
      obtain ⟨hle, hp0, hp1, hS0, hS1⟩ := candidate_sphere h hu hc
      simp only [nearKeptO, nearKept, keeps, Bool.and_eq_true, decide_eq_true_eq, Bool.not_eq_true',
        Bool.and_eq_false_iff, decide_eq_false_iff_not] at hn
      obtain ⟨b1, b2⟩ := hn
      have hlt : c.t0 < c.t1 := by
        rcases lt_or_eq_of_le hle with h | h
        · exact h
        · exfalso
          have hpp : c.p0 = c.p1 := by rw [hp0, hp1, h]
          rw [hpp, h] at b1
          rcases b2 with h1 | h1
          · rw [h1] at b1; exact absurd b1.1 (by simp)
          · exact h1 b1.2
      refine ⟨c.t0, c.t1, hlt, hp0 ▸ hS0, hp1 ▸ hS1, b1.2, ⟨hp0 ▸ hS0, hp0 ▸ b1.1⟩, ?_⟩
      rintro ⟨h1, _, h2⟩
      rw [← hp1] at h2
      rcases b2 with h3 | h3
      · rw [h3] at h2; exact absurd h2 (by simp)
      · exact h3 h1
  · rintro ⟨t0, t1, hlt, h0, h1, hp, hk, hn⟩
    rw [candidate_roots h hu hlt h0 h1]
    simp only [nearKeptO, nearKept, keeps, Bool.and_eq_true, decide_eq_true_eq, Bool.not_eq_true',
      Bool.and_eq_false_iff, decide_eq_false_iff_not]
    refine ⟨⟨hk.2, hp⟩, ?_⟩
    by_contra hcon
    push Not at hcon
    exact hn ⟨hcon.2, h1, by simpa using hcon.1⟩

theorem kept_one {frame : Tf ℝ} (h : frame.Rigid) {R : ℝ} {test : V3 ℝ → Bool} {v d : V3 ℝ} (hu : d.IsUnit) :
    oneKeptO test (candidate (sphereABC R frame v d) v d) = true ↔
      (OnlyFar (Placed frame (sphereSet R)) (Kept frame R test) v d ∨
       OnlyNear (Placed frame (sphereSet R)) (Kept frame R test) v d) := by
  constructor
  · intro ho
    by_cases hn : nearKeptO test (candidate (sphereABC R frame v d) v d) = true
    · exact Or.inr ((kept_near h hu).1 hn)
    · left
      cases hc : candidate (sphereABC R frame v d) v d with
      | none => rw [hc] at ho; simp [oneKeptO] at ho
      | some c =>
        rw [hc] at ho hn
        obtain ⟨hle, hp0, hp1, hS0, hS1⟩ := candidate_sphere h hu hc
        have hk : (keeps test c).1 = false ∧ (keeps test c).2 = true := by
          simp only [oneKeptO, oneKept, nearKeptO, nearKept] at ho hn
          revert ho hn
          generalize keeps test c = p
          obtain ⟨a, b⟩ := p
          cases a <;> cases b <;> simp
        simp only [keeps, Bool.and_eq_true, decide_eq_true_eq, Bool.and_eq_false_iff, decide_eq_false_iff_not] at hk
        obtain ⟨a1, a2⟩ := hk
        have hlt : c.t0 < c.t1 := by
          rcases lt_or_eq_of_le hle with h | h
          · exact h
          · exfalso
            have hpp : c.p0 = c.p1 := by rw [hp0, hp1, h]
            rw [hpp, h] at a1
            rcases a1 with h1 | h1
            · rw [h1] at a2; exact absurd a2.1 (by simp)
            · exact h1 a2.2
        refine ⟨c.t0, c.t1, hlt, hp0 ▸ hS0, hp1 ▸ hS1, ?_, a2.2, hp1 ▸ hS1, hp1 ▸ a2.1⟩
        rintro ⟨h1, _, h2⟩
        rw [← hp0] at h2
        rcases a1 with h3 | h3
        · rw [h3] at h2; exact absurd h2 (by simp)
        · exact h3 h1
  · rintro (⟨t0, t1, hlt, h0, h1, hn, hp, hk⟩ | ho)
    · rw [candidate_roots h hu hlt h0 h1]
      have a2 : (keeps test ⟨t0, t1, v + t0 • d, v + t1 • d⟩).2 = true := by simp [keeps, hk.2, hp]
      have a1 : (keeps test ⟨t0, t1, v + t0 • d, v + t1 • d⟩).1 = false := by
        simp only [keeps, Bool.and_eq_false_iff, decide_eq_false_iff_not]
        by_contra hcon
        push Not at hcon
        exact hn ⟨hcon.2, h0, by simpa using hcon.1⟩
      simp [oneKeptO, oneKept, a1, a2]
    · have hn := (kept_near h hu).2 ho
      cases hc : candidate (sphereABC R frame v d) v d with
      | none => rw [hc] at hn; simp [nearKeptO] at hn
      | some c =>
        rw [hc] at hn
        simp only [oneKeptO, oneKept, nearKeptO, nearKept] at hn ⊢
        revert hn
        generalize keeps test c = p
        obtain ⟨a, b⟩ := p
        cases a <;> cases b <;> simp

/-! ## C39 -/

open Classical in
theorem cut_exact {frame : Tf ℝ} (h : frame.Rigid) {R : ℝ} {test : V3 ℝ → Bool} {rays : Bundle ℝ E}
    (hu : ∀ r ∈ rays, r.dir.IsUnit) {S : V3 ℝ → Prop} (hS : ∀ p, Kept frame R test p ↔ S p)
    (i : Nat) (r : Ray ℝ E) (hr : rays[i]? = some r) :
    ∃ p, (quadricFind (sphereABC R frame) (trimSelect nonzeroUT test) rays)[i]? = some p ∧
      (¬ OnlyFar (Placed frame (sphereSet R)) S r.vertex r.dir → ¬ OnlyNear (Placed frame (sphereSet R)) S r.vertex r.dir →
        FirstAmong (0 < ·) S r.vertex r.dir p) ∧
      ∀ t0 t1 : ℝ, t0 < t1 → Placed frame (sphereSet R) (r.vertex + t0 • r.dir) → Placed frame (sphereSet R) (r.vertex + t1 • r.dir) →
        (OnlyFar (Placed frame (sphereSet R)) S r.vertex r.dir ∨ OnlyNear (Placed frame (sphereSet R)) S r.vertex r.dir) →
        p = if (rays.take i).countP (fun s => decide (OnlyFar (Placed frame (sphereSet R)) S s.vertex s.dir ∨
              OnlyNear (Placed frame (sphereSet R)) S s.vertex s.dir)) <
            rays.countP (fun s => decide (OnlyNear (Placed frame (sphereSet R)) S s.vertex s.dir))
          then (t0 : WithTop ℝ) else (t1 : WithTop ℝ) := by
  obtain rfl : Kept frame R test = S := funext fun p => propext (hS p)
  have hur := hu r (List.mem_of_getElem? hr)
  rw [cut_deal]
  have hci : (rays.map fun r => candidate (sphereABC R frame r.vertex r.dir) r.vertex r.dir)[i]? =
      some (candidate (sphereABC R frame r.vertex r.dir) r.vertex r.dir) := getElem?_map' _ hr
  by_cases ho : oneKeptO test (candidate (sphereABC R frame r.vertex r.dir) r.vertex r.dir) = true
  · have ho' := (kept_one h hur).1 ho
    cases hc : candidate (sphereABC R frame r.vertex r.dir) r.vertex r.dir with
    | none => rw [hc] at ho; simp [oneKeptO] at ho
    | some c =>
      rw [hc] at hci ho
      refine ⟨_, deal_one test _ _ i c hci ho, fun h1 h2 => (ho'.elim h1 h2).elim, ?_⟩
      intro t0 t1 hlt h0 h1 _
      rw [candidate_roots h hur hlt h0 h1] at hc
      cases hc
      have e1 : ((rays.map fun r => candidate (sphereABC R frame r.vertex r.dir) r.vertex r.dir).take i).countP (oneKeptO test) =
          (rays.take i).countP (fun s => decide (OnlyFar (Placed frame (sphereSet R)) (Kept frame R test) s.vertex s.dir ∨
            OnlyNear (Placed frame (sphereSet R)) (Kept frame R test) s.vertex s.dir)) := by
        rw [← List.map_take, List.countP_map]
        refine List.countP_congr fun s hs => ?_
        rw [decide_eq_true_eq]
        exact kept_one h (hu s (List.mem_of_mem_take hs))
      have e2 : (rays.map fun r => candidate (sphereABC R frame r.vertex r.dir) r.vertex r.dir).countP (nearKeptO test) =
          rays.countP (fun s => decide (OnlyNear (Placed frame (sphereSet R)) (Kept frame R test) s.vertex s.dir)) := by
        rw [List.countP_map]
        refine List.countP_congr fun s hs => ?_
        rw [decide_eq_true_eq]
        exact kept_near h (hu s hs)
      rw [e1, e2]
  · have hof : oneKeptO test (candidate (sphereABC R frame r.vertex r.dir) r.vertex r.dir) = false := by simpa using ho
    refine ⟨_, deal_other test _ _ i _ hci hof, fun _ _ => ?_, fun _ _ _ _ _ h2 => absurd ((kept_one h hur).2 h2) ho⟩
    apply first_of_abc
    · intro s
      show Placed _ _ _ ∧ _ ↔ _
      rw [sphere_placed h, sphere_at]
    · rw [sphereABC_fst]
      exact unit_tol hur

/-- All the answers are right exactly when no ray keeping only its far crossing comes before one keeping only its
near crossing. -/
theorem cut_iff {frame : Tf ℝ} (h : frame.Rigid) {R : ℝ} {test : V3 ℝ → Bool} {rays : Bundle ℝ E}
    (hu : ∀ r ∈ rays, r.dir.IsUnit) {S : V3 ℝ → Prop} (hS : ∀ p, Kept frame R test p ↔ S p) :
    (∀ (i : Nat) r, rays[i]? = some r → ∃ p, (quadricFind (sphereABC R frame) (trimSelect nonzeroUT test) rays)[i]? = some p ∧
      FirstAmong (0 < ·) S r.vertex r.dir p) ↔
    ∀ (i j : Nat) r s, i < j → rays[i]? = some r → rays[j]? = some s →
      ¬ (OnlyFar (Placed frame (sphereSet R)) S r.vertex r.dir ∧ OnlyNear (Placed frame (sphereSet R)) S s.vertex s.dir) := by
  classical
  constructor
  · rintro hall i j r s hij hi hj ⟨hf, hn⟩
    obtain ⟨p, hp, -, hp2⟩ := cut_exact h hu hS i r hi
    obtain ⟨q, hq, -, hq2⟩ := cut_exact h hu hS j s hj
    obtain ⟨p', hp', hpf⟩ := hall i r hi
    obtain ⟨q', hq', hqf⟩ := hall j s hj
    obtain rfl : p = p' := Option.some.inj (hp.symm.trans hp')
    obtain rfl : q = q' := Option.some.inj (hq.symm.trans hq')
    have hle : (rays.take i).countP (fun s => decide (OnlyFar (Placed frame (sphereSet R)) S s.vertex s.dir ∨
        OnlyNear (Placed frame (sphereSet R)) S s.vertex s.dir)) ≤
        (rays.take j).countP (fun s => decide (OnlyFar (Placed frame (sphereSet R)) S s.vertex s.dir ∨
        OnlyNear (Placed frame (sphereSet R)) S s.vertex s.dir)) :=
      (List.take_sublist_take_left hij.le).countP_le
    obtain ⟨t0, t1, hlt, h0, h1, hno, hpos, hk⟩ := id hf
    obtain ⟨u0, u1, hlt', h0', h1', hpos', hk', hno'⟩ := id hn
    have ep := hp2 t0 t1 hlt h0 h1 (Or.inl hf)
    have eq := hq2 u0 u1 hlt' h0' h1' (Or.inr hn)
    split at ep
    · rw [ep] at hpf
      exact hno ⟨hpf.1, hpf.2.1⟩
    · rename_i hge
      rw [if_neg (by omega)] at eq
      rw [eq] at hqf
      exact hno' ⟨hqf.1, hqf.2.1⟩
  · intro hord i r hr
    obtain rfl : Kept frame R test = S := funext fun p => propext (hS p)
    exact cut_first h hu hord i r hr


open Classical in
/-- C39 for hemispheres, what every ray of every bundle is answered.  A ray with no kept crossing ahead or with two gets
the right answer.  Of the rays with exactly one, as many as keep their near crossing are given the near one, in the
order of the bundle, and the rest are given the far one, whichever it is that they keep. -/
theorem C39_hemisphere_exact {frame : Tf ℝ} (h : frame.Rigid) {R : ℝ} {g : Geometry ℝ E} (hg : hemisphereGM R = .ok g)
     {rays : Bundle ℝ E} (hu : ∀ r ∈ rays, r.dir.IsUnit) (i : Nat) (r : Ray ℝ E) (hr : rays[i]? = some r) :
    ∃ p, (g.find frame rays)[i]? = some p ∧
      (¬ OnlyFar (Placed frame (sphereSet R)) (Placed frame (hemisphereSet R)) r.vertex r.dir →
        ¬ OnlyNear (Placed frame (sphereSet R)) (Placed frame (hemisphereSet R)) r.vertex r.dir →
        FirstAmong (0 < ·) (Placed frame (hemisphereSet R)) r.vertex r.dir p) ∧
      ∀ t0 t1 : ℝ, t0 < t1 → Placed frame (sphereSet R) (r.vertex + t0 • r.dir) →
        Placed frame (sphereSet R) (r.vertex + t1 • r.dir) →
        (OnlyFar (Placed frame (sphereSet R)) (Placed frame (hemisphereSet R)) r.vertex r.dir ∨
         OnlyNear (Placed frame (sphereSet R)) (Placed frame (hemisphereSet R)) r.vertex r.dir) →
        p = if (rays.take i).countP (fun s =>
              decide (OnlyFar (Placed frame (sphereSet R)) (Placed frame (hemisphereSet R)) s.vertex s.dir ∨
                OnlyNear (Placed frame (sphereSet R)) (Placed frame (hemisphereSet R)) s.vertex s.dir)) <
            rays.countP (fun s => decide (OnlyNear (Placed frame (sphereSet R)) (Placed frame (hemisphereSet R)) s.vertex s.dir))
          then (t0 : WithTop ℝ) else (t1 : WithTop ℝ) := by
  unfold hemisphereGM at hg
  split at hg
  · simp at hg
  rename_i R' hR'
  obtain ⟨hRR, _⟩ := setRadius_ok hR'
  subst R'
  cases hg
  exact cut_exact h hu (kept_hemisphere h R) i r hr

/-- C39 for hemispheres: the answers for a bundle are all right exactly when no ray that keeps only its far crossing comes
before one that keeps only its near crossing. -/
theorem C39_hemisphere_iff {frame : Tf ℝ} (h : frame.Rigid) {R : ℝ} {g : Geometry ℝ E} (hg : hemisphereGM R = .ok g)
     {rays : Bundle ℝ E} (hu : ∀ r ∈ rays, r.dir.IsUnit) :
    (∀ (i : Nat) r, rays[i]? = some r → ∃ p, (g.find frame rays)[i]? = some p ∧
      FirstAmong (0 < ·) (Placed frame (hemisphereSet R)) r.vertex r.dir p) ↔
    ∀ (i j : Nat) r s, i < j → rays[i]? = some r → rays[j]? = some s →
      ¬ (OnlyFar (Placed frame (sphereSet R)) (Placed frame (hemisphereSet R)) r.vertex r.dir ∧
         OnlyNear (Placed frame (sphereSet R)) (Placed frame (hemisphereSet R)) s.vertex s.dir) := by
  unfold hemisphereGM at hg
  split at hg
  · simp at hg
  rename_i R' hR'
  obtain ⟨hRR, _⟩ := setRadius_ok hR'
  subst R'
  cases hg
  exact cut_iff h hu (kept_hemisphere h R)

open Classical in
/-- C39 for cut spheres with a bounding volume, what every ray of every bundle is answered.  A ray with no kept crossing ahead or with two gets
the right answer.  Of the rays with exactly one, as many as keep their near crossing are given the near one, in the
order of the bundle, and the rest are given the far one, whichever it is that they keep. -/
theorem C39_cut_sphere_exact {frame : Tf ℝ} (h : frame.Rigid) {R : ℝ} {b : Tf ℝ → V3 ℝ → Bool} {g : Geometry ℝ E}
    (hg : cutSphereGM R (some b) = .ok g) {rays : Bundle ℝ E} (hu : ∀ r ∈ rays, r.dir.IsUnit) (i : Nat) (r : Ray ℝ E) (hr : rays[i]? = some r) :
    ∃ p, (g.find frame rays)[i]? = some p ∧
      (¬ OnlyFar (Placed frame (sphereSet R)) (fun p => Placed frame (sphereSet R) p ∧ b frame p = true) r.vertex r.dir →
        ¬ OnlyNear (Placed frame (sphereSet R)) (fun p => Placed frame (sphereSet R) p ∧ b frame p = true) r.vertex r.dir →
        FirstAmong (0 < ·) (fun p => Placed frame (sphereSet R) p ∧ b frame p = true) r.vertex r.dir p) ∧
      ∀ t0 t1 : ℝ, t0 < t1 → Placed frame (sphereSet R) (r.vertex + t0 • r.dir) →
        Placed frame (sphereSet R) (r.vertex + t1 • r.dir) →
        (OnlyFar (Placed frame (sphereSet R)) (fun p => Placed frame (sphereSet R) p ∧ b frame p = true) r.vertex r.dir ∨
         OnlyNear (Placed frame (sphereSet R)) (fun p => Placed frame (sphereSet R) p ∧ b frame p = true) r.vertex r.dir) →
        p = if (rays.take i).countP (fun s =>
              decide (OnlyFar (Placed frame (sphereSet R)) (fun p => Placed frame (sphereSet R) p ∧ b frame p = true) s.vertex s.dir ∨
                OnlyNear (Placed frame (sphereSet R)) (fun p => Placed frame (sphereSet R) p ∧ b frame p = true) s.vertex s.dir)) <
            rays.countP (fun s => decide (OnlyNear (Placed frame (sphereSet R)) (fun p => Placed frame (sphereSet R) p ∧ b frame p = true) s.vertex s.dir))
          then (t0 : WithTop ℝ) else (t1 : WithTop ℝ) := by
  unfold cutSphereGM at hg
  split at hg
  · simp at hg
  rename_i R' hR'
  obtain ⟨hRR, _⟩ := setRadius_ok hR'
  subst R'
  cases hg
  exact cut_exact h (test := b frame) hu (fun _ => Iff.rfl) i r hr

/-- C39 for cut spheres with a bounding volume: the answers for a bundle are all right exactly when no ray that keeps only its far crossing comes
before one that keeps only its near crossing. -/
theorem C39_cut_sphere_iff {frame : Tf ℝ} (h : frame.Rigid) {R : ℝ} {b : Tf ℝ → V3 ℝ → Bool} {g : Geometry ℝ E}
    (hg : cutSphereGM R (some b) = .ok g) {rays : Bundle ℝ E} (hu : ∀ r ∈ rays, r.dir.IsUnit) :
    (∀ (i : Nat) r, rays[i]? = some r → ∃ p, (g.find frame rays)[i]? = some p ∧
      FirstAmong (0 < ·) (fun p => Placed frame (sphereSet R) p ∧ b frame p = true) r.vertex r.dir p) ↔
    ∀ (i j : Nat) r s, i < j → rays[i]? = some r → rays[j]? = some s →
      ¬ (OnlyFar (Placed frame (sphereSet R)) (fun p => Placed frame (sphereSet R) p ∧ b frame p = true) r.vertex r.dir ∧
         OnlyNear (Placed frame (sphereSet R)) (fun p => Placed frame (sphereSet R) p ∧ b frame p = true) s.vertex s.dir) := by
  unfold cutSphereGM at hg
  split at hg
  · simp at hg
  rename_i R' hR'
  obtain ⟨hRR, _⟩ := setRadius_ok hR'
  subst R'
  cases hg
  exact cut_iff h (test := b frame) hu (fun _ => Iff.rfl)

/-! The two axial rays, of which one keeps its far and one its near crossing: in this order some answer is wrong, in
the other both are right. -/
theorem axial_far : OnlyFar (Placed 1 (sphereSet 1)) (Placed 1 (hemisphereSet 1)) (⟨0, 0, 2⟩ : V3 ℝ) ⟨0, 0, -1⟩ ∧
    ¬ OnlyFar (Placed 1 (sphereSet 1)) (Placed 1 (hemisphereSet 1)) (⟨0, 0, -2⟩ : V3 ℝ) ⟨0, 0, 1⟩ ∧
    OnlyNear (Placed 1 (sphereSet 1)) (Placed 1 (hemisphereSet 1)) (⟨0, 0, -2⟩ : V3 ℝ) ⟨0, 0, 1⟩ := by
  have hinv : ∀ p : V3 ℝ, (1 : Tf ℝ).inv.point p = p := by
    intro p
    have := Tf.inv_point_point (t := (1 : Tf ℝ)) (M3.IsRotation.det_ne Tf.Rigid.one) p
    have e : (1 : Tf ℝ).point p = p := by unfold Tf.point; apply V3.ext <;> simp
    rwa [e] at this
  have hfull : ∀ z e s : ℝ, Placed 1 (sphereSet 1) ((⟨0, 0, z⟩ : V3 ℝ) + s • (⟨0, 0, e⟩ : V3 ℝ)) ↔ (z + s * e) ^ 2 = 1 := by
    intro z e s
    rw [placed_iff (M3.IsRotation.det_ne Tf.Rigid.one), hinv]
    unfold sphereSet
    simp
  have hhalf : ∀ z e s : ℝ, Placed 1 (hemisphereSet 1) ((⟨0, 0, z⟩ : V3 ℝ) + s • (⟨0, 0, e⟩ : V3 ℝ)) ↔
      (z + s * e) ^ 2 = 1 ∧ z + s * e ≤ 0 := by
    intro z e s
    rw [placed_iff (M3.IsRotation.det_ne Tf.Rigid.one), hinv]
    unfold hemisphereSet sphereSet
    simp
  unfold OnlyFar OnlyNear
  simp only [hfull, hhalf]
  refine ⟨⟨1, 3, by norm_num, by norm_num, by norm_num, by norm_num, by norm_num, by norm_num, by norm_num⟩, ?_,
    ⟨1, 3, by norm_num, by norm_num, by norm_num, by norm_num, ⟨by norm_num, by norm_num⟩, by norm_num⟩⟩
  rintro ⟨t0, t1, hlt, h0, h1, hn, hp, hk⟩
  nlinarith [hk.1, hk.2]

example : ∃ g : Geometry ℝ Unit, hemisphereGM 1 = .ok g ∧
    (¬ ∀ (i : Nat) r, Examples.axial[i]? = some r → ∃ p, (g.find 1 Examples.axial)[i]? = some p ∧
      FirstAmong (0 < ·) (Placed 1 (hemisphereSet 1)) r.vertex r.dir p) ∧
    ∀ (i : Nat) r, Examples.axial.reverse[i]? = some r → ∃ p, (g.find 1 Examples.axial.reverse)[i]? = some p ∧
      FirstAmong (0 < ·) (Placed 1 (hemisphereSet 1)) r.vertex r.dir p := by
  obtain ⟨g, hg, -, hu, -⟩ := C39_counterexample
  refine ⟨g, hg, ?_, ?_⟩
  · rw [C39_hemisphere_iff Tf.Rigid.one hg hu]
    intro hall
    exact hall 0 1 _ _ (by norm_num) rfl rfl ⟨axial_far.1, axial_far.2.2⟩
  · rw [C39_hemisphere_iff Tf.Rigid.one hg (fun r hr => hu r (List.mem_reverse.1 hr))]
    rintro i j r s hij hi hj ⟨hf, -⟩
    have hlen : j < 2 := by
      have := (List.getElem?_eq_some_iff.1 hj).1
      simpa [Examples.axial] using this
    obtain ⟨rfl, rfl⟩ : i = 0 ∧ j = 1 := by omega
    simp only [Examples.axial, List.reverse_cons, List.reverse_nil, List.nil_append, List.cons_append,
      List.getElem?_cons_zero, Option.some.injEq] at hi
    subst hi
    exact axial_far.2.1 hf

/-- In the good order both rays are answered rightly, by the sufficient condition too. -/
example : ∃ g : Geometry ℝ Unit, hemisphereGM 1 = .ok g ∧ ∃ p, (g.find 1 Examples.axial.reverse)[1]? = some p ∧
    FirstAmong (0 < ·) (Placed 1 (hemisphereSet 1)) (⟨0, 0, 2⟩ : V3 ℝ) ⟨0, 0, -1⟩ p := by
  obtain ⟨g, hg, -, hu, -⟩ := C39_counterexample
  refine ⟨g, hg, C39_hemisphere_partial Tf.Rigid.one hg (rays := Examples.axial.reverse) (fun r hr => hu r (List.mem_reverse.1 hr)) ?_ 1
    ⟨⟨0, 0, 2⟩, ⟨0, 0, -1⟩, 1, 0, none, ()⟩ rfl⟩
  rintro i j r s hij hi hj ⟨hf, -⟩
  have hlen : j < 2 := by
    have := (List.getElem?_eq_some_iff.1 hj).1
    simpa [Examples.axial] using this
  obtain ⟨rfl, rfl⟩ : i = 0 ∧ j = 1 := by omega
  cases hi
  exact axial_far.2.1 hf

/-- In the wrong order the first ray is given the crossing that was meant for the second. -/
example : ∃ g : Geometry ℝ Unit, hemisphereGM 1 = .ok g ∧ (g.find 1 Examples.axial)[0]? = some ((1 : ℝ) : WithTop ℝ) := by
  obtain ⟨g, hg, -, hu, -⟩ := C39_counterexample
  obtain ⟨p, h1, -, h2⟩ := C39_hemisphere_exact Tf.Rigid.one hg hu 0 ⟨⟨0, 0, 2⟩, ⟨0, 0, -1⟩, 1, 0, none, ()⟩ rfl
  have hinv : ∀ p : V3 ℝ, (1 : Tf ℝ).inv.point p = p := by
    intro p
    have := Tf.inv_point_point (t := (1 : Tf ℝ)) (M3.IsRotation.det_ne Tf.Rigid.one) p
    have e : (1 : Tf ℝ).point p = p := by unfold Tf.point; apply V3.ext <;> simp
    rwa [e] at this
  have hon : ∀ s : ℝ, (2 - s) ^ 2 = 1 → Placed 1 (sphereSet 1) ((⟨0, 0, 2⟩ : V3 ℝ) + s • (⟨0, 0, -1⟩ : V3 ℝ)) := by
    intro s hs
    rw [placed_iff (M3.IsRotation.det_ne Tf.Rigid.one), hinv]
    unfold sphereSet
    simp only [V3.add_x, V3.add_y, V3.add_z, V3.smul_x, V3.smul_y, V3.smul_z]
    linarith
  have h3 := h2 1 3 (by norm_num) (hon 1 (by norm_num)) (hon 3 (by norm_num)) (Or.inl axial_far.1)
  rw [if_pos] at h3
  · exact ⟨g, hg, by rw [h1, h3]⟩
  · simp only [List.take_zero, List.countP_nil]
    rw [List.countP_pos_iff]
    exact ⟨⟨⟨0, 0, -2⟩, ⟨0, 0, 1⟩, 1, 0, none, ()⟩, by simp [Examples.axial], by simpa using axial_far.2.2⟩

/-- A sphere cut at the local height one half, and any bundle of one ray: the two conditions are met. -/
example {r : Ray ℝ E} (hu : r.dir.IsUnit) : ∃ g : Geometry ℝ E,
    cutSphereGM 2 (some fun frame p => decide ((frame.inv.point p).z ≤ 1 / 2)) = .ok g ∧
    (∀ (i : Nat) s, [r][i]? = some s → ∃ p, (g.find 1 [r])[i]? = some p ∧
      FirstAmong (0 < ·) (fun p => Placed 1 (sphereSet 2) p ∧ decide (((1 : Tf ℝ).inv.point p).z ≤ 1 / 2) = true) s.vertex s.dir p) ∧
    (OnlyFar (Placed 1 (sphereSet 2)) (fun p => Placed 1 (sphereSet 2) p ∧ decide (((1 : Tf ℝ).inv.point p).z ≤ 1 / 2) = true) r.vertex r.dir →
      ∀ t0 t1 : ℝ, t0 < t1 → Placed 1 (sphereSet 2) (r.vertex + t0 • r.dir) → Placed 1 (sphereSet 2) (r.vertex + t1 • r.dir) →
      ∃ p, (g.find 1 [r])[0]? = some p ∧ (p = ((t0 : ℝ) : WithTop ℝ) ∨ p = ((t1 : ℝ) : WithTop ℝ))) := by
  obtain ⟨g, hg⟩ := Examples.cutSphere_exists (E := E) two_pos (some fun frame p => decide ((frame.inv.point p).z ≤ 1 / 2))
  refine ⟨g, hg, (C39_cut_sphere_iff Tf.Rigid.one hg (by simpa using hu)).2 ?_, ?_⟩
  · intro i j a b hij _ hb
    have : j < [r].length := (List.getElem?_eq_some_iff.1 hb).1
    simp at this
    omega
  · intro hf t0 t1 h01 h0 h1
    obtain ⟨p, e1, -, e2⟩ := C39_cut_sphere_exact Tf.Rigid.one hg (rays := [r]) (by simpa using hu) 0 r rfl
    refine ⟨p, e1, ?_⟩
    have := e2 t0 t1 h01 h0 h1 (Or.inl hf)
    split at this
    · exact .inl this
    · exact .inr this

end Tracer
