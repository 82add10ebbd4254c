import Verif.Model.Quadric
import Verif.Lemmas.Np
import Mathlib.Tactic.Linarith
import Mathlib.Tactic.FieldSimp
import Mathlib.Tactic.NormNum

/-! The array manipulations of quadric.py, ray by ray. -/

namespace Tracer

open Real Np

variable {E : Type _} {α β : Type _}

theorem scatter_map (p : α → Bool) (f g : α → β) (l : List α) :
    scatter (l.map p) ((l.filter p).map f) (l.map g) = l.map fun x => if p x then f x else g x := by
  induction l with
  | nil => rfl
  | cons a l ih =>
    cases h : p a with
    | true => simp [h, ih]
    | false => simp [h, ih]

theorem fill_map (p : α → Bool) (c : β) (g : α → β) (l : List α) :
    fill (l.map p) c (l.map g) = l.map fun x => if p x then c else g x := by
  have : ∀ (k : Nat) (l : List α), l.length ≤ k →
      scatter (l.map p) (List.replicate k c) (l.map g) = l.map fun x => if p x then c else g x := by
    intro k l
    induction l generalizing k with
    | nil => intro _; simp
    | cons a l ih =>
      intro hk
      cases k with
      | zero => simp at hk
      | succ k =>
        simp only [List.length_cons, Nat.add_le_add_iff_right] at hk
        cases h : p a with
        | true => simp [h, ih k hk, List.replicate_succ]
        | false =>
          simp only [List.map_cons, h, scatter_false, ih (k + 1) (Nat.le_succ_of_le hk)]
          simp
  unfold fill
  exact this _ _ (by simp)

theorem nonzeroT_map (q : α → Bool × Bool) (l : List α) :
    nonzeroT (l.map fun x => xor (q x).1 (q x).2) (l.map q) =
      (l.filter fun x => xor (q x).1 (q x).2).map fun x => (q x).2 := by
  unfold nonzeroT
  induction l with
  | nil => rfl
  | cons a l ih =>
    simp only [List.map_cons]
    rcases h : q a with ⟨b, c⟩
    cases b <;> cases c <;> simp [h, ih]

/-- Which of two crossings is taken: the first that passes. -/
def pick (ok0 ok1 : Bool) : Option Bool := if ok0 then some false else if ok1 then some true else none

/-- The choice of the default `_select_coords` for one ray. -/
noncomputable def defaultPick (c : Cand) : Option Bool := pick (decide (0 < c.t0)) (decide (0 < c.t1))

theorem defaultSelectFrom_eq (junk : List (Option Bool)) (cands : List Cand) (h : junk.length = cands.length) :
    defaultSelectFrom junk cands = cands.map defaultPick := by
  have h1 : cands = (cands.zip junk).map Prod.fst := by rw [List.map_fst_zip]; omega
  have h2 : junk = (cands.zip junk).map Prod.snd := by rw [List.map_snd_zip]; omega
  generalize cands.zip junk = l at h1 h2
  subst h1 h2
  unfold defaultSelectFrom positive
  simp only [List.map_map]
  rw [fill_map, fill_map]
  have := nonzeroT_map (fun x : Cand × Option Bool => (decide (0 < x.1.t0), decide (0 < x.1.t1))) l
  simp only [Function.comp_def] at this ⊢
  rw [this, List.map_map, scatter_map]
  apply List.map_congr_left
  intro x _
  simp only [defaultPick, pick, Function.comp]
  by_cases h0 : 0 < x.1.t0 <;> by_cases h1 : 0 < x.1.t1 <;> simp [h0, h1]

/-- What was in the memory returned by `N.empty` does not matter. -/
theorem defaultSelect_junk (junk : List (Option Bool)) (cands : List Cand) (h : junk.length = cands.length) :
    defaultSelectFrom junk cands = defaultSelect cands := by
  unfold defaultSelect
  rw [defaultSelectFrom_eq _ _ h, defaultSelectFrom_eq _ _ (by simp)]

theorem defaultSelect_eq (cands : List Cand) : defaultSelect cands = cands.map defaultPick :=
  defaultSelectFrom_eq _ _ (by simp)

/-- The choice of a trimmed surface for one ray. -/
noncomputable def trimPick (test : V3 ℝ → Bool) (c : Cand) : Option Bool :=
  pick (test c.p0 && decide (0 < c.t0)) (test c.p1 && decide (0 < c.t1))

theorem trimSelect_eq (test : V3 ℝ → Bool) (cands : List Cand) :
    trimSelect nonzeroT test cands = cands.map (trimPick test) := by
  unfold trimSelect
  simp only [defaultSelect_eq, List.map_map]
  rw [fill_map]
  have := nonzeroT_map (fun c : Cand => (test c.p0 && decide (0 < c.t0), test c.p1 && decide (0 < c.t1))) cands
  simp only [Function.comp_def] at this ⊢
  rw [this, List.map_map, scatter_map]
  apply List.map_congr_left
  intro c _
  simp only [defaultPick, trimPick, pick, Function.comp]
  by_cases h0 : 0 < c.t0 <;> by_cases h1 : 0 < c.t1 <;> by_cases h2 : test c.p0 = true <;>
    by_cases h3 : test c.p1 = true <;> simp [h0, h1, h2, h3]

theorem cylinderSelect_eq (halfH : ℝ) (frame : Tf ℝ) (cands : List Cand) :
    cylinderSelect halfH frame cands =
      cands.map (trimPick fun p => decide (|(frame.inv.point p).z| ≤ halfH)) := by
  unfold cylinderSelect
  have h0 : List.replicate cands.length (none : Option Bool) = cands.map fun _ => none := by simp
  rw [h0]
  simp only [List.map_map]
  rw [fill_map]
  have := nonzeroT_map (fun c : Cand =>
    (decide (|(frame.inv.point c.p0).z| ≤ halfH) && decide (0 < c.t0),
     decide (|(frame.inv.point c.p1).z| ≤ halfH) && decide (0 < c.t1))) cands
  simp only [Function.comp_def] at this ⊢
  rw [this, List.map_map, scatter_map]
  apply List.map_congr_left
  intro c _
  simp only [trimPick, pick, Function.comp]
  by_cases h0 : 0 < c.t0 <;> by_cases h1 : 0 < c.t1 <;>
    by_cases h2 : |(frame.inv.point c.p0).z| ≤ halfH <;> by_cases h3 : |(frame.inv.point c.p1).z| ≤ halfH <;>
    simp [h0, h1, h2, h3]

/-- The parameter of one ray. -/
noncomputable def chosenParam (f : Cand → Option Bool) : Option Cand → WithTop ℝ
  | none => ⊤
  | some c =>
    match f c with
    | none => ⊤
    | some b => (c.choose b : WithTop ℝ)

/-- If `_select_coords` treats the rays that have solutions one by one, so does `find_intersections`. -/
theorem quadricFind_of (abc : V3 ℝ → V3 ℝ → ℝ × ℝ × ℝ) {select : List Cand → List (Option Bool)}
    {f : Cand → Option Bool} (rays : Bundle ℝ E)
    (hs : ∀ cands, cands = (rays.map fun r => candidate (abc r.vertex r.dir) r.vertex r.dir).filterMap id →
      select cands = cands.map f) :
    quadricFind abc select rays =
      rays.map fun r => chosenParam f (candidate (abc r.vertex r.dir) r.vertex r.dir) := by
  have key : ∀ cands : List (Option Cand),
      scatter (scatter (cands.map Option.isSome) ((cands.filterMap fun x => x).map fun c => (f c).isSome) (cands.map Option.isSome))
        ((List.zipWith Cand.choose (((cands.filterMap fun x => x).map f).filterMap fun x => x)
          (mask ((cands.filterMap fun x => x).map fun c => (f c).isSome) (cands.filterMap fun x => x))).map fun t : ℝ => (t : WithTop ℝ))
        (List.replicate cands.length ⊤) = cands.map (chosenParam f) := by
    intro cands
    induction cands with
    | nil => rfl
    | cons c cands ih =>
      cases c with
      | none =>
        simp only [List.map_cons, Option.isSome_none, List.filterMap_cons, scatter_false, List.length_cons,
          List.replicate_succ]
        rw [ih]
        rfl
      | some c =>
        simp only [List.map_cons, Option.isSome_some, List.filterMap_cons, scatter_true, List.length_cons,
          List.replicate_succ]
        cases hf : f c with
        | none =>
          simp only [Option.isSome_none, mask_false, scatter_false]
          rw [ih]
          simp [chosenParam, hf]
        | some b =>
          simp only [Option.isSome_some, mask_true, scatter_true, List.zipWith_cons_cons, List.map_cons]
          rw [ih]
          simp [chosenParam, hf]
  unfold quadricFind
  simp only [hs _ rfl, List.map_map]
  have := key (rays.map fun r => candidate (abc r.vertex r.dir) r.vertex r.dir)
  simp only [List.map_map, List.length_map, Function.comp_def] at this ⊢
  exact this

theorem quadricFind_map (abc : V3 ℝ → V3 ℝ → ℝ × ℝ × ℝ) {select : List Cand → List (Option Bool)}
    {f : Cand → Option Bool} (hs : ∀ cands, select cands = cands.map f) (rays : Bundle ℝ E) :
    quadricFind abc select rays =
      rays.map fun r => chosenParam f (candidate (abc r.vertex r.dir) r.vertex r.dir) :=
  quadricFind_of abc rays fun cands _ => hs cands

/-! ### Roots -/

theorem planarTol_pos : (0 : ℝ) < planarTol := by unfold planarTol; positivity

/-- The two solutions of a quadratic equation with positive leading coefficient, in order. -/
theorem quadratic_roots {A B C : ℝ} (hA : 0 < A) (hd : 0 ≤ B ^ 2 - 4 * A * C) :
    (-B + -1 * √(B ^ 2 - 4 * A * C)) / (2 * A) ≤ (-B + 1 * √(B ^ 2 - 4 * A * C)) / (2 * A) ∧
    ∀ s, A * s ^ 2 + B * s + C = 0 ↔
      s = (-B + -1 * √(B ^ 2 - 4 * A * C)) / (2 * A) ∨ s = (-B + 1 * √(B ^ 2 - 4 * A * C)) / (2 * A) := by
  have hsq := Real.sq_sqrt hd
  have h0 := Real.sqrt_nonneg (B ^ 2 - 4 * A * C)
  generalize √(B ^ 2 - 4 * A * C) = q at hsq h0
  have h2A : (0 : ℝ) < 2 * A := by linarith
  constructor
  · exact (div_le_div_iff_of_pos_right h2A).2 (by linarith)
  · intro s
    rw [eq_div_iff h2A.ne', eq_div_iff h2A.ne']
    constructor
    · intro h
      have : (s * (2 * A) - (-B + -1 * q)) * (s * (2 * A) - (-B + 1 * q)) = 0 := by
        linear_combination 4 * A * h - hsq
      rcases mul_eq_zero.1 this with h | h
      · exact Or.inl (by linarith)
      · exact Or.inr (by linarith)
    · intro h
      have : (s * (2 * A) - (-B + -1 * q)) * (s * (2 * A) - (-B + 1 * q)) = 0 := by
        rcases h with h | h <;> rw [h] <;> ring
      have h4 : 4 * A * (A * s ^ 2 + B * s + C) = 0 := by linear_combination this + hsq
      rcases mul_eq_zero.1 h4 with h | h
      · linarith
      · exact h

theorem quadratic_no_root {A B C : ℝ} (hd : B ^ 2 - 4 * A * C < 0) (s : ℝ) : A * s ^ 2 + B * s + C ≠ 0 := by
  intro h
  have e : (2 * A * s + B) ^ 2 = B ^ 2 - 4 * A * C := by linear_combination 4 * A * h
  have := sq_nonneg (2 * A * s + B)
  linarith

theorem trimPick_true (c : Cand) : trimPick (fun _ => true) c = defaultPick c := by
  unfold trimPick defaultPick
  simp

end Tracer
