import Verif.Spec.SceneView
import Mathlib.Data.List.Nodup

/-! The book-keeping of `TracerScene`: which mesh belongs to which surface. -/

namespace Tracer.View

set_option linter.unusedSectionVars false

variable {A I S M L K : Type _} [DecidableEq I]

/-- The dictionary of meshes and the drawings agree. -/
structure Tidy (meshes : List (I × Option Nat)) (drawn : List (Nat × I × M)) (next : Nat) : Prop where
  keys : (meshes.map Prod.fst).Nodup
  ids : (drawn.map fun x => x.2.1).Nodup
  owned : ∀ h i m, (h, i, m) ∈ drawn → (i, some h) ∈ meshes
  fresh : ∀ i h, (i, some h) ∈ meshes → h < next
  inj : ∀ i j h, (i, some h) ∈ meshes → (j, some h) ∈ meshes → i = j

theorem key_unique {l : List (I × Option Nat)} (hl : (l.map Prod.fst).Nodup) {i : I} {a b : Option Nat}
    (ha : (i, a) ∈ l) (hb : (i, b) ∈ l) : a = b := by
  have := List.inj_on_of_nodup_map hl ha hb rfl
  exact (Prod.mk.inj this).2

theorem mem_erase {α : Type _} {h : Nat} {d : List (Nat × α)} {x : Nat × α} : x ∈ erase h d ↔ x ∈ d ∧ x.1 ≠ h := by
  simp [erase]

theorem erase_sublist {α : Type _} (h : Nat) (d : List (Nat × α)) : (erase h d).Sublist d := List.filter_sublist

theorem eraseOpt_sublist {α : Type _} (h : Option Nat) (d : List (Nat × α)) : (eraseOpt h d).Sublist d := by
  cases h with
  | none => exact List.Sublist.refl _
  | some h => exact erase_sublist h d

/-- Removing the mesh of an item takes away the drawings of its surface and no others. -/
theorem mem_eraseOpt {meshes : List (I × Option Nat)} {d : List (Nat × I × M)} {n : Nat} (t : Tidy meshes d n)
    {i : I} {h : Option Nat} (hi : (i, h) ∈ meshes) (k : Nat) (j : I) (m : M) :
    (k, j, m) ∈ eraseOpt h d ↔ (k, j, m) ∈ d ∧ j ≠ i := by
  constructor
  · intro hk
    have hd := (eraseOpt_sublist h d).subset hk
    refine ⟨hd, ?_⟩
    rintro rfl
    have := key_unique t.keys hi (t.owned _ _ _ hd)
    subst this
    exact (mem_erase.1 hk).2 rfl
  · rintro ⟨hd, hj⟩
    cases h with
    | none => exact hd
    | some h =>
      refine mem_erase.2 ⟨hd, ?_⟩
      rintro rfl
      exact hj (t.inj _ _ _ (t.owned _ _ _ hd) hi)

theorem Tidy.sublist {meshes : List (I × Option Nat)} {d d' : List (Nat × I × M)} {n : Nat} (t : Tidy meshes d n)
    (h : d'.Sublist d) : Tidy meshes d' n :=
  ⟨t.keys, (h.map _).nodup t.ids, fun _ _ _ hm => t.owned _ _ _ (h.subset hm), t.fresh, t.inj⟩

/-- Redrawing one item. -/
theorem Tidy.redraw {pre rest : List (I × Option Nat)} {i : I} {h : Option Nat} {d : List (Nat × I × M)} {n : Nat}
    (t : Tidy (pre ++ (i, h) :: rest) d n) (m : M) :
    Tidy (pre ++ (i, some n) :: rest) (eraseOpt h d ++ [(n, i, m)]) (n + 1) := by
  have hi : (i, h) ∈ pre ++ (i, h) :: rest := by simp
  have other : ∀ j a, (j, a) ∈ pre ++ (i, some n) :: rest → (j = i ∧ a = some n) ∨ (j, a) ∈ pre ++ (i, h) :: rest := by
    intro j a hj
    simp only [List.mem_append, List.mem_cons, Prod.mk.injEq] at hj ⊢
    tauto
  have keep : ∀ j a, (j, a) ∈ pre ++ (i, h) :: rest → j ≠ i → (j, a) ∈ pre ++ (i, some n) :: rest := by
    intro j a hj hne
    simp only [List.mem_append, List.mem_cons, Prod.mk.injEq] at hj ⊢
    tauto
  refine ⟨?_, ?_, ?_, ?_, ?_⟩
  · have := t.keys
    simpa using this
  · rw [List.map_append, List.nodup_append]
    refine ⟨((eraseOpt_sublist h d).map _).nodup t.ids, by simp, ?_⟩
    rintro a ha b hb rfl
    obtain ⟨⟨k, j, m'⟩, hk, rfl⟩ := List.mem_map.1 ha
    simp only [List.map_cons, List.map_nil, List.mem_singleton] at hb
    exact ((mem_eraseOpt t hi k j m').1 hk).2 hb
  · intro k j m' hk
    rcases List.mem_append.1 hk with hk | hk
    · obtain ⟨hd, hj⟩ := (mem_eraseOpt t hi k j m').1 hk
      exact keep _ _ (t.owned _ _ _ hd) hj
    · simp only [List.mem_singleton, Prod.mk.injEq] at hk
      obtain ⟨rfl, rfl, rfl⟩ := hk
      simp
  · intro j k hj
    rcases other _ _ hj with ⟨_, hk⟩ | hj
    · have := Option.some.inj hk; omega
    · exact Nat.lt_succ_of_lt (t.fresh _ _ hj)
  · intro j j' k hj hj'
    rcases other _ _ hj with ⟨rfl, hk⟩ | hj
    · rcases other _ _ hj' with ⟨rfl, _⟩ | hj'
      · rfl
      · have := Option.some.inj hk; have := t.fresh _ _ hj'; omega
    · rcases other _ _ hj' with ⟨_, hk⟩ | hj'
      · have := Option.some.inj hk; have := t.fresh _ _ hj; omega
      · exact t.inj _ _ _ hj hj'

/-- `update` selects a surface. -/
def Selected (upd : Option (List I)) (i : I) : Prop := ∀ u, upd = some u → i ∈ u

theorem skip_iff (upd : Option (List I)) (i : I) : (upd.map fun u => decide (i ∉ u)) = some true ↔ ¬ Selected upd i := by
  cases upd <;> simp [Selected]

/-- The loop of `show_assembly`. -/
theorem showLoop_spec (look : I → Except Err M) (upd : Option (List I)) (todo : List (I × Option Nat)) :
    ∀ (pre : List (I × Option Nat)) (d : List (Nat × I × M)) (n : Nat), Tidy (pre ++ todo) d n →
      Tidy (pre ++ (showLoop look upd todo d n).1) (showLoop look upd todo d n).2.1 (showLoop look upd todo d n).2.2.1 ∧
      (showLoop look upd todo d n).1.map Prod.fst = todo.map Prod.fst ∧
      (∀ h i m, ¬ (i ∈ todo.map Prod.fst ∧ Selected upd i) →
        ((h, i, m) ∈ (showLoop look upd todo d n).2.1 ↔ (h, i, m) ∈ d)) ∧
      ((showLoop look upd todo d n).2.2.2 = none → ∀ i ∈ todo.map Prod.fst, Selected upd i →
        ∃ h m, look i = .ok m ∧ (h, i, m) ∈ (showLoop look upd todo d n).2.1) ∧
      (∀ e, (showLoop look upd todo d n).2.2.2 = some e → ∃ i ∈ todo.map Prod.fst, Selected upd i ∧ look i = .error e) := by
  induction todo with
  | nil => intro pre d n t; exact ⟨t, rfl, fun _ _ _ _ => Iff.rfl, fun _ i hi => by simp at hi, fun e he => by simp [showLoop] at he⟩
  | cons x rest ih =>
    obtain ⟨i, h⟩ := x
    intro pre d n t
    by_cases hs : (upd.map fun u => decide (i ∉ u)) = some true
    · have hs' := (skip_iff upd i).1 hs
      have he : showLoop look upd ((i, h) :: rest) d n =
          ((i, h) :: (showLoop look upd rest d n).1, (showLoop look upd rest d n).2) := by
        rw [showLoop]; simp only [hs, if_true]
      obtain ⟨a, b, c, f, g⟩ := ih (pre ++ [(i, h)]) d n (by simpa using t)
      rw [he]
      refine ⟨by simpa using a, by simp [b], ?_, ?_, ?_⟩
      · intro k j m hj
        refine c k j m fun hj' => hj ⟨?_, hj'.2⟩
        simp only [List.map_cons, List.mem_cons]; exact Or.inr hj'.1
      · intro hn j hj hsel
        simp only [List.map_cons, List.mem_cons] at hj
        rcases hj with rfl | hj
        · exact absurd hsel hs'
        · exact f hn j hj hsel
      · intro e hee
        obtain ⟨j, hj, r⟩ := g e hee
        exact ⟨j, by simp only [List.map_cons, List.mem_cons]; exact Or.inr hj, r⟩
    · have hsel : Selected upd i := by
        by_contra hc; exact hs ((skip_iff upd i).2 hc)
      have hi : (i, h) ∈ pre ++ (i, h) :: rest := by simp
      have hrest : i ∉ rest.map Prod.fst := by
        have := t.keys
        rw [List.map_append, List.nodup_append] at this
        exact (List.nodup_cons.1 this.2.1).1
      cases hl : look i with
      | error e =>
        have he : showLoop look upd ((i, h) :: rest) d n = ((i, h) :: rest, eraseOpt h d, n, some e) := by
          rw [showLoop]; simp only [hs, if_false, hl]
        rw [he]
        refine ⟨t.sublist (eraseOpt_sublist h d), rfl, ?_, fun hn => by simp at hn, ?_⟩
        · intro k j m hj
          rw [mem_eraseOpt t hi]
          refine and_iff_left_of_imp fun _ => ?_
          rintro rfl
          exact hj ⟨by simp, hsel⟩
        · intro e' he'
          simp only [Option.some.injEq] at he'
          subst he'
          exact ⟨i, by simp, hsel, hl⟩
      | ok m =>
        have he : showLoop look upd ((i, h) :: rest) d n =
            ((i, some n) :: (showLoop look upd rest (eraseOpt h d ++ [(n, i, m)]) (n + 1)).1,
              (showLoop look upd rest (eraseOpt h d ++ [(n, i, m)]) (n + 1)).2) := by
          rw [showLoop]; simp only [hs, if_false, hl]
        obtain ⟨a, b, c, f, g⟩ := ih (pre ++ [(i, some n)]) (eraseOpt h d ++ [(n, i, m)]) (n + 1)
          (by simpa using t.redraw m)
        rw [he]
        refine ⟨by simpa using a, by simp [b], ?_, ?_, ?_⟩
        · intro k j m' hj
          have hne : j ≠ i := by rintro rfl; exact hj ⟨by simp, hsel⟩
          have := c k j m' fun hj' => hj ⟨by simp only [List.map_cons, List.mem_cons]; exact Or.inr hj'.1, hj'.2⟩
          rw [this, List.mem_append, mem_eraseOpt t hi]
          simp [hne]
        · intro hn j hj hj'
          simp only [List.map_cons, List.mem_cons] at hj
          rcases hj with rfl | hj
          · exact ⟨n, m, hl, (c n j m fun hc => hrest hc.1).2 (by simp)⟩
          · exact f hn j hj hj'
        · intro e hee
          obtain ⟨j, hj, r⟩ := g e hee
          exact ⟨j, by simp only [List.map_cons, List.mem_cons]; exact Or.inr hj, r⟩

theorem mem_keysOf (l : List I) : ∀ i, i ∈ Scene.keysOf l ↔ i ∈ l := by
  induction l with
  | nil => intro i; simp [Scene.keysOf]
  | cons a l ih =>
    intro i
    simp only [Scene.keysOf, List.mem_cons, List.mem_filter, ih, decide_eq_true_eq]
    by_cases h : i = a <;> simp [h]

theorem keysOf_nodup (l : List I) : (Scene.keysOf l).Nodup := by
  induction l with
  | nil => simp [Scene.keysOf]
  | cons a l ih =>
    simp only [Scene.keysOf, List.nodup_cons, List.mem_filter, decide_eq_true_eq]
    exact ⟨fun h => h.2 rfl, ih.filter _⟩

theorem newSurfs_spec (l : List I) : ∀ keys : List I,
    (Scene.newSurfs keys l).Nodup ∧ ∀ i, i ∈ Scene.newSurfs keys l ↔ i ∈ l ∧ i ∉ keys := by
  induction l with
  | nil => intro keys; simp [Scene.newSurfs]
  | cons a l ih =>
    intro keys
    by_cases h : a ∈ keys
    · have he : Scene.newSurfs keys (a :: l) = Scene.newSurfs keys l := by rw [Scene.newSurfs]; simp [h]
      rw [he]
      refine ⟨(ih keys).1, fun i => ?_⟩
      rw [(ih keys).2 i, List.mem_cons]
      by_cases hi : i = a
      · subst hi; simp [h]
      · simp [hi]
    · have he : Scene.newSurfs keys (a :: l) = a :: Scene.newSurfs (keys ++ [a]) l := by rw [Scene.newSurfs]; simp [h]
      obtain ⟨n, e⟩ := ih (keys ++ [a])
      rw [he]
      refine ⟨List.nodup_cons.2 ⟨fun hm => by simpa using ((e a).1 hm).2, n⟩, fun i => ?_⟩
      rw [List.mem_cons, e i, List.mem_cons]
      by_cases hi : i = a
      · subst hi; simp [h]
      · simp [hi]

/-- The loop that removes surfaces. -/
theorem removeLoop_spec (ids : List I) (todo : List (I × Option Nat)) :
    ∀ (pre : List (I × Option Nat)) (d : List (Nat × I × M)) (n : Nat), Tidy (pre ++ todo) d n →
      Tidy (pre ++ (Scene.removeLoop ids todo d).1) (Scene.removeLoop ids todo d).2.1 n ∧
      (∀ h i m, (i ∈ todo.map Prod.fst → i ∈ ids) → ((h, i, m) ∈ (Scene.removeLoop ids todo d).2.1 ↔ (h, i, m) ∈ d)) ∧
      ((Scene.removeLoop ids todo d).2.2 = none →
        (Scene.removeLoop ids todo d).1 = todo.filter fun x => decide (x.1 ∈ ids)) ∧
      (∀ e, (Scene.removeLoop ids todo d).2.2 = some e → e = .attribute ∧ ∃ i, (i, none) ∈ todo ∧ i ∉ ids) := by
  induction todo with
  | nil => intro pre d n t; exact ⟨t, fun _ _ _ _ => Iff.rfl, fun _ => rfl, fun e he => by simp [Scene.removeLoop] at he⟩
  | cons x rest ih =>
    obtain ⟨i, h⟩ := x
    intro pre d n t
    by_cases hin : i ∈ ids
    · have he : Scene.removeLoop ids ((i, h) :: rest) d =
          ((i, h) :: (Scene.removeLoop ids rest d).1, (Scene.removeLoop ids rest d).2) := by
        cases h <;> rw [Scene.removeLoop] <;> simp only [hin, if_true]
      obtain ⟨a, c, f, g⟩ := ih (pre ++ [(i, h)]) d n (by simpa using t)
      rw [he]
      refine ⟨by simpa using a, ?_, ?_, ?_⟩
      · intro k j m hj
        refine c k j m fun hj' => hj ?_
        simp only [List.map_cons, List.mem_cons]; exact Or.inr hj'
      · intro hn
        simp only [List.filter_cons, hin, decide_true, if_true, f hn]
      · intro e hee
        obtain ⟨h1, j, hj, r⟩ := g e hee
        exact ⟨h1, j, List.mem_cons_of_mem _ hj, r⟩
    · cases h with
      | none =>
        have he : Scene.removeLoop ids ((i, none) :: rest) d = ((i, none) :: rest, d, some .attribute) := by
          rw [Scene.removeLoop]; simp only [hin, if_false]
        rw [he]
        refine ⟨t, fun _ _ _ _ => Iff.rfl, fun hn => by simp at hn, ?_⟩
        intro e hee
        simp only [Option.some.injEq] at hee
        exact ⟨hee.symm, i, by simp, hin⟩
      | some h =>
        have he : Scene.removeLoop ids ((i, some h) :: rest) d = Scene.removeLoop ids rest (erase h d) := by
          rw [Scene.removeLoop]; simp only [hin, if_false]
        have hi : (i, some h) ∈ pre ++ (i, some h) :: rest := by simp
        have hm : ∀ k j m, (k, j, m) ∈ erase h d ↔ (k, j, m) ∈ d ∧ j ≠ i := fun k j m => mem_eraseOpt t hi k j m
        have t' : Tidy (pre ++ rest) (erase h d) n := by
          have sub : (pre ++ rest).Sublist (pre ++ (i, some h) :: rest) :=
            List.Sublist.append_left (List.sublist_cons_self _ _) _
          refine ⟨(sub.map _).nodup t.keys, ((erase_sublist h d).map _).nodup t.ids, ?_,
            fun j k hj => t.fresh _ _ (sub.subset hj), fun j j' k hj hj' => t.inj _ _ _ (sub.subset hj) (sub.subset hj')⟩
          intro k j m hk
          obtain ⟨hd, hne⟩ := (hm k j m).1 hk
          have := t.owned _ _ _ hd
          simp only [List.mem_append, List.mem_cons, Prod.mk.injEq] at this ⊢
          tauto
        obtain ⟨a, c, f, g⟩ := ih pre (erase h d) n t'
        rw [he]
        refine ⟨a, ?_, ?_, ?_⟩
        · intro k j m hj
          have hne : j ≠ i := by rintro rfl; exact hin (hj (by simp))
          rw [c k j m fun hj' => hj (by simp only [List.map_cons, List.mem_cons]; exact Or.inr hj'), hm]
          exact and_iff_left hne
        · intro hn
          simp only [List.filter_cons, hin, decide_false, f hn]
          simp
        · intro e hee
          obtain ⟨h1, j, hj, r⟩ := g e hee
          exact ⟨h1, j, List.mem_cons_of_mem _ hj, r⟩

/-- A dictionary with no meshes yet, and nothing drawn. -/
theorem Tidy.blank {l : List I} (hl : l.Nodup) (n : Nat) : Tidy (M := M) (l.map fun i => (i, none)) [] n := by
  refine ⟨?_, by simp, by simp, ?_, ?_⟩
  · rw [List.map_map]
    have : (Prod.fst ∘ fun i : I => ((i, none) : I × Option Nat)) = id := rfl
    rw [this, List.map_id]; exact hl
  · intro i h hm; simp at hm
  · intro i j h hm; simp at hm

/-- Adding surfaces that have no mesh yet. -/
theorem Tidy.add {meshes : List (I × Option Nat)} {d : List (Nat × I × M)} {n : Nat} (t : Tidy meshes d n) {new : List I}
    (hn : new.Nodup) (hd : ∀ i ∈ new, i ∉ meshes.map Prod.fst) : Tidy (meshes ++ new.map fun i => (i, none)) d n := by
  have old : ∀ i h, (i, some h) ∈ meshes ++ new.map (fun i => (i, none)) → (i, some h) ∈ meshes := by
    intro i h hm
    rcases List.mem_append.1 hm with hm | hm
    · exact hm
    · simp at hm
  refine ⟨?_, t.ids, fun k j m hk => List.mem_append_left _ (t.owned _ _ _ hk), fun i h hm => t.fresh _ _ (old _ _ hm),
    fun i j h hi hj => t.inj _ _ _ (old _ _ hi) (old _ _ hj)⟩
  rw [List.map_append, List.map_map]
  have : (Prod.fst ∘ fun i : I => ((i, none) : I × Option Nat)) = id := rfl
  rw [this, List.map_id, List.nodup_append]
  refine ⟨t.keys, hn, ?_⟩
  rintro a ha b hb rfl
  exact hd a hb ha

end Tracer.View
