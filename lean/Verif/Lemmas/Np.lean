import Verif.Model.Np
import Mathlib.Data.List.Basic
import Mathlib.Data.List.Forall2
import Mathlib.Tactic.Common

/-! Helper lemmas about the NumPy idioms. -/

namespace Tracer.Np

variable {α β : Type _}

@[simp] theorem mask_nil_left (l : List α) : mask [] l = [] := by cases l <;> rfl
@[simp] theorem mask_nil_right (m : List Bool) : mask m ([] : List α) = [] := by
  cases m with
  | nil => rfl
  | cons b m => cases b <;> rfl
@[simp] theorem mask_true (m : List Bool) (x : α) (l) : mask (true :: m) (x :: l) = x :: mask m l := rfl
@[simp] theorem mask_false (m : List Bool) (x : α) (l) : mask (false :: m) (x :: l) = mask m l := rfl

@[simp] theorem scatter_nil_mask (v o : List α) : scatter [] v o = o := by cases v <;> cases o <;> rfl
@[simp] theorem scatter_nil_old (m : List Bool) (v : List α) : scatter m v [] = [] := by
  cases m with
  | nil => cases v <;> rfl
  | cons b m => cases b <;> cases v <;> rfl
@[simp] theorem scatter_true (m : List Bool) (v : α) (vs : List α) (o : α) (os) :
    scatter (true :: m) (v :: vs) (o :: os) = v :: scatter m vs os := rfl
@[simp] theorem scatter_false (m : List Bool) (vs : List α) (o : α) (os) :
    scatter (false :: m) vs (o :: os) = o :: scatter m vs os := by cases vs <;> rfl
@[simp] theorem scatter_true_nil (m : List Bool) (o : α) (os) :
    scatter (true :: m) [] (o :: os) = o :: scatter m [] os := rfl

@[simp] theorem nonzero_nil : nonzero [] = [] := rfl
@[simp] theorem nonzero_true (m) : nonzero (true :: m) = 0 :: (nonzero m).map (· + 1) := rfl
@[simp] theorem nonzero_false (m) : nonzero (false :: m) = (nonzero m).map (· + 1) := rfl

theorem mem_nonzero {m : List Bool} {i : Nat} : i ∈ nonzero m ↔ m[i]? = some true := by
  induction m generalizing i with
  | nil => simp
  | cons b m ih =>
    cases b <;> cases i <;> simp [ih]

theorem nonzero_sorted (m : List Bool) : (nonzero m).Pairwise (· < ·) := by
  induction m with
  | nil => simp
  | cons b m ih =>
    have h : ((nonzero m).map (· + 1)).Pairwise (· < ·) :=
      ih.map _ (fun _ _ h => Nat.succ_lt_succ h)
    cases b
    · exact h
    · rw [nonzero_true, List.pairwise_cons]
      exact ⟨by simp, h⟩

theorem nonzero_nodup (m : List Bool) : (nonzero m).Nodup :=
  (nonzero_sorted m).imp (fun h => Nat.ne_of_lt h)

theorem mask_length {m : List Bool} {l : List α} (h : m.length = l.length) :
    (mask m l).length = (nonzero m).length := by
  induction m generalizing l with
  | nil => simp
  | cons b m ih =>
    cases l with
    | nil => simp at h
    | cons x l =>
      simp only [List.length_cons, Nat.add_right_cancel_iff] at h
      cases b <;> simp [ih h]

theorem mask_eq_filterMap (m : List Bool) (l : List α) (h : m.length = l.length) :
    mask m l = (nonzero m).filterMap (fun i => l[i]?) := by
  induction m generalizing l with
  | nil => simp
  | cons b m ih =>
    cases l with
    | nil => simp at h
    | cons x l =>
      simp only [List.length_cons, Nat.add_right_cancel_iff] at h
      cases b <;> simp [ih l h, List.filterMap_map]

theorem mask_getElem? {m : List Bool} {l : List α} (h : m.length = l.length) (i : Nat) :
    (mask m l)[i]? = ((nonzero m)[i]?).bind (fun j => l[j]?) := by
  induction m generalizing l i with
  | nil => simp
  | cons b m ih =>
    cases l with
    | nil => simp at h
    | cons x l =>
      simp only [List.length_cons, Nat.add_right_cancel_iff] at h
      cases b with
      | true =>
        cases i with
        | zero => simp
        | succ i => simp [ih h, Option.map_eq_bind, Option.bind_assoc, Function.comp_def]
      | false => simp [ih h, Option.map_eq_bind, Option.bind_assoc, Function.comp_def]

theorem mask_sublist (m : List Bool) (l : List α) : (mask m l).Sublist l := by
  induction m generalizing l with
  | nil => simp
  | cons b m ih =>
    cases l with
    | nil => simp
    | cons x l => cases b <;> simp [ih l, List.Sublist.cons]

theorem mask_map (m : List Bool) (f : α → β) (l : List α) : mask m (l.map f) = (mask m l).map f := by
  induction m generalizing l with
  | nil => simp
  | cons b m ih =>
    cases l with
    | nil => simp
    | cons x l => cases b <;> simp [ih l]

theorem mask_all_true {m : List Bool} {l : List α} (h : m.length = l.length)
    (ht : m.any (! ·) = false) : mask m l = l := by
  induction m generalizing l with
  | nil =>
    cases l with
    | nil => rfl
    | cons => simp at h
  | cons b m ih =>
    cases l with
    | nil => simp at h
    | cons x l =>
      simp only [List.length_cons, Nat.add_right_cancel_iff] at h
      cases b
      · simp at ht
      · simp only [List.any_cons, Bool.not_true, Bool.false_or] at ht
        simp [ih h ht]

theorem mask_map_self (p : α → Bool) (l : List α) : mask (l.map p) l = l.filter p := by
  induction l with
  | nil => simp
  | cons x l ih => cases h : p x <;> simp [h, ih]

theorem mask_append {m1 m2 : List Bool} {l1 l2 : List α} (h : m1.length = l1.length) :
    mask (m1 ++ m2) (l1 ++ l2) = mask m1 l1 ++ mask m2 l2 := by
  induction m1 generalizing l1 with
  | nil =>
    have : l1 = [] := by simpa [eq_comm] using h
    simp [this]
  | cons b m ih =>
    cases l1 with
    | nil => simp at h
    | cons x l =>
      simp only [List.length_cons, Nat.add_right_cancel_iff] at h
      cases b <;> simp [ih h]

@[simp] theorem scatter_length (m : List Bool) (v o : List α) : (scatter m v o).length = o.length := by
  induction o generalizing m v with
  | nil => simp
  | cons x o ih =>
    cases m with
    | nil => simp
    | cons b m =>
      cases b
      · simp [ih]
      · cases v <;> simp [ih]

/-- Reading back the scattered positions gives the values. -/
theorem mask_scatter {m : List Bool} {v o : List α} (h : m.length = o.length)
    (hv : v.length = (nonzero m).length) : mask m (scatter m v o) = v := by
  induction m generalizing v o with
  | nil => simpa [eq_comm] using hv
  | cons b m ih =>
    cases o with
    | nil => simp at h
    | cons x o =>
      simp only [List.length_cons, Nat.add_right_cancel_iff] at h
      cases b
      · simp at hv
        simp [ih h hv]
      · cases v with
        | nil => simp at hv
        | cons y v =>
          simp at hv
          simp [ih h hv]

/-- Positions outside the mask keep their value. -/
theorem scatter_getElem?_false {m : List Bool} {v o : List α} {j : Nat} (h : m[j]? = some false) :
    (scatter m v o)[j]? = o[j]? := by
  induction m generalizing v o j with
  | nil => simp at h
  | cons b m ih =>
    cases o with
    | nil => simp
    | cons x o =>
      cases j with
      | zero =>
        simp at h
        simp [h]
      | succ j =>
        simp at h
        cases b
        · simp [ih h]
        · cases v <;> simp [ih h]

theorem scatter_getElem?_true {m : List Bool} {v o : List α} {i j : Nat}
    (hl : m.length = o.length) (h : (nonzero m)[i]? = some j) (hi : i < v.length) :
    (scatter m v o)[j]? = v[i]? := by
  induction m generalizing v o i j with
  | nil => simp at h
  | cons b m ih =>
    cases o with
    | nil => simp at hl
    | cons x o =>
      simp only [List.length_cons, Nat.add_right_cancel_iff] at hl
      cases b
      · simp at h
        obtain ⟨k, hk, rfl⟩ := h
        simp [ih hl hk hi]
      · cases v with
        | nil => simp at hi
        | cons y v =>
          cases i with
          | zero =>
            simp at h
            subst h
            simp
          | succ i =>
            simp at h hi
            obtain ⟨k, hk, rfl⟩ := h
            simp [ih hl hk hi]

theorem take_eq_ok {l : List α} {sel : List Nat} {r : List α} :
    take l sel = .ok r ↔ r.length = sel.length ∧ ∀ k i : Nat, sel[k]? = some i → l[i]? = r[k]? ∧ i < l.length := by
  induction sel generalizing r with
  | nil =>
    simp only [take, Except.ok.injEq, List.length_nil, List.getElem?_nil, reduceCtorEq,
      false_implies, implies_true, and_true]
    rw [List.length_eq_zero_iff]; exact eq_comm
  | cons i sel ih =>
    rw [take]
    constructor
    · intro h
      split at h
      · simp at h
      · rename_i x hx
        split at h
        · simp at h
        · rename_i xs hxs
          simp only [Except.ok.injEq] at h
          subst h
          obtain ⟨h1, h2⟩ := ih.1 hxs
          refine ⟨by simp [h1], ?_⟩
          intro k j hk
          cases k with
          | zero =>
            simp at hk
            subst hk
            exact ⟨by simpa using hx, (List.getElem?_eq_some_iff.1 hx).1⟩
          | succ k =>
            simp at hk
            simpa using h2 k j hk
    · rintro ⟨hl, h⟩
      cases r with
      | nil => simp at hl
      | cons x xs =>
        have h0 := (h 0 i (by simp)).1
        simp at h0
        rw [h0]
        have := ih (r := xs) |>.2 ⟨by simpa using hl, fun k j hk => by
          simpa using h (k+1) j (by simpa using hk)⟩
        simp [this]

theorem take_length {l : List α} {sel : List Nat} {r : List α} (h : take l sel = .ok r) :
    r.length = sel.length := (take_eq_ok.1 h).1

theorem take_ok_of_lt {l : List α} {sel : List Nat} (h : ∀ i ∈ sel, i < l.length) :
    ∃ r, take l sel = .ok r := by
  induction sel with
  | nil => exact ⟨[], rfl⟩
  | cons i sel ih =>
    obtain ⟨r, hr⟩ := ih (fun j hj => h j (List.mem_cons_of_mem _ hj))
    have hi : i < l.length := h i (by simp)
    refine ⟨l[i] :: r, ?_⟩
    rw [take, List.getElem?_eq_getElem hi]
    simp [hr]

theorem take_eq_filterMap {l : List α} {sel : List Nat} {r : List α} (h : take l sel = .ok r) :
    r = sel.filterMap (fun i => l[i]?) := by
  induction sel generalizing r with
  | nil => simp [take] at h; simp [h]
  | cons i sel ih =>
    rw [take] at h
    split at h
    · simp at h
    · rename_i x hx
      split at h
      · simp at h
      · rename_i xs hxs
        simp only [Except.ok.injEq] at h
        subst h
        simp [hx, ih hxs]

theorem take_nonzero {m : List Bool} {l : List α} (h : m.length = l.length) :
    take l (nonzero m) = .ok (mask m l) := by
  obtain ⟨r, hr⟩ := take_ok_of_lt (l := l) (sel := nonzero m) (fun i hi => by
    have := mem_nonzero.1 hi
    have := (List.getElem?_eq_some_iff.1 this).1
    omega)
  rw [hr, take_eq_filterMap hr, mask_eq_filterMap m l h]

theorem deleteFrom_nonzero (m : List Bool) (l : List α) (h : m.length = l.length) (k : Nat)
    (sel : List Nat) (hs : ∀ i, i + k ∈ sel ↔ m[i]? = some true) :
    deleteFrom sel k l = mask (m.map (! ·)) l := by
  induction m generalizing l k with
  | nil =>
    have : l = [] := by simpa [eq_comm] using h
    simp [this, deleteFrom]
  | cons b m ih =>
    cases l with
    | nil => simp at h
    | cons x l =>
      simp only [List.length_cons, Nat.add_right_cancel_iff] at h
      have h0 := hs 0
      have ih' := ih l h (k+1) (fun i => by
        have := hs (i+1)
        rw [show i + 1 + k = i + (k+1) by omega] at this
        simpa using this)
      rw [deleteFrom, ih']
      cases b <;> simp_all

theorem delete_nonzero {m : List Bool} {l : List α} (h : m.length = l.length) :
    delete l (nonzero m) = mask (m.map (! ·)) l :=
  deleteFrom_nonzero m l h 0 _ (fun i => by simp [mem_nonzero])

theorem mem_mask_iff {m f : List Bool} (h : m.length = f.length) {i : Nat} :
    i ∈ nonzero (mask m f) ↔ ∃ j, (nonzero m)[i]? = some j ∧ f[j]? = some true := by
  rw [mem_nonzero, mask_getElem? h]
  simp [Option.bind_eq_some_iff]

end Tracer.Np
