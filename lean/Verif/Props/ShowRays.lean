import Verif.Model.ShowRays
import Verif.Spec.ShowRays
import Verif.Lemmas.Np
import Mathlib.Algebra.Order.Field.Rat
import Mathlib.Tactic.Linarith

/-!
# Drawing the rays of a trace (C65)
-/

set_option linter.unusedSectionVars false

namespace Tracer

variable {K E : Type _} [Field K] [DecidableEq K]

theorem shownRays_length {sel : Option (Bundle K E → List Bool)} (hs : SelectorOk sel) (l : Bundle K E) :
    (shownRays sel l).length = l.length := by
  unfold shownRays
  cases sel with
  | none => simp
  | some f => simp [hs f rfl l]

/-- The ends and the starts of a level are as many, and the starts are rays of the level. -/
theorem levelEnds_ok (len : K) {sel : Option (Bundle K E → List Bool)} (hs : SelectorOk sel) (l : Bundle K E)
    (rest : List (Bundle K E)) (hp : ∀ next ∈ rest.head?, ∀ c ∈ next, c.parent < l.length) :
    (levelEnds len sel l rest).1.length = (levelEnds len sel l rest).2.length ∧
    ∀ i ∈ (levelEnds len sel l rest).2, i < l.length := by
  have hsl := shownRays_length hs l
  have hml : (Np.mask (shownRays sel l) l).length ≤ l.length := (Np.mask_sublist _ _).length_le
  have hnl : (Np.nonzero (shownRays sel l)).length = (Np.mask (shownRays sel l) l).length := (Np.mask_length hsl).symm
  unfold levelEnds
  cases rest with
  | nil =>
    simp only [List.length_map, List.length_range, List.mem_range, true_and]
    intro i hi; omega
  | cons ends rest =>
    have hesc : ((Np.nonzero (shownRays sel l)).map fun i => !((ends.map Ray.parent).any fun p => decide (i = p))).length =
        (Np.mask (shownRays sel l) l).length := by rw [List.length_map, hnl]
    simp only [List.length_append, List.length_map]
    constructor
    · rw [Np.mask_length hesc]
    · intro i hi
      rcases List.mem_append.1 hi with hi | hi
      · obtain ⟨c, hc, rfl⟩ := List.mem_map.1 hi
        exact hp ends rfl c hc
      · have := Np.mem_nonzero.1 hi
        have := (List.getElem?_eq_some_iff.1 this).1
        omega

/-- What is drawn, level by level. -/
theorem drawn_levels (len : K) {sel : Option (Bundle K E → List Bool)} (hs : SelectorOk sel) (p q : V3 K) :
    ∀ (levels : List (Bundle K E)) (a b : Nat) (pre : List (V3 K)), HasParents levels → pre.length = b →
      (∀ l ∈ levels.head?, ∀ (i : Nat) (r : Ray K E), l[i]? = some r → pre[a + i]? = some r.vertex) →
      (∀ c ∈ (showLevels len sel a b levels).2, c.1 < (pre ++ (showLevels len sel a b levels).1).length ∧
        c.2 < (pre ++ (showLevels len sel a b levels).1).length) ∧
      (Drawn (pre ++ (showLevels len sel a b levels).1) (showLevels len sel a b levels).2 p q ↔
        ∃ (k : Nat) (l : Bundle K E) (rest : List (Bundle K E)) (j i : Nat) (r : Ray K E),
          levels.drop k = l :: rest ∧ (levelEnds len sel l rest).2[j]? = some i ∧
          (levelEnds len sel l rest).1[j]? = some q ∧ l[i]? = some r ∧ p = r.vertex)
  | [], a, b, pre, _, _, _ => by
    constructor
    · simp [showLevels]
    · simp [showLevels, Drawn]
  | l :: rest, a, b, pre, hpar, hlen, hpre => by
    have hp : ∀ next ∈ rest.head?, ∀ c ∈ next, c.parent < l.length := by
      intro next hn
      refine hpar 0 l next rfl ?_
      rw [List.getElem?_cons_succ, ← List.head?_eq_getElem?]; exact hn
    obtain ⟨he, hi⟩ := levelEnds_ok len hs l rest hp
    have hrest : HasParents rest := fun k l' next h1 h2 => hpar (k + 1) l' next h1 h2
    have hpre' : ∀ l' ∈ rest.head?, ∀ (i : Nat) (r : Ray K E), l'[i]? = some r →
        (pre ++ (levelEnds len sel l rest).1)[b + i]? = some r.vertex := by
      intro l' hl' i r hr
      rw [List.getElem?_append_right (by omega), hlen, Nat.add_sub_cancel_left]
      cases rest with
      | nil => simp at hl'
      | cons ends rest =>
        obtain rfl : ends = l' := by simpa using hl'
        unfold levelEnds
        simp only
        rw [List.getElem?_append_left (by
          rw [List.length_map]; exact (List.getElem?_eq_some_iff.1 hr).1), List.getElem?_map, hr]
        rfl
    have hl0 : ∀ (i : Nat) (r : Ray K E), l[i]? = some r → pre[a + i]? = some r.vertex := hpre l rfl
    obtain ⟨ih1, ih2⟩ := drawn_levels len hs p q rest b (b + (levelEnds len sel l rest).1.length)
      (pre ++ (levelEnds len sel l rest).1) hrest (by rw [List.length_append, hlen]) hpre'
    simp only [showLevels]
    rw [← List.append_assoc]
    generalize hmore : showLevels len sel b (b + (levelEnds len sel l rest).1.length) rest = more at ih1 ih2 ⊢
    generalize heq : levelEnds len sel l rest = e at *
    -- the lines of this level
    have hthis : ∀ c : Nat × Nat, c ∈ List.zip (e.2.map (a + ·)) ((List.range e.1.length).map (b + ·)) ↔
        ∃ j i, e.2[j]? = some i ∧ j < e.1.length ∧ c = (a + i, b + j) := by
      intro c
      rw [List.mem_iff_getElem?]
      constructor
      · rintro ⟨j, hj⟩
        rw [List.getElem?_zip_eq_some, List.getElem?_map, List.getElem?_map, Option.map_eq_some_iff,
          Option.map_eq_some_iff] at hj
        obtain ⟨⟨i, hi1, hi2⟩, j', hj1, hj2⟩ := hj
        obtain ⟨hj3, hj4⟩ := List.getElem?_eq_some_iff.1 hj1
        rw [List.getElem_range] at hj4
        rw [List.length_range] at hj3
        exact ⟨j, i, hi1, hj3, by rw [← hj4] at hj2; exact Prod.ext hi2.symm hj2.symm⟩
      · rintro ⟨j, i, h1, h2, rfl⟩
        refine ⟨j, ?_⟩
        rw [List.getElem?_zip_eq_some, List.getElem?_map, List.getElem?_map, h1, List.getElem?_range h2]
        exact ⟨rfl, rfl⟩
    have hlook : ∀ j i, e.2[j]? = some i → ∃ r q', l[i]? = some r ∧ e.1[j]? = some q' ∧
        (pre ++ e.1 ++ more.1)[a + i]? = some r.vertex ∧ (pre ++ e.1 ++ more.1)[b + j]? = some q' := by
      intro j i hj
      have hjl := (List.getElem?_eq_some_iff.1 hj).1
      have hil : i < l.length := hi i (List.mem_of_getElem? hj)
      have hr := hl0 i _ (List.getElem?_eq_getElem hil)
      have hal := (List.getElem?_eq_some_iff.1 hr).1
      refine ⟨_, e.1[j]'(by omega), List.getElem?_eq_getElem hil, List.getElem?_eq_getElem _, ?_, ?_⟩
      · rw [List.append_assoc, List.getElem?_append_left hal, hr]
      · rw [List.append_assoc, List.getElem?_append_right (by omega), hlen, Nat.add_sub_cancel_left,
          List.getElem?_append_left (by omega), List.getElem?_eq_getElem]
    constructor
    · intro c hc
      rcases List.mem_append.1 hc with hc | hc
      · obtain ⟨j, i, h1, h2, rfl⟩ := (hthis c).1 hc
        obtain ⟨r, q', _, _, h3, h4⟩ := hlook j i h1
        exact ⟨(List.getElem?_eq_some_iff.1 h3).1, (List.getElem?_eq_some_iff.1 h4).1⟩
      · exact ih1 c hc
    · constructor
      · rintro ⟨c, hc, h1, h2⟩
        rcases List.mem_append.1 hc with hc | hc
        · obtain ⟨j, i, h3, h4, rfl⟩ := (hthis c).1 hc
          obtain ⟨r, q', h5, h6, h7, h8⟩ := hlook j i h3
          simp only [h7, h8, Option.some.injEq] at h1 h2
          refine ⟨0, l, rest, j, i, r, rfl, ?_, ?_, h5, h1.symm⟩
          · rw [heq]; exact h3
          · rw [heq, ← h2]; exact h6
        · obtain ⟨k, l', rest', j, i, r, hk, h⟩ := ih2.1 ⟨c, hc, h1, h2⟩
          exact ⟨k + 1, l', rest', j, i, r, hk, h⟩
      · rintro ⟨k, l', rest', j, i, r, hk, h1, h2, h3, h4⟩
        cases k with
        | zero =>
          obtain ⟨rfl, rfl⟩ : l = l' ∧ rest = rest' := by simpa using hk
          rw [heq] at h1 h2
          obtain ⟨r', q', h5, h6, h7, h8⟩ := hlook j i h1
          rw [h3] at h5; rw [h2] at h6
          obtain rfl : r = r' := by simpa using h5
          obtain rfl : q = q' := by simpa using h6
          refine ⟨(a + i, b + j), List.mem_append_left _ ((hthis _).2 ⟨j, i, h1, ?_, rfl⟩), ?_, h8⟩
          · exact (List.getElem?_eq_some_iff.1 h2).1
          · rw [h4]; exact h7
        | succ k =>
          obtain ⟨c, hc, h⟩ := ih2.2 ⟨k, l', rest', j, i, r, hk, h1, h2, h3, h4⟩
          exact ⟨c, List.mem_append_right _ hc, h⟩

/-- What `show_rays` draws for a tree. -/
theorem drawn_iff (len : K) {sel : Option (Bundle K E → List Bool)} (hs : SelectorOk sel)
    {tree : List (Bundle K E)} (hne : tree ≠ []) (hpar : HasParents tree) :
    ∃ points connections, showRays tree len sel = .ok (points, connections) ∧
      (∀ c ∈ connections, c.1 < points.length ∧ c.2 < points.length) ∧
      ∀ p q, Drawn points connections p q ↔
        ∃ (k : Nat) (l : Bundle K E) (rest : List (Bundle K E)) (j i : Nat) (r : Ray K E),
          tree.drop k = l :: rest ∧ (levelEnds len sel l rest).2[j]? = some i ∧
          (levelEnds len sel l rest).1[j]? = some q ∧ l[i]? = some r ∧ p = r.vertex := by
  cases tree with
  | nil => exact absurd rfl hne
  | cons l rest =>
    have hpre : ∀ l' ∈ (l :: rest).head?, ∀ (i : Nat) (r : Ray K E), l'[i]? = some r →
        (l.map Ray.vertex)[0 + i]? = some r.vertex := by
      intro l' hl' i r hr
      obtain rfl : l = l' := by simpa using hl'
      rw [Nat.zero_add, List.getElem?_map, hr]; rfl
    have h := fun p q => drawn_levels len hs p q (l :: rest) 0 l.length (l.map Ray.vertex) hpar
      (by rw [List.length_map]) hpre
    exact ⟨_, _, rfl, (h 0 0).1, fun p q => (h p q).2⟩

/-- The position of a number in `nonzero` is the count of the true entries before it. -/
theorem nonzero_getElem? (m : List Bool) (a i : Nat) :
    (Np.nonzero m)[a]? = some i ↔ m[i]? = some true ∧ (m.take i).count true = a := by
  induction m generalizing a i with
  | nil => simp
  | cons b m ih =>
    cases b with
    | true =>
      rw [Np.nonzero_true]
      cases a with
      | zero =>
        cases i with
        | zero => simp
        | succ i => simp
      | succ a =>
        cases i with
        | zero => simp
        | succ i => simp [ih]
    | false =>
      rw [Np.nonzero_false]
      cases i with
      | zero => simp
      | succ i => simp [ih]

/-- The starts and ends of one level. -/
theorem levelEnds_iff (len : K) {sel : Option (Bundle K E → List Bool)} (hs : SelectorOk sel) (l : Bundle K E)
    (rest : List (Bundle K E)) (i : Nat) (q : V3 K) :
    (∃ j : Nat, (levelEnds len sel l rest).2[j]? = some i ∧ (levelEnds len sel l rest).1[j]? = some q) ↔
      (∃ next ∈ rest.head?, ∃ c ∈ next, c.parent = i ∧ q = c.vertex) ∨
      (∃ (i0 : Nat) (r0 : Ray K E), l[i0]? = some r0 ∧ (shownRays sel l)[i0]? = some true ∧
        (∀ next ∈ rest.head?, ∀ c ∈ next, c.parent ≠ i0) ∧ q = r0.vertex + len • r0.dir ∧
        ((shownRays sel l).take i0).count true = i) := by
  have hsl := shownRays_length hs l
  cases rest with
  | nil =>
    unfold levelEnds
    simp only [List.head?_nil, Option.mem_def, reduceCtorEq, false_and, exists_false, false_or, false_imp_iff,
      implies_true, true_and, List.length_map]
    constructor
    · rintro ⟨j, h1, h2⟩
      obtain ⟨h3, h4⟩ := List.getElem?_eq_some_iff.1 h1
      rw [List.getElem_range] at h4
      subst h4
      rw [List.getElem?_map, Option.map_eq_some_iff] at h2
      obtain ⟨r0, h5, rfl⟩ := h2
      rw [Np.mask_getElem? hsl, Option.bind_eq_some_iff] at h5
      obtain ⟨i0, h6, h7⟩ := h5
      obtain ⟨h8, h9⟩ := (nonzero_getElem? _ _ _).1 h6
      exact ⟨i0, r0, h7, h8, rfl, h9⟩
    · rintro ⟨i0, r0, h1, h2, rfl, h4⟩
      have h5 := (nonzero_getElem? (shownRays sel l) i i0).2 ⟨h2, h4⟩
      have h6 : (Np.mask (shownRays sel l) l)[i]? = some r0 := by
        rw [Np.mask_getElem? hsl, h5]; exact h1
      refine ⟨i, ?_, ?_⟩
      · rw [List.getElem?_range (List.getElem?_eq_some_iff.1 h6).1]
      · rw [List.getElem?_map, h6]; rfl
  | cons ends rest =>
    have hesc : ((Np.nonzero (shownRays sel l)).map fun i => !((ends.map Ray.parent).any fun p => decide (i = p))).length =
        (Np.mask (shownRays sel l) l).length := by rw [List.length_map, Np.mask_length hsl]
    unfold levelEnds
    simp only [List.head?_cons, Option.mem_def, Option.some.injEq, exists_eq_left', forall_eq']
    -- an escaping ray
    have hkey : ∀ (a m : Nat), (Np.nonzero ((Np.nonzero (shownRays sel l)).map fun i =>
          !((ends.map Ray.parent).any fun p => decide (i = p))))[a]? = some m →
        ∃ (i0 : Nat), (Np.nonzero (shownRays sel l))[m]? = some i0 ∧ ∀ c ∈ ends, c.parent ≠ i0 := by
      intro a m h
      have h1 := ((nonzero_getElem? _ _ _).1 h).1
      rw [List.getElem?_map, Option.map_eq_some_iff] at h1
      obtain ⟨i0, h2, h3⟩ := h1
      refine ⟨i0, h2, fun c hc hci => ?_⟩
      simp only [Bool.not_eq_true', List.any_eq_false, decide_eq_true_eq] at h3
      exact h3 c.parent (List.mem_map_of_mem hc) hci.symm
    constructor
    · rintro ⟨j, h1, h2⟩
      by_cases hj : j < ends.length
      · left
        rw [List.getElem?_append_left (by rw [List.length_map]; exact hj), List.getElem?_map,
          List.getElem?_eq_getElem hj] at h1 h2
        exact ⟨_, List.getElem_mem hj, by simpa using h1, by simpa using h2.symm⟩
      · right
        rw [List.getElem?_append_right (by rw [List.length_map]; omega), List.length_map] at h1 h2
        obtain ⟨i0, h3, h4⟩ := hkey _ _ h1
        obtain ⟨h5, h6⟩ := (nonzero_getElem? _ _ _).1 h3
        rw [List.getElem?_map, Option.map_eq_some_iff] at h2
        obtain ⟨r0, h7, rfl⟩ := h2
        rw [Np.mask_getElem? hesc, h1, Option.bind_some, Np.mask_getElem? hsl, h3] at h7
        exact ⟨i0, r0, h7, h5, h4, rfl, h6⟩
    · rintro (⟨c, hc, rfl, rfl⟩ | ⟨i0, r0, h1, h2, h3, rfl, h4⟩)
      · obtain ⟨j, hj, rfl⟩ := List.getElem_of_mem hc
        refine ⟨j, ?_, ?_⟩
        · rw [List.getElem?_append_left (by rw [List.length_map]; exact hj), List.getElem?_map,
            List.getElem?_eq_getElem hj]; rfl
        · rw [List.getElem?_append_left (by rw [List.length_map]; exact hj), List.getElem?_map,
            List.getElem?_eq_getElem hj]; rfl
      · have h5 := (nonzero_getElem? (shownRays sel l) i i0).2 ⟨h2, h4⟩
        have h6 : i ∈ Np.nonzero ((Np.nonzero (shownRays sel l)).map fun i =>
            !((ends.map Ray.parent).any fun p => decide (i = p))) := by
          rw [Np.mem_nonzero, List.getElem?_map, h5]
          simp only [Option.map_some, Option.some.injEq, Bool.not_eq_true', List.any_eq_false, decide_eq_true_eq]
          intro p hp hip
          obtain ⟨c, hc, rfl⟩ := List.mem_map.1 hp
          exact h3 c hc hip.symm
        obtain ⟨a, ha⟩ := List.mem_iff_getElem?.1 h6
        refine ⟨ends.length + a, ?_, ?_⟩
        · rw [List.getElem?_append_right (by rw [List.length_map]; omega), List.length_map, Nat.add_sub_cancel_left]
          exact ha
        · rw [List.getElem?_append_right (by rw [List.length_map]; omega), List.length_map, Nat.add_sub_cancel_left,
            List.getElem?_map, Np.mask_getElem? hesc, ha, Option.bind_some, Np.mask_getElem? hsl, h5,
            Option.bind_some, h1]
          rfl

/-- C65, what is drawn in general: a line to every child from its parent, and for every shown ray without children a
line that ends where it should but starts at another ray of the bundle: the one whose number is the count of the
shown rays before it. -/
theorem C65_lines (len : K) {sel : Option (Bundle K E → List Bool)} (hs : SelectorOk sel)
    {tree : List (Bundle K E)} (hne : tree ≠ []) (hpar : HasParents tree) :
    ∃ points connections, showRays tree len sel = .ok (points, connections) ∧
      (∀ c ∈ connections, c.1 < points.length ∧ c.2 < points.length) ∧
      ∀ p q, Drawn points connections p q ↔ ToChild tree p q ∨
        ∃ (k : Nat) (l : Bundle K E) (i : Nat) (r start : Ray K E), tree[k]? = some l ∧ l[i]? = some r ∧
          (shownRays sel l)[i]? = some true ∧ (∀ j c, InTree tree (k + 1) j c → c.parent ≠ i) ∧
          q = r.vertex + len • r.dir ∧
          l[((shownRays sel l).take i).count true]? = some start ∧ p = start.vertex := by
  obtain ⟨points, connections, h1, h2, h3⟩ := drawn_iff len hs hne hpar
  refine ⟨points, connections, h1, h2, fun p q => ?_⟩
  have hnext : ∀ (k : Nat) (l : Bundle K E) (rest : List (Bundle K E)), tree.drop k = l :: rest →
      tree[k]? = some l ∧ ∀ next, next ∈ rest.head? ↔ tree[k + 1]? = some next := by
    intro k l rest h
    constructor
    · rw [← List.head?_drop, h]; rfl
    · intro next
      rw [← List.head?_drop, ← List.drop_drop, h]; rfl
  rw [h3]
  constructor
  · rintro ⟨k, l, rest, j, i, r, hk, hj1, hj2, hr, rfl⟩
    obtain ⟨hl, hn⟩ := hnext k l rest hk
    rcases (levelEnds_iff len hs l rest i q).1 ⟨j, hj1, hj2⟩ with ⟨next, hne, c, hc, rfl, rfl⟩ | ⟨i0, r0, a, b, c, d, e⟩
    · left
      obtain ⟨j', hj', rfl⟩ := List.getElem_of_mem hc
      exact ⟨k, _, j', r, _, ⟨l, hl, hr⟩, ⟨next, (hn _).1 hne, List.getElem?_eq_getElem hj'⟩, rfl, rfl, rfl⟩
    · right
      refine ⟨k, l, i0, r0, r, hl, a, b, ?_, d, ?_, rfl⟩
      · rintro j' c' ⟨next, hx, hc'⟩
        exact c next ((hn _).2 hx) c' (List.mem_of_getElem? hc')
      · rw [e]; exact hr
  · have hdrop : ∀ (k : Nat) (l : Bundle K E), tree[k]? = some l → ∃ rest, tree.drop k = l :: rest := by
      intro k l hl
      obtain ⟨h4, h5⟩ := List.getElem?_eq_some_iff.1 hl
      exact ⟨_, by rw [List.drop_eq_getElem_cons h4, h5]⟩
    rintro (⟨k, i, j, r, c, ⟨l, hl, hr⟩, ⟨next, hx, hc⟩, rfl, rfl, rfl⟩ | ⟨k, l, i, r, start, hl, hr, hsh, hno, rfl, hst, rfl⟩)
    · obtain ⟨rest, hk⟩ := hdrop k l hl
      obtain ⟨_, hn⟩ := hnext k l rest hk
      obtain ⟨j', h4, h5⟩ := (levelEnds_iff len hs l rest c.parent c.vertex).2
        (Or.inl ⟨next, (hn _).2 hx, c, List.mem_of_getElem? hc, rfl, rfl⟩)
      exact ⟨k, l, rest, j', _, r, hk, h4, h5, hr, rfl⟩
    · obtain ⟨rest, hk⟩ := hdrop k l hl
      obtain ⟨_, hn⟩ := hnext k l rest hk
      obtain ⟨j', h4, h5⟩ := (levelEnds_iff len hs l rest _ (r.vertex + len • r.dir)).2
        (Or.inr ⟨i, r, hr, hsh, fun next hx c hc => by
          obtain ⟨j2, hj2, rfl⟩ := List.getElem_of_mem hc
          exact hno j2 _ ⟨next, (hn _).1 hx, List.getElem?_eq_getElem hj2⟩, rfl, rfl⟩)
      exact ⟨k, l, rest, j', _, start, hk, h4, h5, hst, rfl⟩

/-- C65, when no ray is left out: exactly the lines from a ray to its children, and from a ray without children
along its direction, are drawn.  What is missing: rays of zero energy or a selector that leaves rays out
(`C65_counterexample`, `C65_lines`). -/
theorem C65_partial (len : K) {sel : Option (Bundle K E → List Bool)}
    {tree : List (Bundle K E)} (hne : tree ≠ []) (hpar : HasParents tree)
    (hen : ∀ l ∈ tree, ∀ r ∈ l, r.energy ≠ 0) (hs : ∀ f ∈ sel, ∀ l, f l = List.replicate l.length true) :
    ∃ points connections, showRays tree len sel = .ok (points, connections) ∧
      (∀ c ∈ connections, c.1 < points.length ∧ c.2 < points.length) ∧
      ∀ p q, Drawn points connections p q ↔ ToChild tree p q ∨ ToNowhere tree len p q := by
  have hs' : SelectorOk sel := fun f hf l => by rw [hs f hf l, List.length_replicate]
  have hall : ∀ l ∈ tree, shownRays sel l = List.replicate l.length true := by
    intro l hl
    have he : (l.map fun r => decide (r.energy ≠ 0)) = List.replicate l.length true := by
      apply List.eq_replicate_iff.2
      refine ⟨List.length_map _, fun b hb => ?_⟩
      obtain ⟨r, hr, rfl⟩ := List.mem_map.1 hb
      simpa using hen l hl r hr
    unfold shownRays
    rw [he]
    cases sel with
    | none => rfl
    | some f => simp only [hs f rfl l, List.zipWith_replicate, Bool.and_self, Nat.min_self]
  obtain ⟨points, connections, h1, h2, h3⟩ := C65_lines len hs' hne hpar
  refine ⟨points, connections, h1, h2, fun p q => ?_⟩
  rw [h3]
  refine or_congr Iff.rfl ?_
  have hcount : ∀ (l : Bundle K E) (i : Nat), l ∈ tree → i < l.length →
      ((shownRays sel l).take i).count true = i := by
    intro l i hl hi
    rw [hall l hl, List.take_replicate, List.count_replicate_self, Nat.min_eq_left hi.le]
  constructor
  · rintro ⟨k, l, i, r, start, hl, hr, _, hno, hq, hst, rfl⟩
    rw [hcount l i (List.mem_of_getElem? hl) (List.getElem?_eq_some_iff.1 hr).1, hr] at hst
    obtain rfl : r = start := by simpa using hst
    exact ⟨k, i, r, ⟨l, hl, hr⟩, hno, rfl, hq⟩
  · rintro ⟨k, i, r, ⟨l, hl, hr⟩, hno, rfl, rfl⟩
    have hi := (List.getElem?_eq_some_iff.1 hr).1
    refine ⟨k, l, i, r, r, hl, hr, ?_, hno, rfl, ?_, rfl⟩
    · rw [hall l (List.mem_of_getElem? hl), List.getElem?_replicate_of_lt hi]
    · rw [hcount l i (List.mem_of_getElem? hl) hi, hr]

/-- C65: an empty tree raises `IndexError`. -/
theorem C65_empty (len : K) (sel : Option (Bundle K E → List Bool)) :
    showRays ([] : List (Bundle K E)) len sel = .error .index := rfl

namespace Examples

/-- Two source rays, the first of which has no energy. -/
def darkFirst : Bundle ℚ Unit := [⟨⟨0, 0, 0⟩, ⟨0, 0, 1⟩, 0, 0, none, ()⟩, ⟨⟨7, 0, 0⟩, ⟨0, 0, 1⟩, 1, 0, none, ()⟩]

/-- Two source rays, one child. -/
def drawnTree : List (Bundle ℚ Unit) :=
  [[⟨⟨0, 0, 0⟩, ⟨0, 0, 1⟩, 1, 0, none, ()⟩, ⟨⟨7, 0, 0⟩, ⟨0, 0, 1⟩, 1, 0, none, ()⟩],
   [⟨⟨7, 0, 2⟩, ⟨1, 0, 0⟩, 1, 1, none, ()⟩]]

end Examples

/-- C65 fails when a ray without energy precedes one that escapes: the only line drawn for this tree starts at
the ray without energy and ends beyond the other one. -/
theorem C65_counterexample : ∃ points connections,
    showRays [Examples.darkFirst] 5 none = .ok (points, connections) ∧ HasParents [Examples.darkFirst] ∧
      Drawn points connections ⟨0, 0, 0⟩ ⟨7, 0, 5⟩ ∧ ¬ ToChild [Examples.darkFirst] ⟨0, 0, 0⟩ ⟨7, 0, 5⟩ ∧
      ¬ ToNowhere [Examples.darkFirst] (5 : ℚ) ⟨0, 0, 0⟩ ⟨7, 0, 5⟩ := by
  refine ⟨[⟨0, 0, 0⟩, ⟨7, 0, 0⟩, ⟨7, 0, 5⟩], [(0, 2)], by decide +kernel, ?_, ⟨(0, 2), by simp, rfl, rfl⟩, ?_, ?_⟩
  · intro k l next _ h
    cases k <;> simp at h
  · rintro ⟨k, i, j, r, c, _, ⟨l, hl, _⟩, _⟩
    cases k <;> simp at hl
  · rintro ⟨k, i, r, ⟨l, hl, hr⟩, _, h1, h2⟩
    cases k with
    | succ k => simp at hl
    | zero =>
      obtain rfl : Examples.darkFirst = l := by simpa using hl
      have hx : r.vertex.x = 0 := by rw [← h1]
      have hq : (7 : ℚ) = r.vertex.x + 5 * r.dir.x := congrArg V3.x h2
      have hd : r.dir.x = 0 := by
        have := List.mem_of_getElem? hr
        simp only [Examples.darkFirst, List.mem_cons, List.not_mem_nil, or_false] at this
        rcases this with rfl | rfl <;> rfl
      rw [hx, hd] at hq
      norm_num at hq

/-! ## The hypotheses are met -/

example : ∃ points connections, showRays Examples.drawnTree 5 none = .ok (points, connections) ∧
    Drawn points connections ⟨7, 0, 0⟩ ⟨7, 0, 2⟩ ∧ Drawn points connections ⟨0, 0, 0⟩ ⟨0, 0, 5⟩ ∧
    ¬ Drawn points connections ⟨7, 0, 0⟩ ⟨7, 0, 5⟩ := by
  have hpar : HasParents Examples.drawnTree := by
    intro k l next h1 h2
    match k, h1, h2 with
    | 0, h1, h2 =>
      obtain rfl : _ = l := by simpa [Examples.drawnTree] using h1
      obtain rfl : _ = next := by simpa [Examples.drawnTree] using h2
      simp
    | k + 1, h1, h2 => simp [Examples.drawnTree] at h2
  obtain ⟨pts, conns, h1, _, h3⟩ := C65_partial (5 : ℚ) (sel := none) (tree := Examples.drawnTree) (by simp [Examples.drawnTree])
    hpar (by simp [Examples.drawnTree]) (by simp)
  refine ⟨pts, conns, h1, ?_, ?_, ?_⟩
  · rw [h3]
    exact Or.inl ⟨0, 1, 0, _, _, ⟨_, rfl, rfl⟩, ⟨_, rfl, rfl⟩, rfl, rfl, rfl⟩
  · rw [h3]
    refine Or.inr ⟨0, 0, _, ⟨_, rfl, rfl⟩, ?_, rfl, by decide +kernel⟩
    rintro j c ⟨l, hl, hc⟩
    obtain rfl : _ = l := by simpa [Examples.drawnTree] using hl
    have := List.mem_of_getElem? hc
    simp only [List.mem_singleton] at this
    subst this
    simp
  · intro hd
    have : showRays Examples.drawnTree (5 : ℚ) none = .ok ([⟨0, 0, 0⟩, ⟨7, 0, 0⟩, ⟨7, 0, 2⟩, ⟨0, 0, 5⟩, ⟨12, 0, 2⟩],
        [(1, 2), (0, 3), (2, 4)]) := by decide +kernel
    rw [this] at h1
    obtain ⟨rfl, rfl⟩ : _ = pts ∧ _ = conns := by simpa using h1
    obtain ⟨c, hc, ha, hb⟩ := hd
    simp only [List.mem_cons, List.not_mem_nil, or_false] at hc
    rcases hc with rfl | rfl | rfl <;> simp at ha hb

end Tracer
