import Verif.Lemmas.Np
import Verif.Spec.Trace
import Mathlib.Tactic.Linarith
import Mathlib.Tactic.NormNum

/-! Helper lemmas about `intersectRay`. -/

set_option linter.unusedSectionVars false
set_option linter.unusedSimpArgs false

namespace Tracer

variable {K E σ : Type _}

theorem getElem?_zipWith_some {α β γ : Type _} {f : α → β → γ} {l : List α} {m : List β} {i : Nat} {z : γ} :
    (List.zipWith f l m)[i]? = some z ↔ ∃ x y, l[i]? = some x ∧ m[i]? = some y ∧ f x y = z := by
  rw [List.getElem?_zipWith]
  cases l[i]? <;> cases m[i]? <;> simp

/-- Shape requirements on the arguments of `intersect_ray`. -/
structure IShape (n : Nat) (surfs : List (Surf σ K E)) (surfOwn : List Nat)
    (rayOwn : List (Option Nat)) (relev : List (List Bool)) : Prop where
  own_len : rayOwn.length = n
  surf_len : surfOwn.length = surfs.length
  relev_len : relev.length = surfs.length
  relev_row : ∀ row ∈ relev, row.length = n

section
variable {n : Nat} {surfs : List (Surf σ K E)} {surfOwn : List Nat}
    {rayOwn : List (Option Nat)} {relev : List (List Bool)}

theorem ownedMask_length (h : IShape n surfs surfOwn rayOwn relev) {row : List Bool}
    (hr : row ∈ relev) (so : Nat) : (ownedMask rayOwn so row).length = n := by
  simp [ownedMask, h.own_len, h.relev_row row hr]

theorem owned_row_length (h : IShape n surfs surfOwn rayOwn relev) {k : Nat} {row : List Bool}
    (hk : (List.zipWith (ownedMask rayOwn) surfOwn relev)[k]? = some row) : row.length = n := by
  obtain ⟨so, r, _, h2, rfl⟩ := getElem?_zipWith_some.1 hk
  exact ownedMask_length h (List.mem_of_getElem? h2) so

theorem owned_getElem (k j : Nat) :
    Marked (List.zipWith (ownedMask rayOwn) surfOwn relev) k j ↔ Tested surfOwn rayOwn relev k j := by
  unfold Marked Tested
  constructor
  · rintro ⟨row, hk, hj⟩
    obtain ⟨so, r, h1, h2, rfl⟩ := getElem?_zipWith_some.1 hk
    obtain ⟨ro, x, h3, h4, h5⟩ := getElem?_zipWith_some.1 hj
    simp at h5
    refine ⟨so, ro, r, h1, h3, h5.1, h2, ?_⟩
    rw [h4, h5.2]
  · rintro ⟨so, ro, r, h1, h3, h5, h2, h4⟩
    refine ⟨_, getElem?_zipWith_some.2 ⟨so, r, h1, h2, rfl⟩,
      getElem?_zipWith_some.2 ⟨ro, true, h3, h4, ?_⟩⟩
    simpa using h5

theorem testedIdx_eq (h : IShape n surfs surfOwn rayOwn relev) {k : Nat} {row : List Bool}
    (hk : (List.zipWith (ownedMask rayOwn) surfOwn relev)[k]? = some row) :
    testedIdx n surfOwn rayOwn relev k = Np.nonzero row := by
  have hs1 : (testedIdx n surfOwn rayOwn relev k).Pairwise (· < ·) :=
    List.Pairwise.filter _ List.pairwise_lt_range
  have hs2 := Np.nonzero_sorted row
  refine List.Perm.eq_of_pairwise (le := (· < ·)) (fun a b _ _ h1 h2 => by omega) hs1 hs2 ?_
  refine (List.perm_ext_iff_of_nodup (hs1.imp Nat.ne_of_lt) (hs2.imp Nat.ne_of_lt)).2 ?_
  intro j
  have hrow := owned_row_length h hk
  rw [Np.mem_nonzero]
  have h2 := owned_getElem (surfOwn := surfOwn) (rayOwn := rayOwn) (relev := relev) k j
  simp only [testedIdx, List.mem_filter, List.mem_range, decide_eq_true_eq, ← h2, Marked, hk,
    Option.some.injEq, exists_eq_left']
  constructor
  · exact fun h => h.2
  · intro h
    exact ⟨hrow ▸ (List.getElem?_eq_some_iff.1 h).1, h⟩

theorem testedRays_eq {b : Bundle K E} (h : IShape b.length surfs surfOwn rayOwn relev)
    {k : Nat} {row : List Bool}
    (hk : (List.zipWith (ownedMask rayOwn) surfOwn relev)[k]? = some row) :
    (testedIdx b.length surfOwn rayOwn relev k).filterMap (fun j => b[j]?) = Np.mask row b := by
  rw [testedIdx_eq h hk, Np.mask_eq_filterMap _ _ (owned_row_length h hk)]

theorem inRays_eq {b : Bundle K E} {row : List Bool} (hl : row.length = b.length) :
    (if row.any (! ·) then Np.mask row b else b) = Np.mask row b := by
  split
  · rfl
  · rename_i h
    exact (Np.mask_all_true hl (by simpa using h)).symm

end

section
variable [Field K] [LinearOrder K]
variable {b : Bundle K E} {surfs : List (Surf σ K E)} {surfOwn : List Nat}
    {rayOwn : List (Option Nat)} {relev : List (List Bool)}

theorem stackRow_length (s : Surf σ K E) (owned : List Bool) :
    (stackRow b s owned).length = b.length := by
  unfold stackRow
  split <;> simp

/-- The matrix before thresholding. -/
def rawStack (b : Bundle K E) (surfs : List (Surf σ K E)) (surfOwn : List Nat)
    (rayOwn : List (Option Nat)) (relev : List (List Bool)) : List (List (WithTop K)) :=
  List.zipWith (stackRow b) surfs (List.zipWith (ownedMask rayOwn) surfOwn relev)

/-- Entry of a matrix. -/
def Entry {α : Type _} (m : List (List α)) (k j : Nat) (p : α) : Prop :=
  ∃ row, m[k]? = some row ∧ row[j]? = some p

theorem Entry.unique {α : Type _} {m : List (List α)} {k j : Nat} {p q : α}
    (h1 : Entry m k j p) (h2 : Entry m k j q) : p = q := by
  obtain ⟨r, a, b⟩ := h1
  obtain ⟨r', a', b'⟩ := h2
  rw [a] at a'; cases a'
  rw [b] at b'; cases b'
  rfl

/-- Entries of the raw matrix: answers where tested, zero elsewhere. -/
theorem rawStack_entry (h : IShape b.length surfs surfOwn rayOwn relev)
    (hlen : ∀ s ∈ surfs, s.LengthOk) (k j : Nat) (p : WithTop K) :
    Entry (rawStack b surfs surfOwn rayOwn relev) k j p ↔
      Answer b surfs surfOwn rayOwn relev k j p ∨
      (k < surfs.length ∧ j < b.length ∧ ¬ Tested surfOwn rayOwn relev k j ∧ p = 0) := by
  unfold Entry rawStack
  constructor
  · rintro ⟨row, hk, hj⟩
    obtain ⟨s, owned, hs, ho, rfl⟩ := getElem?_zipWith_some.1 hk
    have hol := owned_row_length h ho
    have hjl : j < b.length := by
      have := (List.getElem?_eq_some_iff.1 hj).1
      rwa [stackRow_length] at this
    have hmark : Tested surfOwn rayOwn relev k j ↔ owned[j]? = some true := by
      rw [← owned_getElem]; simp [Marked, ho]
    have hkl : k < surfs.length := (List.getElem?_eq_some_iff.1 hs).1
    have hobj : owned[j]? = some true ∨ owned[j]? = some false := by
      rw [List.getElem?_eq_getElem (by omega)]
      cases owned[j] <;> simp
    rcases hobj with ht | hf
    · left
      obtain ⟨i, hi⟩ := List.getElem?_of_mem (Np.mem_nonzero.2 ht)
      refine ⟨s, i, hs, by rw [testedIdx_eq h ho]; exact hi, ?_⟩
      rw [testedRays_eq h ho]
      have hany : owned.any id = true := by
        rw [List.any_eq_true]
        exact ⟨true, List.mem_of_getElem? ht, rfl⟩
      unfold stackRow at hj
      rw [if_pos hany] at hj
      simp only [inRays_eq hol] at hj
      rw [Np.scatter_getElem?_true (by simp [hol]) hi] at hj
      · exact hj
      · rw [hlen s (List.mem_of_getElem? hs), Np.mask_length hol]
        exact (List.getElem?_eq_some_iff.1 hi).1
    · right
      refine ⟨hkl, hjl, by rw [hmark, hf]; simp, ?_⟩
      unfold stackRow at hj
      split at hj
      · rw [Np.scatter_getElem?_false hf] at hj
        simp [List.getElem?_replicate, hjl] at hj
        exact hj.symm
      · simp [List.getElem?_replicate, hjl] at hj
        exact hj.symm
  · intro hcase
    have mk : ∀ {s : Surf σ K E}, surfs[k]? = some s → ∃ owned, (List.zipWith (ownedMask rayOwn) surfOwn relev)[k]? = some owned := by
      intro s hs
      have hkl : k < surfs.length := (List.getElem?_eq_some_iff.1 hs).1
      refine ⟨_, getElem?_zipWith_some.2 ⟨surfOwn[k]'(by rw [h.surf_len]; exact hkl), relev[k]'(by rw [h.relev_len]; exact hkl), ?_, ?_, rfl⟩⟩ <;>
        exact List.getElem?_eq_getElem _
    rcases hcase with ⟨s, i, hs, hi, hp⟩ | ⟨hkl, hjl, hnt, rfl⟩
    · obtain ⟨owned, ho⟩ := mk hs
      have hol := owned_row_length h ho
      refine ⟨_, getElem?_zipWith_some.2 ⟨s, owned, hs, ho, rfl⟩, ?_⟩
      rw [testedIdx_eq h ho] at hi
      rw [testedRays_eq h ho] at hp
      have ht := Np.mem_nonzero.1 (List.mem_of_getElem? hi)
      have hany : owned.any id = true := by
        rw [List.any_eq_true]
        exact ⟨true, List.mem_of_getElem? ht, rfl⟩
      unfold stackRow
      rw [if_pos hany]
      simp only [inRays_eq hol]
      rw [Np.scatter_getElem?_true (by simp [hol]) hi]
      · exact hp
      · exact (List.getElem?_eq_some_iff.1 hp).1
    · have hs : surfs[k]? = some surfs[k] := List.getElem?_eq_getElem hkl
      obtain ⟨owned, ho⟩ := mk hs
      have hol := owned_row_length h ho
      refine ⟨_, getElem?_zipWith_some.2 ⟨_, owned, hs, ho, rfl⟩, ?_⟩
      have hmark : Tested surfOwn rayOwn relev k j ↔ owned[j]? = some true := by
        rw [← owned_getElem]; simp [Marked, ho]
      rw [hmark, List.getElem?_eq_getElem (by omega)] at hnt
      have hf : owned[j]? = some false := by
        rw [List.getElem?_eq_getElem (by omega)]
        simpa using hnt
      unfold stackRow
      split
      · rw [Np.scatter_getElem?_false hf]
        simp [List.getElem?_replicate, hjl]
      · simp [List.getElem?_replicate, hjl]

theorem any_any_entry {α : Type _} (m : List (List α)) (p : α → Bool) :
    (m.any fun row => row.any p) = true ↔ ∃ k j x, Entry m k j x ∧ p x = true := by
  simp only [List.any_eq_true, Entry]
  constructor
  · rintro ⟨row, hr, x, hx, hp⟩
    obtain ⟨k, hk⟩ := List.getElem?_of_mem hr
    obtain ⟨j, hj⟩ := List.getElem?_of_mem hx
    exact ⟨k, j, x, ⟨row, hk, hj⟩, hp⟩
  · rintro ⟨k, j, x, ⟨row, hk, hj⟩, hp⟩
    exact ⟨row, List.mem_of_getElem? hk, x, List.mem_of_getElem? hj, hp⟩

theorem colMin_length {n : Nat} {m : List (List (WithTop K))} (h : ∀ row ∈ m, row.length = n) :
    (colMin n m).length = n := by
  induction m with
  | nil => simp [colMin]
  | cons r m ih =>
    have := ih (fun row hr => h row (List.mem_cons_of_mem _ hr))
    have hr := h r (by simp)
    unfold colMin at this ⊢
    simp [this, hr]

theorem colMin_spec {n : Nat} {m : List (List (WithTop K))} (h : ∀ row ∈ m, row.length = n)
    {j : Nat} {q : WithTop K} (hq : (colMin n m)[j]? = some q) :
    (∀ k p, Entry m k j p → q ≤ p) ∧ (q = ⊤ ∨ ∃ k, Entry m k j q) := by
  induction m generalizing q with
  | nil =>
    simp [colMin, List.getElem?_replicate] at hq
    refine ⟨?_, Or.inl hq.2.symm⟩
    rintro k p ⟨row, hk, _⟩
    simp at hk
  | cons r m ih =>
    have ih' := fun {q} => ih (q := q) (fun row hr => h row (List.mem_cons_of_mem _ hr))
    have hc : colMin n (r :: m) = List.zipWith min r (colMin n m) := rfl
    rw [hc] at hq
    obtain ⟨x, y, hx, hy, rfl⟩ := getElem?_zipWith_some.1 hq
    obtain ⟨h1, h2⟩ := ih' hy
    constructor
    · rintro k p ⟨row, hk, hj⟩
      cases k with
      | zero =>
        simp at hk; subst hk
        rw [hx] at hj; cases hj
        exact min_le_left _ _
      | succ k =>
        simp at hk
        exact le_trans (min_le_right _ _) (h1 k p ⟨row, hk, hj⟩)
    · rcases min_choice x y with hm | hm
      · rw [hm]
        exact Or.inr ⟨0, r, by simp, hx⟩
      · rw [hm]
        rcases h2 with h2 | ⟨k, row, hk, hj⟩
        · exact Or.inl h2
        · exact Or.inr ⟨k+1, row, by simpa using hk, hj⟩

/-- Characterisation of the final mask. -/
theorem frontMask_spec {n : Nat} {m : List (List (WithTop K))} (h : ∀ row ∈ m, row.length = n) (k j : Nat) :
    Marked (frontMask n m) k j ↔
      ∃ p, Entry m k j p ∧ p ≠ ⊤ ∧ ∀ k' p', Entry m k' j p' → p ≤ p' := by
  unfold Marked frontMask
  constructor
  · rintro ⟨row, hk, hj⟩
    simp only [List.getElem?_map, Option.map_eq_some_iff] at hk
    obtain ⟨r, hr, rfl⟩ := hk
    obtain ⟨p, q, hp, hq, hpq⟩ := getElem?_zipWith_some.1 hj
    simp at hpq
    obtain ⟨rfl, hne⟩ := hpq
    exact ⟨p, ⟨r, hr, hp⟩, hne, (colMin_spec h hq).1⟩
  · rintro ⟨p, ⟨r, hr, hp⟩, hne, hmin⟩
    have hlen : j < n := by
      have := (List.getElem?_eq_some_iff.1 hp).1
      rwa [h r (List.mem_of_getElem? hr)] at this
    obtain ⟨q, hq⟩ : ∃ q, (colMin n m)[j]? = some q := by
      refine ⟨(colMin n m)[j]'(by rw [colMin_length h]; exact hlen), List.getElem?_eq_getElem _⟩
    have hs := colMin_spec h hq
    have hqp : p = q := by
      apply le_antisymm
      · rcases hs.2 with rfl | ⟨k', hk'⟩
        · exact le_top
        · exact hmin _ _ hk'
      · exact hs.1 k p ⟨r, hr, hp⟩
    refine ⟨_, by simp [hr]; rfl, getElem?_zipWith_some.2 ⟨p, q, hp, hq, ?_⟩⟩
    subst hqp
    simp [hne]

theorem rawStack_row_length {row} (hr : row ∈ rawStack b surfs surfOwn rayOwn relev) :
    row.length = b.length := by
  obtain ⟨k, hk⟩ := List.getElem?_of_mem hr
  obtain ⟨s, o, _, _, rfl⟩ := getElem?_zipWith_some.1 hk
  exact stackRow_length s o

theorem dropSelfHits_row_length {m : List (List (WithTop K))} {n : Nat} (h : ∀ row ∈ m, row.length = n) :
    ∀ row ∈ dropSelfHits m, row.length = n := by
  unfold dropSelfHits
  split
  · intro row hr
    simp only [List.mem_map] at hr
    obtain ⟨r, hr, rfl⟩ := hr
    simpa using h r hr
  · exact h

theorem answer_lt (h : IShape b.length surfs surfOwn rayOwn relev) {k j : Nat} {p : WithTop K}
    (ha : Answer b surfs surfOwn rayOwn relev k j p) :
    k < surfs.length ∧ j < b.length ∧ Tested surfOwn rayOwn relev k j := by
  obtain ⟨s, i, hs, hi, hp⟩ := ha
  have := List.mem_of_getElem? hi
  simp only [testedIdx, List.mem_filter, List.mem_range, decide_eq_true_eq] at this
  exact ⟨(List.getElem?_eq_some_iff.1 hs).1, this.1, this.2⟩

variable [IsStrictOrderedRing K]

theorem selfTol_pos : (0 : K) < selfTol := by unfold selfTol; positivity
theorem negTol_pos : (0 : K) < negTol := by unfold negTol; positivity
theorem selfTol_lt_dropTol : (selfTol : K) < dropTol := by
  unfold selfTol dropTol
  norm_num

theorem selfHit_iff (h : IShape b.length surfs surfOwn rayOwn relev)
    (hlen : ∀ s ∈ surfs, s.LengthOk) :
    ((rawStack b surfs surfOwn rayOwn relev).any
      fun row => row.any fun p => decide (p ≤ ((selfTol : K) : WithTop K))) = true ↔
    SelfHitPresent b surfs surfOwn rayOwn relev := by
  rw [any_any_entry]
  unfold SelfHitPresent
  constructor
  · rintro ⟨k, j, p, he, hp⟩
    rw [decide_eq_true_eq] at hp
    rcases (rawStack_entry h hlen k j p).1 he with ha | ⟨hk, hj, ht, rfl⟩
    · exact ⟨k, j, (answer_lt h ha).1, (answer_lt h ha).2.1, Or.inr ⟨p, ha, hp⟩⟩
    · exact ⟨k, j, hk, hj, Or.inl ht⟩
  · rintro ⟨k, j, hk, hj, ht | ⟨p, ha, hp⟩⟩
    · refine ⟨k, j, 0, (rawStack_entry h hlen k j 0).2 (Or.inr ⟨hk, hj, ht, rfl⟩), ?_⟩
      rw [decide_eq_true_eq]
      exact_mod_cast selfTol_pos.le
    · exact ⟨k, j, p, (rawStack_entry h hlen k j p).2 (Or.inl ha), by simpa using hp⟩

/-- Non-`⊤` entries after thresholding: answers above the threshold. -/
theorem dropped_entry (h : IShape b.length surfs surfOwn rayOwn relev)
    (hlen : ∀ s ∈ surfs, s.LengthOk) (k j : Nat) (p : WithTop K) (hp : p ≠ ⊤) :
    Entry (dropSelfHits (rawStack b surfs surfOwn rayOwn relev)) k j p ↔
      Answer b surfs surfOwn rayOwn relev k j p ∧
      ((threshold b surfs surfOwn rayOwn relev : K) : WithTop K) < p := by
  unfold dropSelfHits threshold
  by_cases hs : SelfHitPresent b surfs surfOwn rayOwn relev
  · rw [if_pos ((selfHit_iff h hlen).2 hs), if_pos hs]
    constructor
    · rintro ⟨row, hk, hj⟩
      simp only [List.getElem?_map, Option.map_eq_some_iff] at hk
      obtain ⟨r, hr, rfl⟩ := hk
      simp only [List.getElem?_map, Option.map_eq_some_iff] at hj
      obtain ⟨q, hq, hqp⟩ := hj
      split at hqp
      · exact absurd hqp.symm hp
      · rename_i hle
        subst hqp
        rw [not_le] at hle
        refine ⟨?_, hle⟩
        rcases (rawStack_entry h hlen k j q).1 ⟨r, hr, hq⟩ with ha | ⟨_, _, _, rfl⟩
        · exact ha
        · exfalso
          have h0 : ((dropTol : K) : WithTop K) < ((0 : K) : WithTop K) := by simpa using hle
          rw [WithTop.coe_lt_coe] at h0
          have : (0 : K) < dropTol := lt_trans selfTol_pos selfTol_lt_dropTol
          exact absurd h0 (not_lt.2 this.le)
    · rintro ⟨ha, hlt⟩
      obtain ⟨r, hr, hq⟩ := (rawStack_entry h hlen k j p).2 (Or.inl ha)
      refine ⟨_, by simp [hr]; rfl, ?_⟩
      simp [hq, not_le.2 hlt]
  · have hs' : ¬ _ := fun hh => hs ((selfHit_iff h hlen).1 hh)
    rw [if_neg hs', if_neg hs]
    constructor
    · intro he
      rcases (rawStack_entry h hlen k j p).1 he with ha | ⟨hk, hj, ht, rfl⟩
      · refine ⟨ha, ?_⟩
        rw [← not_le]
        exact fun hle => hs ⟨k, j, (answer_lt h ha).1, (answer_lt h ha).2.1, Or.inr ⟨p, ha, hle⟩⟩
      · exact absurd ⟨k, j, hk, hj, Or.inl ht⟩ hs
    · exact fun ha => (rawStack_entry h hlen k j p).2 (Or.inl ha.1)

/-- Main characterisation of the first mask of `intersect_ray`. -/
theorem front_iff (h : IShape b.length surfs surfOwn rayOwn relev)
    (hlen : ∀ s ∈ surfs, s.LengthOk) (k j : Nat) :
    Marked (frontMask b.length (dropSelfHits (rawStack b surfs surfOwn rayOwn relev))) k j ↔
      ∃ t : K, Answer b surfs surfOwn rayOwn relev k j t ∧
        threshold b surfs surfOwn rayOwn relev < t ∧
        ∀ k' (t' : K), Answer b surfs surfOwn rayOwn relev k' j t' →
          threshold b surfs surfOwn rayOwn relev < t' → t ≤ t' := by
  rw [frontMask_spec (dropSelfHits_row_length (fun row hr => rawStack_row_length hr))]
  constructor
  · rintro ⟨p, he, hp, hmin⟩
    obtain ⟨ha, hlt⟩ := (dropped_entry h hlen k j p hp).1 he
    lift p to K using hp
    refine ⟨p, ha, by exact_mod_cast hlt, ?_⟩
    intro k' t' ha' hlt'
    have := hmin k' t' ((dropped_entry h hlen k' j t' (by simp)).2 ⟨ha', by exact_mod_cast hlt'⟩)
    exact_mod_cast this
  · rintro ⟨t, ha, hlt, hmin⟩
    refine ⟨t, (dropped_entry h hlen k j t (by simp)).2 ⟨ha, by exact_mod_cast hlt⟩, by simp, ?_⟩
    intro k' p' he'
    by_cases hp : p' = ⊤
    · simp [hp]
    · obtain ⟨ha', hlt'⟩ := (dropped_entry h hlen k' j p' hp).1 he'
      lift p' to K using hp
      exact_mod_cast hmin k' p' ha' (by exact_mod_cast hlt')

theorem frontMask_row_length {n : Nat} {m : List (List (WithTop K))} (h : ∀ row ∈ m, row.length = n) :
    ∀ row ∈ frontMask n m, row.length = n := by
  unfold frontMask
  intro row hr
  simp only [List.mem_map] at hr
  obtain ⟨r, hr, rfl⟩ := hr
  simp [h r hr, colMin_length h]

theorem dropSelfHits_length (m : List (List (WithTop K))) : (dropSelfHits m).length = m.length := by
  unfold dropSelfHits
  split <;> simp

theorem intersectRay_ok {front owned : List (List Bool)}
    (hr : intersectRay b surfs surfOwn rayOwn relev = .ok (front, owned)) :
    owned = List.zipWith (ownedMask rayOwn) surfOwn relev ∧
    front = frontMask b.length (dropSelfHits (rawStack b surfs surfOwn rayOwn relev)) := by
  unfold intersectRay at hr
  simp only at hr
  split at hr
  · simp at hr
  · split at hr
    · simp at hr
    · simp only [Except.ok.injEq, Prod.mk.injEq] at hr
      exact ⟨hr.2.symm, hr.1.symm⟩

end
end Tracer
