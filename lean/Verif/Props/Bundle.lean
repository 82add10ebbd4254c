import Verif.Lemmas.Dict

/-!
# Ray bundles (C01–C05)

Theorems about the dictionary model of `RayBundle`.  `column h b p` is what `get_<p>()` shows,
`none` if the property is not set; `h` are the arrays before a call and `h'` after it, and
`h <+: h'` says that no array that existed before was changed.
-/

set_option linter.unusedSectionVars false

namespace Tracer.Dict

variable {V : Type _} {h h' : Heap V} {a b c : Obj}

/-- C01: `a + b`, when it returns, has exactly the properties set in both, each with `a`'s rays
followed by `b`'s rays.  No array that existed before is changed, and the sum's arrays are new. -/
theorem C01_add_partial (ha : Wf h a) (hb : Wf h b) (hadd : add h a b = .ok (h', c)) :
    (∀ p, column h' c p =
      match column h a p, column h b p with
      | some x, some y => some ⟨x.lead, x.cols ++ y.cols⟩
      | _, _ => none) ∧
    h <+: h' ∧ (∀ p r, c.ref p = some r → h.length ≤ r) ∧ Wf h' c := by
  have hinv := joinLoop_spec (bs := [a, b]) (by simp [ha, hb]) hadd
  refine ⟨?_, hinv.grow, hinv.fresh, hinv.wf⟩
  intro p
  by_cases hboth : (a.hasAttr (attrOf p) && b.hasAttr (attrOf p)) = true
  · have hab := hboth
    rw [Bool.and_eq_true, ← column_isSome ha, ← column_isSome hb, Option.isSome_iff_exists,
      Option.isSome_iff_exists] at hab
    obtain ⟨⟨x, hx⟩, y, hy⟩ := hab
    have hmem : attrOf p ∈ a.check := by
      obtain ⟨r, _, hr, _⟩ := get_of_column ha hx
      exact (ha.value _ _ hr).1
    obtain ⟨as, arr, has, hst, harr⟩ := hinv.set _ hmem hboth
    have has' : [column h a p, column h b p] = as.map some := has
    rw [hx, hy] at has'
    have : as = [x, y] := by
      have := List.map_injective_iff.2 (Option.some_injective (Arr V)) (show as.map some = [x, y].map some from has'.symm)
      exact this
    subst this
    obtain ⟨_, hlead, hcols⟩ := hstack_ok hst
    rw [hx, hy]
    show (c.ref (attrOf p)).bind _ = _
    rw [harr]
    have hl := hlead x (by simp)
    obtain ⟨l, cs⟩ := arr
    simp only at hl hcols
    subst hcols
    simp [hl]
  · have hnone : column h' c p = none := by
      by_contra hne
      have : c.ref (attrOf p) ≠ none := by
        intro e; apply hne; unfold column; rw [e]; rfl
      exact hboth (hinv.unset _ this).2
    rw [hnone]
    rw [Bool.and_eq_true, ← column_isSome ha, ← column_isSome hb] at hboth
    cases hx : column h a p <;> cases hy : column h b p <;> simp_all

/-- Neither operand (nor any other bundle) changes. -/
theorem C01_operands_unchanged (ha : Wf h a) (hb : Wf h b) (hadd : add h a b = .ok (h', c))
    {d : Obj} (hd : Wf h d) (p : Name) : column h' d p = column h d p :=
  column_prefix hd (C01_add_partial ha hb hadd).2.1 p

theorem base_noclash {b : Obj} (hw : Wf h b) : ∀ a ∈ b.check, attrOf a ∉ emptyObj.check := by
  intro a ha hmem
  rw [emptyObj_check] at hmem
  obtain ⟨p, hp, hpa⟩ := List.mem_map.1 hmem
  have := attrOf_inj hpa
  subst this
  obtain ⟨q, rfl⟩ := hw.name _ ha
  revert hp
  simp [baseNames, attrOf, vertices, directions, energy, parents, refIndex]

theorem getAll_exists {p : Name} {bs : List Obj} (hbs : ∀ b ∈ bs, Wf h b)
    (hset : ∀ b ∈ bs, (column h b p).isSome) :
    ∃ (rs : List Nat) (as : List (Arr V)), getAll (attrOf p) bs = .ok rs ∧ rs.map (fun r => h[r]?) = as.map some ∧
      bs.map (fun b => column h b p) = as.map some := by
  induction bs with
  | nil => exact ⟨[], [], rfl, rfl, rfl⟩
  | cons b bs ih =>
    obtain ⟨rs, as, e1, e2, e3⟩ := ih (fun x hx => hbs x (by simp [hx])) (fun x hx => hset x (by simp [hx]))
    obtain ⟨x, hx⟩ := Option.isSome_iff_exists.1 (hset b (by simp))
    obtain ⟨r, hr, _, hh⟩ := get_of_column (hbs b (by simp)) hx
    refine ⟨r :: rs, x :: as, ?_, ?_, ?_⟩
    · unfold getAll; rw [hr, e1]
    · simp [hh, e2]
    · simp [hx, e3]

/-- C01: the sum is defined whenever the shapes of the shared properties agree and no property name
of `a` is another one with an underscore before it. -/
theorem C01_add_defined (ha : Wf h a) (hb : Wf h b) (hn : NoClash a)
    (hl : ∀ p x y, column h a p = some x → column h b p = some y → x.lead = y.lead) :
    ∃ h' c, add h a b = .ok (h', c) := by
  refine joinLoop_exists (emptyObj_wf h) ha.name hn (base_noclash ha) ?_
  intro attr hattr hp
  obtain ⟨p, rfl⟩ := ha.name attr hattr
  rw [Bool.and_eq_true, ← column_isSome ha, ← column_isSome hb] at hp
  obtain ⟨rs, as, e1, e2, e3⟩ := getAll_exists (h := h) (p := p) (bs := [a, b]) (by simp [ha, hb]) (by simp [hp.1, hp.2])
  obtain ⟨x, hx⟩ := Option.isSome_iff_exists.1 hp.1
  obtain ⟨y, hy⟩ := Option.isSome_iff_exists.1 hp.2
  simp only [List.map_cons, hx, hy, List.map_nil] at e3
  have : as = [x, y] := List.map_injective_iff.2 (Option.some_injective (Arr V)) e3.symm
  subst this
  refine ⟨rs, [x, y], ⟨x.lead, (([x, y]).map Arr.cols).flatten⟩, e1, e2, ?_⟩
  unfold hstack
  simp only
  rw [if_pos (by simp [hl p x y hx hy])]

def flag : Name := ['f', 'l', 'a', 'g']

/-- Two bundles with a user property, for the examples. -/
def exHeap : Heap Nat := [⟨3, [1, 2]⟩, ⟨3, [3, 4]⟩, ⟨0, [5, 6]⟩, ⟨3, [7]⟩, ⟨3, [8]⟩, ⟨0, [9]⟩, ⟨0, [10]⟩]

def exA : Obj := construct [(vertices, some 0), (directions, some 1), (energy, none), (parents, none),
  (refIndex, none), (flag, some 2)]

def exB : Obj := construct [(energy, some 6), (vertices, some 3), (directions, some 4), (parents, none),
  (refIndex, none), (flag, some 5)]

theorem construct_wf {items : List (Name × Option Nat)} (hn : (items.map Prod.fst).Nodup)
    (hb : ∀ p ∈ baseNames, p ∈ items.map Prod.fst)
    (hv : ∀ nv ∈ items, ∀ r, nv.2 = some r → r < h.length) : Wf h (construct items) := by
  refine ⟨?_, ?_, ?_⟩
  · intro a ha
    rw [construct_check] at ha
    obtain ⟨nv, _, rfl⟩ := List.mem_map.1 ha
    exact ⟨nv.1, rfl⟩
  · intro p hp
    rw [construct_check]
    obtain ⟨nv, hnv, rfl⟩ := List.mem_map.1 (hb p hp)
    exact List.mem_map.2 ⟨nv, hnv, rfl⟩
  · intro a r hr
    by_cases hex : ∃ nv ∈ items, attrOf nv.1 = a
    · obtain ⟨nv, hnv, rfl⟩ := hex
      rw [construct_ref hn (p := nv.1) (v := nv.2) hnv] at hr
      exact ⟨by rw [construct_check]; exact List.mem_map.2 ⟨nv, hnv, rfl⟩, hv nv hnv r hr⟩
    · rw [construct_ref_none hn (by
        intro nv hnv e; exact hex ⟨nv, hnv, e⟩)] at hr
      simp at hr

theorem exA_wf : Wf exHeap exA := construct_wf (by decide) (by decide) (by decide)

theorem exB_wf : Wf exHeap exB := construct_wf (by decide) (by decide) (by decide)

/-- The operands of a sum read as before. -/
example : ∃ h' c, add exHeap exA exB = .ok (h', c) ∧ column h' exA flag = some ⟨0, [5, 6]⟩ :=
  ⟨_, _, rfl, by rw [C01_operands_unchanged exA_wf exB_wf rfl exA_wf]; rfl⟩

/-- The hypotheses of C01 are met by two bundles of different sizes and property sets; the sum keeps
the user property and drops the energy, which only one of them has. -/
example : ∃ h' c, add exHeap exA exB = .ok (h', c) ∧ column h' c flag = some ⟨0, [5, 6, 9]⟩ ∧
    column h' c energy = none := by
  have hn : NoClash exA := by unfold NoClash; decide
  obtain ⟨h', c, hadd⟩ := C01_add_defined exA_wf exB_wf hn (by
    intro p x y hx hy
    obtain ⟨r, _, hr, hx'⟩ := get_of_column exA_wf hx
    obtain ⟨r', _, hr', hy'⟩ := get_of_column exB_wf hy
    have hmem := (exA_wf.value _ _ hr).1
    have hall : ∀ a ∈ exA.check, ∀ r, exA.ref a = some r → ∀ r', exB.ref a = some r' →
        (exHeap[r]?.map Arr.lead) = (exHeap[r']?.map Arr.lead) := by
      intro a ha
      have : a ∈ [attrOf vertices, attrOf directions, attrOf energy, attrOf parents, attrOf refIndex,
        attrOf flag] := by
        simpa [exA, construct_check] using ha
      simp only [List.mem_cons, List.not_mem_nil, or_false] at this
      rcases this with rfl | rfl | rfl | rfl | rfl | rfl <;>
        (intro r hr r' hr'; revert hr hr'
         simp [exA, exB, construct, Obj.createProperty, Obj.bind, attrOf, vertices, directions, energy,
          parents, refIndex, flag]
         try (rintro rfl rfl; rfl))
    have := hall _ hmem r hr r' hr'
    rw [hx', hy'] at this
    simpa using this)
  have hc := (C01_add_partial exA_wf exB_wf hadd).1
  refine ⟨h', c, hadd, ?_, ?_⟩
  · rw [hc]; rfl
  · rw [hc]; rfl

/-- C01 fails for a bundle with two user properties `_foo` and `foo`: `__add__` calls `has_property`
with the underscore already in place, takes `_foo` for `foo`, and raises. -/
theorem C01_underscore_fails :
    (add (V := Nat) [⟨3, [1]⟩] (construct [(vertices, some 0), (directions, some 0), (energy, none),
        (parents, none), (refIndex, none), (['_', 'f', 'o', 'o'], some 0), (['f', 'o', 'o'], some 0)])
      (construct [(vertices, some 0), (directions, some 0), (energy, none),
        (parents, none), (refIndex, none), (['_', 'f', 'o', 'o'], some 0), (['f', 'o', 'o'], some 0)])).toOption.isNone =
      true := by
  decide +kernel

/-! ## C02 -/

/-- C02: the concatenation of a non-empty list, when it returns, has exactly the properties set in the
first bundle; all bundles have them set, and their values are the rays of all bundles in order. -/
theorem C02_concatenate_partial {bs : List Obj} (hbs : ∀ x ∈ b :: bs, Wf h x)
    (hc : concatenate h (b :: bs) = .ok (h', c)) :
    (∀ p, match column h b p with
      | none => column h' c p = none
      | some x => ∃ as : List (Arr V), (b :: bs).map (fun d => column h d p) = as.map some ∧
          column h' c p = some ⟨x.lead, (as.map Arr.cols).flatten⟩) ∧
    h <+: h' ∧ (∀ p r, c.ref p = some r → h.length ≤ r) ∧ Wf h' c := by
  have hinv := joinLoop_spec hbs hc
  have hb := hbs b (by simp)
  refine ⟨?_, hinv.grow, hinv.fresh, hinv.wf⟩
  intro p
  cases hx : column h b p with
  | none =>
    by_contra hne
    have : c.ref (attrOf p) ≠ none := by
      intro e; apply hne; show column h' c p = none; unfold column; rw [e]; rfl
    have := (hinv.unset _ this).2
    rw [← column_isSome hb, hx] at this
    simp at this
  | some x =>
    have hmem : attrOf p ∈ b.check := by
      obtain ⟨r, _, hr, _⟩ := get_of_column hb hx
      exact (hb.value _ _ hr).1
    obtain ⟨as, arr, has, hst, harr⟩ := hinv.set _ hmem (by rw [← column_isSome hb, hx]; rfl)
    refine ⟨as, has, ?_⟩
    show (c.ref (attrOf p)).bind _ = _
    rw [harr]
    obtain ⟨_, hlead, hcols⟩ := hstack_ok hst
    have hl := hlead x (by
      have : some x ∈ as.map some := has ▸ List.mem_map.2 ⟨b, by simp, hx⟩
      simpa using this)
    obtain ⟨l, cs⟩ := arr
    simp only at hl hcols
    subst hcols
    rw [hl]

/-- C02: if some later bundle lacks a property that is set in the first, the call raises. -/
theorem C02_missing_raises {bs : List Obj} (hbs : ∀ x ∈ b :: bs, Wf h x) {p : Name} {d : Obj}
    (hset : (column h b p).isSome) (hd : d ∈ bs) (hmiss : column h d p = none) :
    ∃ e, concatenate h (b :: bs) = .error e := by
  cases hc : concatenate h (b :: bs) with
  | error e => exact ⟨e, rfl⟩
  | ok r =>
    obtain ⟨h', c⟩ := r
    exfalso
    have := (C02_concatenate_partial hbs hc).1 p
    obtain ⟨x, hx⟩ := Option.isSome_iff_exists.1 hset
    rw [hx] at this
    obtain ⟨as, has, _⟩ := this
    have : column h d p ∈ as.map some := has ▸ List.mem_map.2 ⟨d, by simp [hd], rfl⟩
    rw [hmiss] at this
    simp at this

/-- C02: the empty list gives a bundle of zero rays with exactly the five base properties. -/
theorem C02_empty (h : Heap V) :
    ∃ h' c, concatenate h [] = .ok (h', c) ∧ h <+: h' ∧ Wf h' c ∧
      (∀ p, (column h' c p).isSome ↔ p ∈ baseNames) ∧ (∀ p x, column h' c p = some x → x.cols = []) := by
  refine ⟨_, _, rfl, List.prefix_append _ _, ?_, ?_, ?_⟩
  · have hw := (emptyObj_wf h).mono (List.prefix_append h [⟨3, []⟩, ⟨0, []⟩, ⟨0, []⟩, ⟨0, []⟩])
    have hlen : (h ++ [⟨3, []⟩, ⟨0, []⟩, ⟨0, []⟩, (⟨0, []⟩ : Arr V)]).length = h.length + 4 := by simp
    refine ((((hw.bind ?_ ?_).bind ?_ ?_).bind ?_ ?_).bind ?_ ?_).bind ?_ ?_
    all_goals first
      | (rw [hlen]; omega)
      | (show _ ∈ emptyObj.check; rw [emptyObj_check]; decide)
  · intro p
    unfold column
    simp only [Obj.bind, emptyObj_ref]
    have hinj : ∀ q, attrOf p = attrOf q ↔ p = q := fun q => ⟨attrOf_inj, fun e => e ▸ rfl⟩
    simp only [hinj, baseNames, List.mem_cons, List.not_mem_nil, or_false]
    by_cases h : p ∈ baseNames
    · simp only [baseNames, List.mem_cons, List.not_mem_nil, or_false] at h
      rcases h with rfl | rfl | rfl | rfl | rfl <;>
        simp [vertices, directions, energy, parents, refIndex]
    · simp only [baseNames, List.mem_cons, List.not_mem_nil, or_false, not_or] at h
      obtain ⟨h1, h2, h3, h4, h5⟩ := h
      simp [h1, h2, h3, h4, h5]
  · intro p x
    unfold column
    simp only [Obj.bind, emptyObj_ref]
    intro hx
    split_ifs at hx <;> simp [List.getElem?_append_right] at hx <;> rw [← hx]

/-- C02: its vertices and directions have three rows, the others are one-dimensional. -/
theorem C02_empty_shapes (h : Heap V) : ∃ h' c, concatenate h [] = .ok (h', c) ∧
    column h' c vertices = some ⟨3, []⟩ ∧ column h' c directions = some ⟨3, []⟩ ∧ column h' c energy = some ⟨0, []⟩ ∧
    column h' c parents = some ⟨0, []⟩ ∧ column h' c refIndex = some ⟨0, []⟩ := by
  refine ⟨_, _, rfl, ?_, ?_, ?_, ?_, ?_⟩ <;> unfold column <;>
    simp [Obj.bind, attrOf, vertices, directions, energy, parents, refIndex, List.getElem?_append_right]

/-- C02: the empty bundle can be the start of a sum.  Added before a bundle with arrays of the usual shapes, it gives the
base properties of that bundle, and drops the others. -/
theorem C02_empty_neutral {h₁ : Heap V} {z : Obj} (hb : Wf h b) (hz : concatenate h [] = .ok (h₁, z))
    (h3 : ∀ p x, p = vertices ∨ p = directions → column h b p = some x → x.lead = 3)
    (h0 : ∀ p x, p = energy ∨ p = parents ∨ p = refIndex → column h b p = some x → x.lead = 0) :
    ∃ h' c, add h₁ z b = .ok (h', c) ∧
      (∀ p ∈ baseNames, column h' c p = column h b p) ∧ ∀ p, p ∉ baseNames → column h' c p = none := by
  obtain ⟨h₂, z₂, e, hpre, hwz, hset, _⟩ := C02_empty h
  obtain ⟨h₃, z₃, e', g1, g2, g3, g4, g5⟩ := C02_empty_shapes h
  rw [hz] at e e'
  simp only [Except.ok.injEq, Prod.mk.injEq] at e e'
  obtain ⟨rfl, rfl⟩ := e
  obtain ⟨rfl, rfl⟩ := e'
  have hb' : Wf h₁ b := hb.mono hpre
  have hcol : ∀ p, column h₁ b p = column h b p := fun p => column_prefix hb hpre p
  have hshape : ∀ p x, p ∈ baseNames → column h b p = some x → column h₁ z p = some ⟨x.lead, []⟩ := by
    intro p x hp hx
    simp only [baseNames, List.mem_cons, List.not_mem_nil, or_false] at hp
    rcases hp with rfl | rfl | rfl | rfl | rfl
    · rw [g1, h3 _ x (Or.inl rfl) hx]
    · rw [g2, h3 _ x (Or.inr rfl) hx]
    · rw [g3, h0 _ x (Or.inl rfl) hx]
    · rw [g4, h0 _ x (Or.inr (Or.inl rfl)) hx]
    · rw [g5, h0 _ x (Or.inr (Or.inr rfl)) hx]
  have hchk : z.check = emptyObj.check := by
    have := congrArg (fun r : Except Err (Heap V × Obj) => match r with | .ok x => x.2.check | .error _ => []) hz
    exact this.symm
  obtain ⟨h', c, hadd⟩ := C01_add_defined hwz hb' (by unfold NoClash; rw [hchk]; decide) (by
    intro p x y hx hy
    rw [hcol] at hy
    have hp : p ∈ baseNames := (hset p).1 (by rw [hx]; rfl)
    rw [hshape p y hp hy, Option.some.injEq] at hx
    rw [← hx])
  refine ⟨h', c, hadd, fun p hp => ?_, fun p hp => ?_⟩
  · rw [(C01_add_partial hwz hb' hadd).1 p, hcol]
    cases hy : column h b p with
    | none => cases column h₁ z p <;> rfl
    | some y => rw [hshape p y hp hy]; simp
  · rw [(C01_add_partial hwz hb' hadd).1 p]
    have : column h₁ z p = none := by
      by_contra hc
      exact hp ((hset p).1 (Option.isSome_iff_ne_none.2 hc))
    rw [this]

/-- Adding to an empty concatenation keeps the five base properties, by the theorem and by computing. -/
example : ∃ h₁ z h' c, concatenate exHeap [] = .ok (h₁, z) ∧ add h₁ z exA = .ok (h', c) ∧
    column h' c vertices = some ⟨3, [1, 2]⟩ := by
  obtain ⟨h', c, e, hc, _⟩ := C02_empty_neutral (b := exA) (h := exHeap) exA_wf rfl
    (by rintro p x (rfl | rfl) hx <;> cases hx <;> rfl)
    (by rintro p x (rfl | rfl | rfl) hx <;> cases hx)
  exact ⟨_, _, h', c, rfl, e, by rw [hc _ (by decide)]; rfl⟩

example : ∃ h₁ z h' c, concatenate exHeap [] = .ok (h₁, z) ∧ add h₁ z exB = .ok (h', c) ∧
    column h' c vertices = some ⟨3, [7]⟩ ∧ column h' c flag = none :=
  ⟨_, _, _, _, rfl, rfl, rfl, rfl⟩

/-- C02: when it returns. -/
theorem C02_concatenate_defined {bs : List Obj} (hbs : ∀ x ∈ b :: bs, Wf h x) (hn : NoClash b)
    (hset : ∀ p, (column h b p).isSome → ∀ d ∈ bs, (column h d p).isSome)
    (hl : ∀ p x, column h b p = some x → ∀ d ∈ bs, ∀ y, column h d p = some y → y.lead = x.lead) :
    ∃ h' c, concatenate h (b :: bs) = .ok (h', c) := by
  have hb := hbs b (by simp)
  refine joinLoop_exists (emptyObj_wf h) hb.name hn (base_noclash hb) ?_
  intro attr hattr hp
  obtain ⟨p, rfl⟩ := hb.name attr hattr
  rw [← column_isSome hb] at hp
  obtain ⟨rs, as, e1, e2, e3⟩ := getAll_exists (p := p) hbs (by
    intro d hd
    rcases List.mem_cons.1 hd with rfl | hd
    · exact hp
    · exact hset p hp d hd)
  obtain ⟨x, hx⟩ := Option.isSome_iff_exists.1 hp
  cases as with
  | nil => simp at e3
  | cons y as =>
    simp only [List.map_cons, hx, List.cons.injEq, Option.some.injEq] at e3
    obtain ⟨rfl, e3⟩ := e3
    refine ⟨rs, x :: as, ⟨x.lead, ((x :: as).map Arr.cols).flatten⟩, e1, e2, ?_⟩
    unfold hstack
    simp only
    rw [if_pos]
    intro y hy
    have : some y ∈ as.map some := List.mem_map.2 ⟨y, hy, rfl⟩
    rw [← e3] at this
    obtain ⟨d, hd, hdy⟩ := List.mem_map.1 this
    exact hl p x hx d hd y hdy

/-- Three copies of a bundle concatenate to their rays, three times over. -/
example : ∃ h' c, concatenate exHeap [exA, exA, exA] = .ok (h', c) ∧
    column h' c flag = some ⟨0, [5, 6, 5, 6, 5, 6]⟩ := by
  have hbs : ∀ x ∈ [exA, exA, exA], Wf exHeap x := by
    intro x hx; simp at hx; subst hx; exact exA_wf
  obtain ⟨h', c, hc⟩ := C02_concatenate_defined hbs (by unfold NoClash; decide)
    (by intro p hp d hd; simp at hd; subst hd; exact hp)
    (by intro p x hx d hd y hy; simp at hd; subst hd; rw [hx] at hy; cases hy; rfl)
  refine ⟨h', c, hc, ?_⟩
  have := (C02_concatenate_partial hbs hc).1 flag
  have e : column exHeap exA flag = some ⟨0, [5, 6]⟩ := by rfl
  rw [e] at this
  obtain ⟨as, has, hcol⟩ := this
  simp only [List.map_cons, List.map_nil, e] at has
  have : as = [⟨0, [5, 6]⟩, ⟨0, [5, 6]⟩, ⟨0, [5, 6]⟩] :=
    List.map_injective_iff.2 (Option.some_injective (Arr Nat)) has.symm
  rw [hcol, this]
  rfl

/-- The energy is set in the first bundle only: the call raises. -/
example : ∃ e, concatenate exHeap [exB, exA] = .error e :=
  C02_missing_raises (p := energy) (d := exA)
    (by intro x hx; simp at hx; rcases hx with rfl | rfl; exacts [exB_wf, exA_wf]) (by rfl) (by simp) (by rfl)

/-! ## C03 -/

/-- C03: `b.inherit(s, given...)`, when it returns. -/
theorem C03_inherit {s : Sel} {given : List (Name × Nat)} (hb : Wf h b)
    (hg : ∀ g ∈ given, g.2 < h.length) (hi : inherit h b s given = .ok (h', c)) :
    (∀ p, column h' c p =
      match lookup given p with
      | some r => h[r]?
      | none => (column h b p).map s.pick) ∧
    h <+: h' ∧ Wf h' c := by
  unfold inherit at hi
  split at hi
  · simp at hi
  · rename_i h1 items hl
    simp only [Except.ok.injEq, Prod.mk.injEq] at hi
    obtain ⟨rfl, rfl⟩ := hi
    obtain ⟨hgrow, hkeys, hitems⟩ := inheritLoop_ok hb (List.prefix_refl _) hl
    have hnd : (items.map Prod.fst).Nodup := by rw [hkeys]; exact nodup_inheritKeys b given
    have hlook : ∀ p r, lookup given p = some r → r < h.length ∧ p ∈ given.map Prod.fst := by
      intro p r hr
      unfold lookup at hr
      rw [Option.map_eq_some_iff] at hr
      obtain ⟨g, hg1, rfl⟩ := hr
      have hm := List.mem_of_find?_eq_some hg1
      exact ⟨hg g hm, List.mem_map.2 ⟨g, hm, by simpa using List.find?_some hg1⟩⟩
    refine ⟨?_, hgrow, ?_⟩
    · intro p
      by_cases hp : p ∈ inheritKeys b given
      · rw [← hkeys] at hp
        obtain ⟨⟨p', v⟩, hpv, rfl⟩ := List.mem_map.1 hp
        have hit := hitems _ hpv
        unfold column
        rw [construct_ref hnd hpv]
        unfold ItemOk at hit
        cases hlk : lookup given p' with
        | some r =>
          simp only [hlk] at hit
          rw [hit]
          exact prefix_get hgrow (hlook p' r hlk).1
        | none =>
          simp only [hlk] at hit
          cases hcol : (b.ref (attrOf p')).bind (fun r => h[r]?) with
          | none => simp only [hcol] at hit; rw [hit]; rfl
          | some arr =>
            simp only [hcol] at hit
            obtain ⟨r, rfl, hlt, hval, _⟩ := hit
            exact hval
      · have h1 : lookup given p = none := by
          cases hlk : lookup given p with
          | none => rfl
          | some r =>
            exfalso; apply hp
            unfold inheritKeys
            rw [List.mem_dedup]
            exact List.mem_append_right _ (hlook p r hlk).2
        have h2 : column h b p = none := by
          unfold column
          cases hr : b.ref (attrOf p) with
          | none => rfl
          | some r =>
            exfalso; apply hp
            unfold inheritKeys
            rw [List.mem_dedup]
            exact List.mem_append_left _ (List.mem_append_left _
              (List.mem_map.2 ⟨_, (hb.value _ _ hr).1, rfl⟩))
        rw [h1, h2]
        unfold column
        rw [construct_ref_none hnd]
        · rfl
        · intro nv hnv e
          apply hp
          rw [← hkeys]
          exact List.mem_map.2 ⟨nv, hnv, attrOf_inj e⟩
    · refine construct_wf hnd ?_ ?_
      · intro p hp
        rw [hkeys]
        unfold inheritKeys
        rw [List.mem_dedup]
        exact List.mem_append_left _ (List.mem_append_right _ hp)
      · intro nv hnv r hr
        have hit := hitems _ hnv
        unfold ItemOk at hit
        split at hit
        · rename_i r' hr'
          rw [hr] at hit
          cases hit
          exact Nat.lt_of_lt_of_le (hlook _ _ hr').1 hgrow.length_le
        · split at hit
          · rw [hr] at hit; simp at hit
          · obtain ⟨r', hr', hlt, _⟩ := hit
            rw [hr] at hr'
            cases hr'
            exact hlt

/-- `b` (and every other bundle) is unchanged. -/
theorem C03_unchanged {s : Sel} {given : List (Name × Nat)} (hb : Wf h b)
    (hg : ∀ g ∈ given, g.2 < h.length) (hi : inherit h b s given = .ok (h', c))
    {d : Obj} (hd : Wf h d) (p : Name) : column h' d p = column h d p :=
  column_prefix hd (C03_inherit hb hg hi).2.1 p

example : ∃ h' c, inherit exHeap exA (.idx [1, 0]) [] = .ok (h', c) ∧
    column h' exA flag = some ⟨0, [5, 6]⟩ :=
  ⟨_, _, rfl, by rw [C03_unchanged (s := .idx [1, 0]) (given := []) exA_wf (by simp) rfl exA_wf]; rfl⟩

/-- C03: the call returns whenever the selected indices are valid for the properties to be copied. -/
theorem C03_defined {s : Sel} {given : List (Name × Nat)} (hb : Wf h b)
    (hs : ∀ l, s = .idx l → ∀ p x, column h b p = some x → lookup given p = none → ∀ i ∈ l, i < x.cols.length) :
    ∃ h' c, inherit h b s given = .ok (h', c) := by
  obtain ⟨h', items, e⟩ := inheritLoop_exists (s := s) (given := given) (ps := inheritKeys b given) hb
    (List.prefix_refl h) (fun p _ hl arr ha l hsl i hi => hs l hsl p arr ha hl i hi)
  unfold inherit
  rw [e]
  exact ⟨_, _, rfl⟩

/-- The default selector copies every property (as a view, see `C05_shared_fails`). -/
theorem C03_default (hb : Wf h b) : ∃ h' c, inherit h b .all [] = .ok (h', c) ∧
    ∀ p, column h' c p = column h b p := by
  obtain ⟨h', c, e⟩ := C03_defined (s := .all) (given := []) hb (by intro l hl; simp at hl)
  refine ⟨h', c, e, fun p => ?_⟩
  rw [(C03_inherit hb (by simp) e).1 p]
  simp only [lookup, List.find?_nil, Option.map_none]
  cases column h b p <;> rfl

example : ∃ h' c, inherit exHeap exA .all [] = .ok (h', c) ∧ column h' c flag = some ⟨0, [5, 6]⟩ := by
  obtain ⟨h', c, e, hc⟩ := C03_default exA_wf
  exact ⟨h', c, e, by rw [hc]; rfl⟩

/-- Rays 1, 0, 1 of a bundle, with new energies. -/
example : ∃ h' c, inherit (exHeap ++ [(⟨0, [11, 12, 13]⟩ : Arr Nat)]) exA (.idx [1, 0, 1]) [(energy, 7)] = .ok (h', c) ∧
    column h' c flag = some ⟨0, [6, 5, 6]⟩ ∧ column h' c energy = some ⟨0, [11, 12, 13]⟩ ∧
    column h' c parents = none := by
  have hw : Wf (exHeap ++ [(⟨0, [11, 12, 13]⟩ : Arr Nat)]) exA := exA_wf.mono (List.prefix_append _ _)
  have hg : ∀ g ∈ [((energy, 7) : Name × Nat)], g.2 < (exHeap ++ [(⟨0, [11, 12, 13]⟩ : Arr Nat)]).length := by simp [exHeap]
  obtain ⟨h', c, e⟩ := C03_defined (s := .idx [1, 0, 1]) (given := [(energy, 7)]) hw (by
    intro l hl p x hx _ i hi
    simp only [Sel.idx.injEq] at hl
    subst hl
    have hi2 : i < 2 := by simp at hi; omega
    obtain ⟨r, _, hr, hx'⟩ := get_of_column hw hx
    have hmem : attrOf p ∈ [attrOf vertices, attrOf directions, attrOf energy, attrOf parents, attrOf refIndex,
        attrOf flag] := by
      simpa [exA, construct_check] using (exA_wf.value _ _ hr).1
    simp only [List.mem_cons, List.not_mem_nil, or_false] at hmem
    have hlen : x.cols.length = 2 := by
      rcases hmem with h | h | h | h | h | h <;> rw [h] at hr <;>
        simp [exA, construct, Obj.createProperty, Obj.bind, attrOf, vertices, directions, energy,
          parents, refIndex, flag] at hr <;> subst hr <;> simp [exHeap] at hx' <;> rw [← hx'] <;> rfl
    omega)
  have hc := (C03_inherit hw hg e).1
  refine ⟨h', c, e, ?_, ?_, ?_⟩
  · rw [hc]; rfl
  · rw [hc]; rfl
  · rw [hc]; rfl

/-! ## C04 -/

theorem mem_deleteFrom {sel : List Nat} {k n i : Nat} :
    i ∈ Np.deleteFrom sel k (List.range' k n) ↔ (k ≤ i ∧ i < k + n) ∧ i ∉ sel := by
  induction n generalizing k with
  | zero => simp only [List.range'_zero, Np.deleteFrom, List.not_mem_nil, false_iff]; omega
  | succ n ih =>
    rw [List.range'_succ]
    unfold Np.deleteFrom
    split
    · rename_i hk
      rw [ih]
      constructor
      · rintro ⟨h1, h2⟩; exact ⟨by omega, h2⟩
      · rintro ⟨h1, h2⟩
        refine ⟨⟨?_, by omega⟩, h2⟩
        rcases Nat.lt_or_ge k i with h | h
        · omega
        · have : i = k := by omega
          subst this; exact absurd hk h2
    · rename_i hk
      rw [List.mem_cons, ih]
      constructor
      · rintro (rfl | ⟨h1, h2⟩)
        · exact ⟨by omega, hk⟩
        · exact ⟨by omega, h2⟩
      · rintro ⟨h1, h2⟩
        by_cases e : i = k
        · exact Or.inl e
        · exact Or.inr ⟨by omega, h2⟩

/-- Picking the indices that remain after `N.delete(N.arange(n), sel)` removes the entries at the
positions `sel`. -/
theorem at'_delete {α : Type _} (sel : List Nat) (l : List α) :
    at' (Np.delete (List.range l.length) sel) l = without sel l := by
  have key : ∀ (l pre : List α), at' (Np.deleteFrom sel pre.length (List.range' pre.length l.length)) (pre ++ l) =
      ((l.zipIdx pre.length).filter fun x => x.2 ∉ sel).map Prod.fst := by
    intro l
    induction l with
    | nil => intro pre; rfl
    | cons x l ih =>
      intro pre
      have ih' := ih (pre ++ [x])
      simp only [List.length_append, List.length_cons, List.length_nil, List.append_assoc,
        List.singleton_append, Nat.zero_add] at ih'
      rw [List.length_cons, List.range'_succ, List.zipIdx_cons]
      unfold Np.deleteFrom
      split
      · rename_i hk
        rw [List.filter_cons_of_neg (by simpa using hk), ← ih']
      · rename_i hk
        rw [List.filter_cons_of_pos (by simpa using hk), List.map_cons, ← ih']
        unfold at'
        rw [List.filterMap_cons]
        simp
  have := key l []
  simpa [Np.delete, without, List.range_eq_range'] using this

/-- C04: `b.delete_rays(sel)` for valid indices keeps, of every set property, precisely the entries
whose position is not in `sel`, in order. -/
theorem C04_delete_rays {n : Nat} {sel : List Nat} (hb : Wf h b) (hr : Rect h b n)
    (hv : (column h b vertices).isSome) (hsel : ∀ i ∈ sel, i < n) :
    ∃ (h' : Heap V) (c : Obj), deleteRays h b sel = .ok (h', c) ∧ Wf h' c ∧ h <+: h' ∧
      ∀ p, column h' c p = (column h b p).map fun x => (⟨x.lead, without sel x.cols⟩ : Arr V) := by
  obtain ⟨xv, hxv⟩ := Option.isSome_iff_exists.1 hv
  have hn : b.numRays h = .ok n := by
    obtain ⟨r, _, hr1, hr2⟩ := get_of_column hb hxv
    unfold Obj.numRays
    rw [hr1]
    simp only [hr2]
    rw [hr _ _ hxv]
  obtain ⟨h', c, e⟩ := C03_defined (s := .idx (Np.delete (List.range n) sel)) (given := []) hb (by
    intro l hl p x hx _ i hi
    simp only [Sel.idx.injEq] at hl
    subst hl
    rw [hr _ _ hx]
    unfold Np.delete at hi
    rw [List.range_eq_range', mem_deleteFrom] at hi
    omega)
  have hspec := C03_inherit hb (by simp) e
  refine ⟨h', c, ?_, hspec.2.2, hspec.2.1, ?_⟩
  · unfold deleteRays
    rw [hn]
    simp only
    rw [if_pos hsel, e]
  · intro p
    rw [hspec.1 p]
    simp only [lookup, List.find?_nil, Option.map_none]
    cases hx : column h b p with
    | none => rfl
    | some x =>
      simp only [Option.map_some, Sel.pick]
      rw [← hr _ _ hx, at'_delete]

/-- C04: an index out of range raises. -/
theorem C04_out_of_range {n : Nat} {sel : List Nat} (hn : b.numRays h = .ok n) (hsel : ¬ ∀ i ∈ sel, i < n) :
    deleteRays h b sel = .error .index := by
  unfold deleteRays
  rw [hn]
  simp only
  rw [if_neg hsel]

example : deleteRays exHeap exA [0, 2] = .error .index :=
  C04_out_of_range (n := 2) (by rfl) (by decide)

/-- C04: the kept and the deleted entries together are all entries. -/
theorem C04_partition {α : Type _} (sel : List Nat) (l : List α) :
    (without sel l ++ ((l.zipIdx.filter fun x => x.2 ∈ sel).map Prod.fst)).Perm l := by
  unfold without
  rw [← List.map_append]
  have h1 : ((l.zipIdx.filter fun x => x.2 ∉ sel) ++ l.zipIdx.filter fun x => x.2 ∈ sel).Perm l.zipIdx := by
    have := List.filter_append_perm (fun x : α × Nat => decide (x.2 ∉ sel)) l.zipIdx
    simpa using this
  have := h1.map Prod.fst
  rwa [List.zipIdx_map_fst] at this

/-- C04: order and repetition inside the selector do not matter. -/
theorem C04_selector_set {α : Type _} {sel sel' : List Nat} (hs : ∀ i, i ∈ sel ↔ i ∈ sel') (l : List α) :
    without sel l = without sel' l := by
  unfold without
  simp only [hs]

example : without [2, 0, 2] [10, 11, 12, 13] = without [0, 2] [10, 11, 12, 13] :=
  C04_selector_set (by simp) _

theorem exA_rect : Rect exHeap exA 2 := by
  intro p x hx
  obtain ⟨r, _, hr, hx'⟩ := get_of_column exA_wf hx
  have hmem : attrOf p ∈ [attrOf vertices, attrOf directions, attrOf energy, attrOf parents, attrOf refIndex,
      attrOf flag] := by
    simpa [exA, construct_check] using (exA_wf.value _ _ hr).1
  simp only [List.mem_cons, List.not_mem_nil, or_false] at hmem
  rcases hmem with h | h | h | h | h | h <;> rw [h] at hr <;>
    simp [exA, construct, Obj.createProperty, Obj.bind, attrOf, vertices, directions, energy,
      parents, refIndex, flag] at hr <;> subst hr <;> simp [exHeap] at hx' <;> rw [← hx'] <;> rfl

example : ∃ h' c, deleteRays exHeap exA [0, 0] = .ok (h', c) ∧
    column h' c flag = some ⟨0, [6]⟩ := by
  obtain ⟨h', c, e, _, _, hc⟩ := C04_delete_rays (sel := [0, 0]) exA_wf exA_rect (by rfl) (by simp)
  exact ⟨h', c, e, by rw [hc]; rfl⟩

/-! ## C05 -/

/-- C05: after `set_x(v)`, `get_x()` is `v` and no other property is changed. -/
theorem C05_set {p : Name} {r : Nat} (hb : Wf h b) (hr : r < h.length) (hp : b.hasProperty p) :
    ∃ c, b.set (attrOf p) r = .ok c ∧ Wf h c ∧ c.get (attrOf p) = .ok r ∧ column h c p = h[r]? ∧
      ∀ q ≠ p, column h c q = column h b q := by
  have hmem : attrOf p ∈ b.check := by simpa [Obj.hasProperty] using hp
  refine ⟨b.bind (attrOf p) r, ?_, hb.bind hmem hr, ?_, ?_, ?_⟩
  · unfold Obj.set; rw [if_pos hmem]
  · unfold Obj.get
    rw [if_pos (show attrOf p ∈ (b.bind (attrOf p) r).check from hmem)]
    simp [Obj.bind]
  · simp [column, Obj.bind]
  · intro q hq
    unfold column Obj.bind
    simp only
    rw [if_neg (fun e => hq (attrOf_inj e))]

/-- Giving `exA` the array of another property. -/
example : ∃ c, exA.set (attrOf flag) 0 = .ok c ∧ column exHeap c flag = some ⟨3, [1, 2]⟩ ∧
    column exHeap c directions = column exHeap exA directions := by
  obtain ⟨c, e, _, _, hc, hq⟩ := C05_set (p := flag) (r := 0) exA_wf (by simp [exHeap]) (by decide)
  exact ⟨c, e, by rw [hc]; rfl, hq _ (by decide)⟩

theorem assign_length {cols out : List V} {sel : List Nat} {vs : List V} (ha : assign cols sel vs = .ok out) :
    out.length = cols.length := by
  induction sel generalizing cols vs with
  | nil =>
    cases vs with
    | nil => simp [assign] at ha; rw [ha]
    | cons v vs => simp [assign] at ha
  | cons i sel ih =>
    cases vs with
    | nil => simp [assign] at ha
    | cons v vs =>
      unfold assign at ha
      split at ha
      · rw [ih ha, List.length_set]
      · simp at ha

theorem assign_other {cols out : List V} {sel : List Nat} {vs : List V} (ha : assign cols sel vs = .ok out)
    {i : Nat} (hi : i ∉ sel) : out[i]? = cols[i]? := by
  induction sel generalizing cols vs with
  | nil =>
    cases vs with
    | nil => simp [assign] at ha; rw [ha]
    | cons v vs => simp [assign] at ha
  | cons j sel ih =>
    cases vs with
    | nil => simp [assign] at ha
    | cons v vs =>
      unfold assign at ha
      split at ha
      · rw [ih ha (by simp_all)]
        rw [List.getElem?_set_ne]
        intro e; apply hi; simp [e]
      · simp at ha

theorem assign_selected {cols out : List V} {sel : List Nat} {vs : List V} (ha : assign cols sel vs = .ok out)
    (hn : sel.Nodup) : sel.map (fun i => out[i]?) = vs.map some := by
  induction sel generalizing cols vs with
  | nil =>
    cases vs with
    | nil => rfl
    | cons v vs => simp [assign] at ha
  | cons j sel ih =>
    cases vs with
    | nil => simp [assign] at ha
    | cons v vs =>
      unfold assign at ha
      rw [List.nodup_cons] at hn
      split at ha
      · rename_i hj
        rw [List.map_cons, List.map_cons, ih ha hn.2, assign_other ha hn.1]
        simp [hj]
      · simp at ha

theorem assign_exists {cols : List V} {sel : List Nat} {vs : List V} (hl : sel.length = vs.length)
    (hs : ∀ i ∈ sel, i < cols.length) : ∃ out, assign cols sel vs = .ok out := by
  induction sel generalizing cols vs with
  | nil =>
    cases vs with
    | nil => exact ⟨cols, rfl⟩
    | cons v vs => simp at hl
  | cons j sel ih =>
    cases vs with
    | nil => simp at hl
    | cons v vs =>
      unfold assign
      rw [if_pos (hs j (by simp))]
      exact ih (by simpa using hl) (by intro i hi; rw [List.length_set]; exact hs i (by simp [hi]))

/-- C05, partial: after `set_x(v, selector)` for distinct valid indices, the selected rays hold `v`, the
other rays keep their values, and a property that is stored in another array is unchanged.  Missing:
properties that share one array, see `C05_shared_fails`. -/
theorem C05_set_selected_partial {p : Name} {x : Arr V} {sel : List Nat} {vs : List V} (hb : Wf h b)
    (hx : column h b p = some x) (hn : sel.Nodup) (hl : sel.length = vs.length)
    (hs : ∀ i ∈ sel, i < x.cols.length) :
    ∃ h' y, b.setSel h (attrOf p) sel vs = .ok h' ∧ column h' b p = some y ∧ y.lead = x.lead ∧
      y.cols.length = x.cols.length ∧ sel.map (fun i => y.cols[i]?) = vs.map some ∧
      (∀ i ∉ sel, y.cols[i]? = x.cols[i]?) ∧
      (∀ (d : Obj) (q : Name), d.ref (attrOf q) ≠ b.ref (attrOf p) → column h' d q = column h d q) := by
  obtain ⟨r, hg, hr, hxr⟩ := get_of_column hb hx
  obtain ⟨cols, hc⟩ := assign_exists (cols := x.cols) hl hs
  refine ⟨h.set r ⟨x.lead, cols⟩, ⟨x.lead, cols⟩, ?_, ?_, rfl, assign_length hc, assign_selected hc hn,
    fun i hi => assign_other hc hi, ?_⟩
  · unfold Obj.setSel
    rw [hg]
    simp only [hxr, hc]
  · unfold column
    rw [hr]
    simp [ref_lt hb hr]
  · intro d q hd
    unfold column
    cases hq : d.ref (attrOf q) with
    | none => rfl
    | some r' =>
      simp only [Option.bind_some]
      rw [List.getElem?_set_ne]
      intro e
      apply hd
      rw [hq, hr, e]

/-- C05: an index out of range raises. -/
theorem C05_set_out_of_range {p : Name} {x : Arr V} {i : Nat} {v : V} (hb : Wf h b)
    (hx : column h b p = some x) (hi : x.cols.length ≤ i) :
    b.setSel h (attrOf p) [i] [v] = .error .index := by
  obtain ⟨r, hg, hr, hxr⟩ := get_of_column hb hx
  unfold Obj.setSel
  rw [hg]
  simp only [hxr]
  unfold assign
  rw [if_neg (by omega)]

example : exA.setSel exHeap (attrOf flag) [2] [42] = .error .index :=
  C05_set_out_of_range (x := ⟨0, [5, 6]⟩) exA_wf (by rfl) (by simp)

/-- C05: `get_x(selector)` picks the selected rays. -/
theorem C05_get_selected {p : Name} {x : Arr V} {sel : List Nat} (hb : Wf h b) (hx : column h b p = some x)
    (hs : ∀ i ∈ sel, i < x.cols.length) :
    ∃ r h', b.getSel h (attrOf p) (.idx sel) = .ok (r, h') ∧ h <+: h' ∧
      h'[r]? = some ⟨x.lead, at' sel x.cols⟩ ∧ sel.map (fun i => x.cols[i]?) = (at' sel x.cols).map some := by
  obtain ⟨r, hg, hr, hxr⟩ := get_of_column hb hx
  obtain ⟨vs, hvs⟩ := take_exists (l := x.cols) hs
  refine ⟨h.length, h ++ [⟨x.lead, vs⟩], ?_, List.prefix_append _ _, ?_, ?_⟩
  · unfold Obj.getSel
    rw [hg]
    simp only [hxr, hvs]
    rfl
  · simp [take_at' hvs]
  · rw [← take_at' hvs]; exact take_ok hvs

example : ∃ r h', exA.getSel exHeap (attrOf flag) (.idx [1, 1, 0]) = .ok (r, h') ∧
    h'[r]? = some ⟨0, [6, 6, 5]⟩ := by
  obtain ⟨r, h', e, _, hr, _⟩ := C05_get_selected (p := flag) (x := ⟨0, [5, 6]⟩) (sel := [1, 1, 0]) exA_wf
    (by rfl) (by simp)
  exact ⟨r, h', e, hr⟩

/-- C05: `has_property` tells whether the property was created, also if it has no value. -/
theorem C05_has_property (items : List (Name × Option Nat)) (p : Name) :
    (construct items).hasProperty p = true ↔ p ∈ items.map Prod.fst := by
  unfold Obj.hasProperty
  rw [decide_eq_true_eq, construct_check, List.mem_map, List.mem_map]
  constructor
  · rintro ⟨nv, h, e⟩; exact ⟨nv, h, attrOf_inj e⟩
  · rintro ⟨nv, h, e⟩; exact ⟨nv, h, by rw [e]⟩

example : ∃ h' y, exA.setSel exHeap (attrOf flag) [1] [42] = .ok h' ∧
    column h' exA flag = some y ∧ y.cols[1]? = some 42 ∧ y.cols[0]? = some 5 ∧
    column h' exA vertices = some ⟨3, [1, 2]⟩ := by
  obtain ⟨h', y, e1, e2, _, _, e3, e4, e5⟩ := C05_set_selected_partial (p := flag) (x := ⟨0, [5, 6]⟩)
    (sel := [1]) (vs := [42]) exA_wf (by rfl) (by simp) (by simp) (by simp)
  refine ⟨h', y, e1, e2, by simpa using e3, by rw [e4 0 (by simp)]; rfl, ?_⟩
  rw [e5 exA vertices (by
    simp [exA, construct, Obj.createProperty, Obj.bind, attrOf, vertices, directions, energy, parents, refIndex, flag])]
  rfl

/-! ## Histories -/

/-- The arrays and bundles a program can have after any sequence of calls of the API. -/
inductive Reach : Heap V → List Obj → Prop where
  | start : Reach [] []
  | array {h objs} (x : Arr V) : Reach h objs → Reach (h ++ [x]) objs
  | new {h objs} (items : List (Name × Option Nat)) : Reach h objs → (items.map Prod.fst).Nodup →
      (∀ p ∈ baseNames, p ∈ items.map Prod.fst) → (∀ nv ∈ items, ∀ r, nv.2 = some r → r < h.length) →
      Reach h (construct items :: objs)
  | add {h objs a b h' c} : Reach h objs → a ∈ objs → b ∈ objs → add h a b = .ok (h', c) → Reach h' (c :: objs)
  | concatenate {h objs bs h' c} : Reach h objs → (∀ b ∈ bs, b ∈ objs) → concatenate h bs = .ok (h', c) →
      Reach h' (c :: objs)
  | inherit {h objs b s given h' c} : Reach h objs → b ∈ objs → (∀ g ∈ given, g.2 < h.length) →
      inherit h b s given = .ok (h', c) → Reach h' (c :: objs)
  | delete {h objs b sel h' c} : Reach h objs → b ∈ objs → deleteRays h b sel = .ok (h', c) → Reach h' (c :: objs)
  | set {h pre post b p r c} : Reach h (pre ++ b :: post) → r < h.length → b.set (attrOf p) r = .ok c →
      Reach h (pre ++ c :: post)
  | setSel {h objs b p sel vs h'} : Reach h objs → b ∈ objs → b.setSel h (attrOf p) sel vs = .ok h' → Reach h' objs

/-- Every bundle of every history is well-formed, so the theorems above apply to it. -/
theorem C05_reachable_wf {objs : List Obj} (hr : Reach h objs) : ∀ b ∈ objs, Wf h b := by
  have keep : ∀ {h h' : Heap V} {objs : List Obj} {c : Obj}, (∀ b ∈ objs, Wf h b) → h <+: h' → Wf h' c →
      ∀ b ∈ c :: objs, Wf h' b := by
    intro h h' objs c hw hp hc b hb
    rcases List.mem_cons.1 hb with rfl | hb
    · exact hc
    · exact (hw b hb).mono hp
  induction hr with
  | start => simp
  | array x _ ih => exact fun b hb => (ih b hb).mono (List.prefix_append _ _)
  | new items _ hn hb hv ih => exact keep ih (List.prefix_refl _) (construct_wf hn hb hv)
  | add _ ha hb e ih =>
    obtain ⟨_, hp, _, hw⟩ := C01_add_partial (ih _ ha) (ih _ hb) e
    exact keep ih hp hw
  | @concatenate h objs bs h' c _ hb e ih =>
    cases bs with
    | nil =>
      obtain ⟨h1, c1, e1, hp, hw, _⟩ := C02_empty h
      rw [e] at e1
      simp only [Except.ok.injEq, Prod.mk.injEq] at e1
      obtain ⟨rfl, rfl⟩ := e1
      exact keep ih hp hw
    | cons b bs =>
      obtain ⟨_, hp, _, hw⟩ := C02_concatenate_partial (fun x hx => ih x (hb x hx)) e
      exact keep ih hp hw
  | inherit _ hb hg e ih =>
    obtain ⟨_, hp, hw⟩ := C03_inherit (ih _ hb) hg e
    exact keep ih hp hw
  | @delete h objs b sel h' c _ hb e ih =>
    unfold deleteRays at e
    split at e
    · simp at e
    · split at e
      · obtain ⟨_, hp, hw⟩ := C03_inherit (ih _ hb) (by simp) e
        exact keep ih hp hw
      · simp at e
  | set _ hr e ih =>
    obtain ⟨hmem, rfl⟩ := set_ok e
    intro b hb
    rcases List.mem_append.1 hb with hb | hb
    · exact ih b (List.mem_append_left _ hb)
    · rcases List.mem_cons.1 hb with rfl | hb
      · exact (ih _ (List.mem_append_right _ (by simp))).bind hmem hr
      · exact ih b (List.mem_append_right _ (by simp [hb]))
  | @setSel h objs b p sel vs h' _ hb e ih =>
    have hlen : h'.length = h.length := by
      unfold Obj.setSel at e
      split at e
      · simp at e
      · split at e
        · simp at e
        · split at e
          · simp at e
          · simp only [Except.ok.injEq] at e
            rw [← e, List.length_set]
    intro b hb
    exact ⟨(ih b hb).name, (ih b hb).base, fun a r hr => ⟨((ih b hb).value a r hr).1, by
      rw [hlen]; exact ((ih b hb).value a r hr).2⟩⟩

/-- Two arrays are made, a bundle is made of them, and the bundle is added to itself. -/
example : ∃ (h : Heap Nat) (objs : List Obj), Reach h objs ∧ objs.length = 2 ∧ ∀ b ∈ objs, Wf h b :=
  ⟨_, _, .add (.new [(vertices, some 0), (directions, some 1), (energy, none), (parents, none), (refIndex, none)]
    (.array ⟨3, [3, 4]⟩ (.array ⟨3, [1, 2]⟩ .start)) (by decide) (by decide) (by simp))
    (List.mem_cons_self ..) (List.mem_cons_self ..) rfl, rfl, C05_reachable_wf
      (.add (.new [(vertices, some 0), (directions, some 1), (energy, none), (parents, none), (refIndex, none)]
    (.array ⟨3, [3, 4]⟩ (.array ⟨3, [1, 2]⟩ .start)) (by decide) (by decide) (by simp))
    (List.mem_cons_self ..) (List.mem_cons_self ..) rfl)⟩

/-- C05 fails for bundles that share an array: `inherit` with its default selector returns views, so
setting one ray's energy in the copy changes the original. -/
theorem C05_shared_fails : ∃ (h h' h'' : Heap Nat) (b c : Obj), Wf h b ∧ inherit h b .all [] = .ok (h', c) ∧
    column h' b energy = some ⟨0, [10]⟩ ∧ c.setSel h' (attrOf energy) [0] [99] = .ok h'' ∧
    column h'' b energy = some ⟨0, [99]⟩ := by
  have hkey : inheritKeys exB [] = [flag, vertices, directions, energy, parents, refIndex] := by decide +kernel
  have hc : inherit exHeap exB .all [] = .ok (exHeap, construct [(flag, some 5), (vertices, some 3),
      (directions, some 4), (energy, some 6), (parents, none), (refIndex, none)]) := by
    unfold inherit; rw [hkey]; rfl
  exact ⟨exHeap, exHeap, _, exB, _, exB_wf, hc, rfl, rfl, rfl⟩

end Tracer.Dict
