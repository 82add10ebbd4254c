import Verif.Props.Bundle

/-!
# When sums of bundles return (C01, C02)
-/

set_option linter.unusedSectionVars false

namespace Tracer.Dict

variable {V : Type _} {h h' : Heap V} {a b c : Obj}

/-- The arrays the bundles have under the attribute can be joined. -/
def Joinable (bs : List Obj) (attr : Name) (h : Heap V) : Prop :=
  ∃ as x, bs.map (fun b => (b.ref attr).bind fun r => h[r]?) = as.map some ∧ hstack as = .ok x

theorem Joinable.iff_append {bs : List Obj} (hbs : ∀ b ∈ bs, Wf h b) (attr : Name) (x : Arr V) :
    Joinable bs attr (h ++ [x]) ↔ Joinable bs attr h := by
  have : bs.map (fun b => (b.ref attr).bind fun r => (h ++ [x])[r]?) =
      bs.map (fun b => (b.ref attr).bind fun r => h[r]?) := by
    refine List.map_congr_left fun b hb => ?_
    cases hr : b.ref attr with
    | none => rfl
    | some r => exact prefix_get (List.prefix_append _ _) (ref_lt (hbs b hb) hr)
  unfold Joinable
  rw [this]

theorem ensure_attr (new : Obj) (q : Name) : (new.ensure (attrOf q)).check =
    if attrOf (attrOf q) ∈ new.check then new.check else new.check ++ [attrOf q] := by
  unfold Obj.ensure Obj.hasProperty
  by_cases hm : attrOf (attrOf q) ∈ new.check
  · simp only [hm, decide_true, if_true]
  · simp only [hm, decide_false, if_false]
    rfl

theorem joinAttr_iff {bs : List Obj} (hbs : ∀ b ∈ bs, Wf h b) {q : Name} {new : Obj} (hn : Wf h new) :
    (∃ h' new', joinAttr bs (attrOf q) h new = .ok (h', new')) ↔
      Joinable bs (attrOf q) h ∧ (attrOf (attrOf q) ∈ new.check → attrOf q ∈ new.check) := by
  have hens := ensure_attr new q
  constructor
  · rintro ⟨h', new', hj⟩
    obtain ⟨as, x, h1, h2, _⟩ := joinAttr_ok hn hj
    refine ⟨⟨as, x, h1, h2⟩, fun hm => ?_⟩
    unfold joinAttr at hj
    split at hj
    · simp at hj
    · split at hj
      · simp at hj
      · split at hj
        · simp at hj
        · rename_i hset
          have := (set_ok hset).1
          rw [hens, if_pos hm] at this
          exact this
  · rintro ⟨⟨as, x, h1, h2⟩, hm⟩
    have hget : ∃ rs, getAll (attrOf q) bs = .ok rs ∧ rs.map (fun r => h[r]?) = as.map some := by
      clear h2
      induction bs generalizing as with
      | nil =>
        cases as with
        | nil => exact ⟨[], rfl, rfl⟩
        | cons _ _ => simp at h1
      | cons b bs ih =>
        cases as with
        | nil => simp at h1
        | cons y as =>
          simp only [List.map_cons, List.cons.injEq] at h1
          obtain ⟨rs, e1, e2⟩ := ih (fun b hb => hbs b (List.mem_cons_of_mem _ hb)) as h1.2
          obtain ⟨r, hr, _, hh⟩ := get_of_column (p := q) (hbs b (by simp)) h1.1
          refine ⟨r :: rs, ?_, by simp [hh, e2]⟩
          unfold getAll
          rw [hr, e1]
    obtain ⟨rs, hrs, has⟩ := hget
    have hde : deref h rs = .ok as := by
      obtain ⟨ys, hys⟩ := take_exists (l := h) (sel := rs) (by
        intro i hi
        have : h[i]? ∈ as.map some := has ▸ List.mem_map.2 ⟨i, hi, rfl⟩
        obtain ⟨y, _, hy⟩ := List.mem_map.1 this
        exact (List.getElem?_eq_some_iff.1 hy.symm).1)
      have := take_ok hys
      rw [has] at this
      have := List.map_injective_iff.2 (Option.some_injective _) this
      rw [this]
      exact hys
    have hst : hstackRefs h rs = .ok (h.length, h ++ [x]) := by
      unfold hstackRefs
      rw [hde]
      simp only [h2]
      rfl
    have hset : (new.ensure (attrOf q)).set (attrOf q) h.length = .ok ((new.ensure (attrOf q)).bind (attrOf q) h.length) := by
      unfold Obj.set
      rw [if_pos]
      rw [hens]
      split
      · rename_i hc; exact hm hc
      · simp
    refine ⟨h ++ [x], (new.ensure (attrOf q)).bind (attrOf q) h.length, ?_⟩
    unfold joinAttr
    rw [hrs]
    simp only [hst, hset]

theorem joinAttr_check {bs : List Obj} {q : Name} {new new' : Obj}
    (hj : joinAttr bs (attrOf q) h new = .ok (h', new')) (n : Name) :
    n ∈ new'.check ↔ n ∈ new.check ∨ n = attrOf q := by
  unfold joinAttr at hj
  split at hj
  · simp at hj
  · split at hj
    · simp at hj
    · split at hj
      · simp at hj
      · rename_i new1 hset
        simp only [Except.ok.injEq, Prod.mk.injEq] at hj
        obtain ⟨rfl, rfl⟩ := hj
        obtain ⟨hmem, rfl⟩ := set_ok hset
        change n ∈ (new.ensure (attrOf q)).check ↔ _
        rw [ensure_attr] at hmem ⊢
        split at hmem
        · rename_i hm
          rw [if_pos hm]
          exact ⟨Or.inl, fun h => h.elim id (fun e => e ▸ hmem)⟩
        · rename_i hm
          rw [if_neg hm]
          simp

/-- When the loop over the attributes returns. -/
theorem joinLoop_iff {p : Name → Bool} {bs : List Obj} (hbs : ∀ b ∈ bs, Wf h b) {attrs : List Name} {new : Obj}
    (hn : Wf h new) (hattr : ∀ a ∈ attrs, ∃ q, a = attrOf q) :
    (∃ h' new', joinLoop p bs attrs h new = .ok (h', new')) ↔
      (∀ a ∈ attrs, p a = true → Joinable bs a h) ∧
      ∀ l₁ a l₂, attrs = l₁ ++ a :: l₂ → p a = true →
        (attrOf a ∈ new.check ∨ attrOf a ∈ l₁ ∧ p (attrOf a) = true) → a ∈ new.check ∨ a ∈ l₁ := by
  induction attrs generalizing h new with
  | nil =>
    refine ⟨fun _ => ⟨by simp, ?_⟩, fun _ => ⟨h, new, rfl⟩⟩
    intro l₁ a l₂ he
    simp at he
  | cons a attrs ih =>
    unfold joinLoop
    have hattr' : ∀ x ∈ attrs, ∃ q, x = attrOf q := fun x hx => hattr x (List.mem_cons_of_mem _ hx)
    by_cases hp : p a = true
    · rw [if_pos hp]
      obtain ⟨q, rfl⟩ := hattr a (by simp)
      have hji := joinAttr_iff hbs (q := q) hn
      cases hj : joinAttr bs (attrOf q) h new with
      | error e =>
        constructor
        · rintro ⟨_, _, h0⟩
          simp at h0
        rintro ⟨h1, h2⟩
        exfalso
        suffices hs : ∃ h' new', joinAttr bs (attrOf q) h new = .ok (h', new') by
          obtain ⟨_, _, h0⟩ := hs
          rw [hj] at h0
          simp at h0
        rw [hji]
        refine ⟨h1 _ (by simp) hp, fun hm => ?_⟩
        rcases h2 [] (attrOf q) attrs rfl hp (.inl hm) with h | h
        · exact h
        · simp at h
      | ok r =>
        obtain ⟨h1, new1⟩ := r
        obtain ⟨hgood, hcl⟩ := hji.1 ⟨h1, new1, hj⟩
        obtain ⟨as, x, _, _, rfl, _, _, hwf⟩ := joinAttr_ok hn hj
        have hbs' : ∀ b ∈ bs, Wf (h ++ [x]) b := fun b hb => (hbs b hb).mono (List.prefix_append _ _)
        rw [ih hbs' hwf hattr']
        simp only [Joinable.iff_append hbs, joinAttr_check hj]
        constructor
        · rintro ⟨i1, i2⟩
          refine ⟨?_, ?_⟩
          · intro y hy hpy
            rcases List.mem_cons.1 hy with rfl | hy
            · exact hgood
            · exact i1 y hy hpy
          · intro l₁ y l₂ he hpy hm
            cases l₁ with
            | nil =>
              simp only [List.nil_append, List.cons.injEq] at he
              obtain ⟨rfl, rfl⟩ := he
              simp only [List.not_mem_nil, false_and, or_false] at hm
              exact .inl (hcl hm)
            | cons z l₁ =>
              simp only [List.cons_append, List.cons.injEq] at he
              obtain ⟨rfl, rfl⟩ := he
              have := i2 l₁ y l₂ rfl hpy (by
                rcases hm with hm | ⟨hm, hpm⟩
                · exact .inl (.inl hm)
                · rcases List.mem_cons.1 hm with e | hm
                  · exact .inl (.inr e)
                  · exact .inr ⟨hm, hpm⟩)
              rcases this with (h | rfl) | h
              · exact .inl h
              · exact .inr (by simp)
              · exact .inr (List.mem_cons_of_mem _ h)
        · rintro ⟨i1, i2⟩
          refine ⟨fun y hy => i1 y (List.mem_cons_of_mem _ hy), ?_⟩
          rintro l₁ y l₂ rfl hpy hm
          have := i2 (attrOf q :: l₁) y l₂ rfl hpy (by
            rcases hm with (hm | e) | ⟨hm, hpm⟩
            · exact .inl hm
            · exact .inr ⟨by simp [e], by rw [e]; exact hp⟩
            · exact .inr ⟨List.mem_cons_of_mem _ hm, hpm⟩)
          rcases this with h | h
          · exact .inl (.inl h)
          · rcases List.mem_cons.1 h with rfl | h
            · exact .inl (.inr rfl)
            · exact .inr h
    · rw [if_neg hp, ih hbs hn hattr']
      constructor
      · rintro ⟨i1, i2⟩
        refine ⟨?_, ?_⟩
        · intro y hy hpy
          rcases List.mem_cons.1 hy with rfl | hy
          · exact absurd hpy hp
          · exact i1 y hy hpy
        · intro l₁ y l₂ he hpy hm
          cases l₁ with
          | nil =>
            simp only [List.nil_append, List.cons.injEq] at he
            obtain ⟨rfl, rfl⟩ := he
            exact absurd hpy hp
          | cons z l₁ =>
            simp only [List.cons_append, List.cons.injEq] at he
            obtain ⟨rfl, rfl⟩ := he
            have := i2 l₁ y l₂ rfl hpy (by
              rcases hm with hm | ⟨hm, hpm⟩
              · exact .inl hm
              · rcases List.mem_cons.1 hm with e | hm
                · rw [e] at hpm; exact absurd hpm hp
                · exact .inr ⟨hm, hpm⟩)
            exact this.imp id (List.mem_cons_of_mem _)
      · rintro ⟨i1, i2⟩
        refine ⟨fun y hy => i1 y (List.mem_cons_of_mem _ hy), ?_⟩
        rintro l₁ y l₂ rfl hpy hm
        have := i2 (a :: l₁) y l₂ rfl hpy (hm.imp id fun ⟨h1, h2⟩ => ⟨List.mem_cons_of_mem _ h1, h2⟩)
        rcases this with h | h
        · exact .inl h
        · rcases List.mem_cons.1 h with rfl | h
          · exact absurd hpy hp
          · exact .inr h

/-- The property `_p` was created before the property `p` was. -/
def CreatedBefore (b : Obj) (p : Name) : Prop := b.check.idxOf (attrOf (attrOf p)) < b.check.idxOf (attrOf p)

theorem clash_iff {first : Obj} (hw : Wf h first) {P : Name → Bool} (hP : ∀ n, P n = true → n ∈ first.check) :
    (∀ l₁ a l₂, first.check = l₁ ++ a :: l₂ → P a = true →
        (attrOf a ∈ emptyObj.check ∨ attrOf a ∈ l₁ ∧ P (attrOf a) = true) → a ∈ emptyObj.check ∨ a ∈ l₁) ↔
      ∀ p, p ∉ baseNames → P (attrOf p) = true → P (attrOf (attrOf p)) = true → ¬ CreatedBefore first p := by
  have hbase : ∀ p, attrOf p ∈ emptyObj.check ↔ p ∈ baseNames := by
    intro p
    rw [emptyObj_check]
    constructor
    · intro hm
      obtain ⟨q, hq, e⟩ := List.mem_map.1 hm
      rwa [← attrOf_inj e]
    · exact fun hm => List.mem_map.2 ⟨p, hm, rfl⟩
  constructor
  · intro hall p hp h1 h2 hlt
    have hm := hP _ h1
    obtain ⟨l₁, l₂, he, hn⟩ := List.eq_append_cons_of_mem hm
    have := hall l₁ (attrOf p) l₂ he h1 (.inr ⟨?_, h2⟩)
    · rcases this with h | h
      · exact hp ((hbase p).1 h)
      · exact hn h
    · unfold CreatedBefore at hlt
      by_contra hno
      rw [he, List.idxOf_append_of_notMem hno, List.idxOf_append_of_notMem hn] at hlt
      simp at hlt
      omega
  · intro hall l₁ a l₂ he h1 h2
    obtain ⟨p, rfl⟩ := hw.name a (by rw [he]; simp)
    by_cases hb : p ∈ baseNames
    · exact .inl ((hbase p).2 hb)
    · rcases h2 with h2 | ⟨h2, h3⟩
      · exfalso
        rw [hbase] at h2
        revert h2
        simp [baseNames, attrOf, vertices, directions, energy, parents, refIndex]
      · right
        by_contra hno
        refine hall p hb h1 h3 ?_
        unfold CreatedBefore
        rw [he, List.idxOf_append_of_mem h2, List.idxOf_append_of_notMem hno]
        have := List.idxOf_lt_length_of_mem h2
        omega

/-- C01: the sum of two bundles is defined exactly when the shapes of the shared properties agree and the bundles do
not share two further properties `_p` and `p`, of which `a` was given `_p` first. -/
theorem C01_returns_iff (ha : Wf h a) (hb : Wf h b) :
    (∃ h' c, add h a b = .ok (h', c)) ↔
      (∀ p x y, column h a p = some x → column h b p = some y → x.lead = y.lead) ∧
      ∀ p, p ∉ baseNames → (column h a p).isSome → (column h b p).isSome → (column h a (attrOf p)).isSome →
        (column h b (attrOf p)).isSome → ¬ CreatedBefore a p := by
  unfold add
  rw [joinLoop_iff (by simp [ha, hb]) (emptyObj_wf h) ha.name, clash_iff ha (P := fun attr => a.hasAttr attr && b.hasAttr attr)]
  · refine and_congr ?_ ?_
    · constructor
      · intro hj p x y hx hy
        have hp : (a.hasAttr (attrOf p) && b.hasAttr (attrOf p)) = true := by
          rw [← column_isSome ha, ← column_isSome hb, hx, hy]; rfl
        have hm : attrOf p ∈ a.check := by
          obtain ⟨r, _, hr, _⟩ := get_of_column ha hx
          exact (ha.value _ _ hr).1
        obtain ⟨as, z, h1, h2⟩ := hj _ hm hp
        have e : as = [x, y] := List.map_injective_iff.2 (Option.some_injective (Arr V)) (by
          rw [← h1]
          simp only [List.map_cons, List.map_nil]
          exact congrArg₂ (fun u v => [u, v]) hx hy)
        subst e
        unfold hstack at h2
        simp only at h2
        split at h2
        · rename_i hl
          exact (hl y (by simp)).symm
        · simp at h2
      · intro hl attr hm hp
        obtain ⟨p, rfl⟩ := ha.name attr hm
        rw [Bool.and_eq_true, ← column_isSome ha, ← column_isSome hb] at hp
        obtain ⟨x, hx⟩ := Option.isSome_iff_exists.1 hp.1
        obtain ⟨y, hy⟩ := Option.isSome_iff_exists.1 hp.2
        refine ⟨[x, y], ⟨x.lead, (([x, y]).map Arr.cols).flatten⟩, ?_, ?_⟩
        · simp only [List.map_cons, List.map_nil]
          exact congrArg₂ (fun u v => [u, v]) hx hy
        · unfold hstack
          simp only
          rw [if_pos (by simp [hl p x y hx hy])]
    · simp only [Bool.and_eq_true, ← column_isSome ha, ← column_isSome hb]
      exact ⟨fun h p hp h1 h2 h3 h4 => h p hp ⟨h1, h2⟩ ⟨h3, h4⟩, fun h p hp h1 h2 => h p hp h1.1 h1.2 h2.1 h2.2⟩
  · intro n hn
    rw [Bool.and_eq_true] at hn
    unfold Obj.hasAttr at hn
    obtain ⟨r, hr⟩ := Option.isSome_iff_exists.1 hn.1
    exact (ha.value _ _ hr).1

/-- C02: the concatenation of a non-empty list of bundles is defined exactly when all bundles have the properties of the
first set, with the same shapes, and the first does not have two further properties `_p` and `p` set of which it was
given `_p` first. -/
theorem C02_returns_iff {bs : List Obj} (hbs : ∀ x ∈ b :: bs, Wf h x) :
    (∃ h' c, concatenate h (b :: bs) = .ok (h', c)) ↔
      (∀ p x, column h b p = some x → ∀ d ∈ bs, ∃ y, column h d p = some y ∧ y.lead = x.lead) ∧
      ∀ p, p ∉ baseNames → (column h b p).isSome → (column h b (attrOf p)).isSome → ¬ CreatedBefore b p := by
  have hb := hbs b (by simp)
  unfold concatenate
  rw [joinLoop_iff hbs (emptyObj_wf h) hb.name, clash_iff hb (P := fun attr => b.hasAttr attr)]
  · refine and_congr ?_ ?_
    · constructor
      · intro hj p x hx d hd
        have hp : b.hasAttr (attrOf p) = true := by
          rw [← column_isSome hb, hx]; rfl
        have hm : attrOf p ∈ b.check := by
          obtain ⟨r, _, hr, _⟩ := get_of_column hb hx
          exact (hb.value _ _ hr).1
        obtain ⟨as, z, h1, h2⟩ := hj _ hm hp
        cases as with
        | nil => simp at h1
        | cons u as =>
          simp only [List.map_cons, List.cons.injEq] at h1
          have hu : x = u := by
            have : some x = some u := hx.symm.trans h1.1
            simpa using this
          subst hu
          have hmem : column h d p ∈ as.map some := h1.2 ▸ List.mem_map.2 ⟨d, hd, rfl⟩
          obtain ⟨y, hy, e⟩ := List.mem_map.1 hmem
          refine ⟨y, e.symm, ?_⟩
          unfold hstack at h2
          simp only at h2
          split at h2
          · rename_i hl
            exact hl y hy
          · simp at h2
      · intro hl attr hm hp
        obtain ⟨p, rfl⟩ := hb.name attr hm
        rw [← column_isSome hb] at hp
        obtain ⟨x, hx⟩ := Option.isSome_iff_exists.1 hp
        have hall : ∃ as : List (Arr V), bs.map (fun d => column h d p) = as.map some ∧ ∀ y ∈ as, y.lead = x.lead := by
          have hl' := hl p x hx
          clear hbs hl
          induction bs with
          | nil => exact ⟨[], rfl, by simp⟩
          | cons d bs ih =>
            obtain ⟨as, h1, h2⟩ := ih fun d hd => hl' d (List.mem_cons_of_mem _ hd)
            obtain ⟨y, hy, hyl⟩ := hl' d (by simp)
            exact ⟨y :: as, by simp [hy, h1], by simpa [hyl] using h2⟩
        obtain ⟨as, h1, h2⟩ := hall
        refine ⟨x :: as, ⟨x.lead, ((x :: as).map Arr.cols).flatten⟩, ?_, ?_⟩
        · rw [List.map_cons, List.map_cons]
          exact congrArg₂ List.cons hx h1
        · unfold hstack
          simp only
          rw [if_pos h2]
    · simp only [← column_isSome hb]
  · intro n hn
    unfold Obj.hasAttr at hn
    obtain ⟨r, hr⟩ := Option.isSome_iff_exists.1 hn
    exact (hb.value _ _ hr).1

/-- A bundle with the further properties `_foo` and `foo`, created in this order. -/
def exUnder : Obj := construct [(vertices, some 0), (directions, some 0), (energy, none), (parents, none),
  (refIndex, none), (['_', 'f', 'o', 'o'], some 0), (['f', 'o', 'o'], some 0)]

/-- The same properties, created in the other order. -/
def exOver : Obj := construct [(vertices, some 0), (directions, some 0), (energy, none), (parents, none),
  (refIndex, none), (['f', 'o', 'o'], some 0), (['_', 'f', 'o', 'o'], some 0)]

theorem exUnder_wf : Wf [(⟨3, [1]⟩ : Arr Nat)] exUnder := construct_wf (by decide) (by decide) (by decide)

theorem exOver_wf : Wf [(⟨3, [1]⟩ : Arr Nat)] exOver := construct_wf (by decide) (by decide) (by decide)

/-! The order in which the properties were created decides whether the sum is defined. -/
example : (¬ ∃ h' c, add [(⟨3, [1]⟩ : Arr Nat)] exUnder exUnder = .ok (h', c)) ∧
    ∃ h' c, add [(⟨3, [1]⟩ : Arr Nat)] exOver exOver = .ok (h', c) := by
  have hone : ∀ (o : Obj) p x y, column [(⟨3, [1]⟩ : Arr Nat)] o p = some x → column [(⟨3, [1]⟩ : Arr Nat)] o p = some y →
      x.lead = y.lead := by
    intro o p x y hx hy
    rw [hx] at hy
    cases hy
    rfl
  constructor
  · rw [C01_returns_iff exUnder_wf exUnder_wf]
    rintro ⟨_, h2⟩
    exact h2 ['f', 'o', 'o'] (by decide) rfl rfl rfl rfl (by unfold CreatedBefore; decide)
  · rw [C01_returns_iff exOver_wf exOver_wf]
    refine ⟨hone exOver, ?_⟩
    intro p hp h1 _ h3 _ hlt
    rw [column_isSome exOver_wf] at h1
    have hm : attrOf p ∈ exOver.check := by
      unfold Obj.hasAttr at h1
      obtain ⟨r, hr⟩ := Option.isSome_iff_exists.1 h1
      exact (exOver_wf.value _ _ hr).1
    have hall : ∀ q ∈ [vertices, directions, energy, parents, refIndex, ['f', 'o', 'o'], ['_', 'f', 'o', 'o']],
        ¬ (exOver.check.idxOf (attrOf (attrOf q)) < exOver.check.idxOf (attrOf q)) := by decide
    refine hall p ?_ hlt
    have : attrOf p ∈ [vertices, directions, energy, parents, refIndex, ['f', 'o', 'o'], ['_', 'f', 'o', 'o']].map attrOf := by
      simpa [exOver, construct_check] using hm
    obtain ⟨q, hq, e⟩ := List.mem_map.1 this
    rwa [← attrOf_inj e]

/-! So it does for the concatenation of three bundles, and a list of bundles without further properties needs only
arrays of the same shapes. -/
example : (¬ ∃ h' c, concatenate [(⟨3, [1]⟩ : Arr Nat)] [exUnder, exOver, exUnder] = .ok (h', c)) ∧
    ∃ h' c, concatenate [(⟨3, [1]⟩ : Arr Nat)] [exOver, exUnder, exOver] = .ok (h', c) := by
  constructor
  · rw [C02_returns_iff (by simp [exUnder_wf, exOver_wf])]
    rintro ⟨_, h2⟩
    exact h2 ['f', 'o', 'o'] (by decide) rfl rfl (by unfold CreatedBefore; decide)
  · rw [C02_returns_iff (by simp [exUnder_wf, exOver_wf])]
    have hm : ∀ p, (column [(⟨3, [1]⟩ : Arr Nat)] exOver p).isSome →
        p ∈ [vertices, directions, energy, parents, refIndex, ['f', 'o', 'o'], ['_', 'f', 'o', 'o']] := by
      intro p h1
      rw [column_isSome exOver_wf] at h1
      have hm : attrOf p ∈ exOver.check := by
        unfold Obj.hasAttr at h1
        obtain ⟨r, hr⟩ := Option.isSome_iff_exists.1 h1
        exact (exOver_wf.value _ _ hr).1
      have : attrOf p ∈ [vertices, directions, energy, parents, refIndex, ['f', 'o', 'o'], ['_', 'f', 'o', 'o']].map attrOf := by
        simpa [exOver, construct_check] using hm
      obtain ⟨q, hq, e⟩ := List.mem_map.1 this
      rwa [← attrOf_inj e]
    refine ⟨?_, ?_⟩
    · intro p x hx d hd
      have hp := hm p (by rw [hx]; rfl)
      have hd' : d = exUnder ∨ d = exOver := by simpa using hd
      have e : column [(⟨3, [1]⟩ : Arr Nat)] d p = column [(⟨3, [1]⟩ : Arr Nat)] exOver p := by
        simp only [List.mem_cons, List.not_mem_nil, or_false] at hp
        rcases hd' with rfl | rfl
        · rcases hp with rfl | rfl | rfl | rfl | rfl | rfl | rfl <;> rfl
        · rfl
      exact ⟨x, by rw [e, hx], rfl⟩
    · intro p hp h1 _ hlt
      have hall : ∀ q ∈ [vertices, directions, energy, parents, refIndex, ['f', 'o', 'o'], ['_', 'f', 'o', 'o']],
          ¬ (exOver.check.idxOf (attrOf (attrOf q)) < exOver.check.idxOf (attrOf q)) := by decide
      exact hall p (hm p h1) hlt

/-! ## C05 -/

/-- C05: what any property of any bundle shows after `set_x(v, selector)`: the new array where it is the array of `x`
that is shown, and what it was otherwise. -/
theorem C05_set_selected_exact {p : Name} {x : Arr V} {sel : List Nat} {vs : List V} (hb : Wf h b)
    (hx : column h b p = some x) (hn : sel.Nodup) (hl : sel.length = vs.length)
    (hs : ∀ i ∈ sel, i < x.cols.length) :
    ∃ h' y, b.setSel h (attrOf p) sel vs = .ok h' ∧ y.lead = x.lead ∧ y.cols.length = x.cols.length ∧
      sel.map (fun i => y.cols[i]?) = vs.map some ∧ (∀ i ∉ sel, y.cols[i]? = x.cols[i]?) ∧
      ∀ (d : Obj) (q : Name), column h' d q = if d.ref (attrOf q) = b.ref (attrOf p) then some y else column h d q := by
  obtain ⟨h', y, h1, h2, h3, h4, h5, h6, h7⟩ := C05_set_selected_partial hb hx hn hl hs
  refine ⟨h', y, h1, h3, h4, h5, h6, fun d q => ?_⟩
  split
  · rename_i e
    unfold column at h2 ⊢
    rw [e, h2]
  · rename_i e
    exact h7 d q e

/-- C05: another property, or a property of another bundle, keeps its value through `set_x(v, selector)` exactly when
it is not the array of `x` that it shows, or when the selected rays had the values `v` already. -/
theorem C05_kept_iff {p : Name} {x : Arr V} {sel : List Nat} {vs : List V} (hb : Wf h b)
    (hx : column h b p = some x) (hn : sel.Nodup) (hl : sel.length = vs.length)
    (hs : ∀ i ∈ sel, i < x.cols.length) {h' : Heap V} (he : b.setSel h (attrOf p) sel vs = .ok h') (d : Obj) (q : Name) :
    column h' d q = column h d q ↔
      d.ref (attrOf q) ≠ b.ref (attrOf p) ∨ sel.map (fun i => x.cols[i]?) = vs.map some := by
  obtain ⟨h₂, y, h1, h3, h4, h5, h6, h7⟩ := C05_set_selected_exact hb hx hn hl hs
  rw [he] at h1
  cases h1
  rw [h7]
  by_cases e : d.ref (attrOf q) = b.ref (attrOf p)
  · have hd : column h d q = some x := by
      rw [← hx]; unfold column; rw [e]
    rw [if_pos e, hd, Option.some.injEq]
    simp only [ne_eq, e, not_true_eq_false, false_or]
    constructor
    · rintro rfl
      exact h5
    · intro hv
      have hc : y.cols = x.cols := by
        refine List.ext_getElem? fun i => ?_
        by_cases hi : i ∈ sel
        · rw [← h5] at hv
          exact (List.map_inj_left.1 hv i hi).symm
        · exact h6 i hi
      cases x; cases y
      simp_all
  · simp [e]

/-! A bundle of one ray created with one array for its vertices and its directions: setting the direction moves the
ray. -/
example : ∃ h', exOver.setSel [(⟨3, [1]⟩ : Arr Nat)] (attrOf directions) [0] [7] = .ok h' ∧
    column h' exOver vertices = some ⟨3, [7]⟩ := by
  obtain ⟨h', y, h1, h2, h3, h4, h5, h6⟩ := C05_set_selected_exact (p := directions) (x := ⟨3, [1]⟩) (sel := [0]) (vs := [7])
    exOver_wf rfl (by simp) rfl (by simp)
  refine ⟨h', h1, ?_⟩
  rw [h6, if_pos (show exOver.ref (attrOf vertices) = exOver.ref (attrOf directions) by decide)]
  have hc : y.cols = [7] := by
    cases hy : y.cols with
    | nil => rw [hy] at h4; simp at h4
    | cons a l => rw [hy] at h3 h4; simp at h3 h4; simp [h3, h4]
  cases y
  simp_all

example : ∃ h', exOver.setSel [(⟨3, [1]⟩ : Arr Nat)] (attrOf directions) [0] [7] = .ok h' ∧
    column h' exOver vertices ≠ column [(⟨3, [1]⟩ : Arr Nat)] exOver vertices ∧
    column h' exOver energy = column [(⟨3, [1]⟩ : Arr Nat)] exOver energy := by
  obtain ⟨h', y, h1, _⟩ := C05_set_selected_exact (p := directions) (x := ⟨3, [1]⟩) (sel := [0]) (vs := [7])
    exOver_wf rfl (by simp) rfl (by simp)
  have hk := fun q => C05_kept_iff (p := directions) (x := ⟨3, [1]⟩) (sel := [0]) (vs := [7]) exOver_wf rfl (by simp) rfl
    (by simp) h1 exOver q
  refine ⟨h', h1, ?_, ?_⟩
  · rw [ne_eq, hk]
    rintro (h | h)
    · exact h (by decide)
    · simp at h
  · rw [hk]
    exact .inl (by intro h; exact absurd h (by decide))

end Tracer.Dict
