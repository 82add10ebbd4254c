import Verif.Spec.Bundle
import Mathlib.Data.List.Basic
import Mathlib.Data.List.Nodup
import Mathlib.Order.Nat
import Mathlib.Data.Option.Basic

/-! Lemmas about the dictionary model of ray bundles. -/

namespace Tracer.Dict

variable {V : Type _} {h h' : Heap V} {b : Obj}

theorem attrOf_inj {p q : Name} (h : attrOf p = attrOf q) : p = q := by
  simpa [attrOf] using h

theorem ref_lt (hw : Wf h b) {a : Name} {r : Nat} (hr : b.ref a = some r) : r < h.length :=
  (hw.value a r hr).2

theorem prefix_get {r : Nat} (hp : h <+: h') (hr : r < h.length) : h'[r]? = h[r]? := by
  obtain ⟨t, rfl⟩ := hp
  exact List.getElem?_append_left hr

theorem column_prefix (hw : Wf h b) (hp : h <+: h') (p : Name) : column h' b p = column h b p := by
  unfold column
  cases hr : b.ref (attrOf p) with
  | none => rfl
  | some r => exact prefix_get hp (ref_lt hw hr)

theorem column_isSome (hw : Wf h b) (p : Name) : (column h b p).isSome = b.hasAttr (attrOf p) := by
  unfold column Obj.hasAttr
  cases hr : b.ref (attrOf p) with
  | none => rfl
  | some r => simp [ref_lt hw hr]

theorem get_of_column (hw : Wf h b) {p : Name} {a : Arr V} (hc : column h b p = some a) :
    ∃ r, b.get (attrOf p) = .ok r ∧ b.ref (attrOf p) = some r ∧ h[r]? = some a := by
  unfold column at hc
  cases hr : b.ref (attrOf p) with
  | none => rw [hr] at hc; simp at hc
  | some r =>
    rw [hr] at hc
    refine ⟨r, ?_, rfl, hc⟩
    unfold Obj.get
    rw [if_pos (hw.value _ _ hr).1, hr]

theorem get_ok {attr : Name} {r : Nat} (hg : b.get attr = .ok r) : b.ref attr = some r := by
  unfold Obj.get at hg
  split at hg
  · split at hg
    · simp at hg
    · rename_i r' hr
      simp only [Except.ok.injEq] at hg
      rw [hr, hg]
  · simp at hg

theorem take_ok {α : Type _} {l : List α} {sel : List Nat} {xs : List α} (h : Np.take l sel = .ok xs) :
    sel.map (fun i => l[i]?) = xs.map some := by
  induction sel generalizing xs with
  | nil => simp [Np.take] at h; subst h; rfl
  | cons i sel ih =>
    unfold Np.take at h
    split at h
    · simp at h
    · rename_i x hx
      split at h
      · simp at h
      · rename_i ys hys
        simp only [Except.ok.injEq] at h
        subst h
        simp [hx, ih hys]

theorem take_at' {α : Type _} {l : List α} {sel : List Nat} {xs : List α} (h : Np.take l sel = .ok xs) :
    xs = at' sel l := by
  have := take_ok h
  unfold at'
  have e : sel.filterMap (fun i => l[i]?) = (sel.map fun i => l[i]?).filterMap id := by
    rw [List.filterMap_map]; rfl
  rw [e, this, List.filterMap_map]
  change _ = List.filterMap some xs
  rw [List.filterMap_some]

theorem take_exists {α : Type _} {l : List α} {sel : List Nat} (h : ∀ i ∈ sel, i < l.length) :
    ∃ xs, Np.take l sel = .ok xs := by
  induction sel with
  | nil => exact ⟨[], rfl⟩
  | cons i sel ih =>
    obtain ⟨xs, hxs⟩ := ih fun j hj => h j (List.mem_cons_of_mem _ hj)
    have := List.getElem?_eq_getElem (h i (by simp))
    unfold Np.take
    rw [this, hxs]
    exact ⟨_, rfl⟩

theorem getAll_ok {attr : Name} {bs : List Obj} {rs : List Nat} (hg : getAll attr bs = .ok rs) :
    bs.map (fun b => b.ref attr) = rs.map some := by
  induction bs generalizing rs with
  | nil => simp [getAll] at hg; subst hg; rfl
  | cons b bs ih =>
    unfold getAll at hg
    split at hg
    · simp at hg
    · rename_i r hr
      split at hg
      · simp at hg
      · rename_i rs' hrs
        simp only [Except.ok.injEq] at hg
        subst hg
        simp [get_ok hr, ih hrs]

theorem hstack_ok {l : List (Arr V)} {a : Arr V} (hs : hstack l = .ok a) :
    l ≠ [] ∧ (∀ x ∈ l, x.lead = a.lead) ∧ a.cols = (l.map Arr.cols).flatten := by
  unfold hstack at hs
  split at hs
  · simp at hs
  · split at hs
    · rename_i hl
      simp only [Except.ok.injEq] at hs
      subst hs
      refine ⟨by simp, ?_, rfl⟩
      intro x hx
      rcases List.mem_cons.1 hx with rfl | hx
      · rfl
      · exact hl x hx
    · simp at hs

theorem hstackRefs_ok {rs : List Nat} {r : Nat} (hs : hstackRefs h rs = .ok (r, h')) :
    ∃ as a, rs.map (fun r => h[r]?) = as.map some ∧ hstack as = .ok a ∧ r = h.length ∧ h' = h ++ [a] := by
  unfold hstackRefs at hs
  split at hs
  · simp at hs
  · rename_i as has
    split at hs
    · simp at hs
    · rename_i a ha
      simp only [Except.ok.injEq, alloc, Prod.mk.injEq] at hs
      exact ⟨as, a, take_ok has, ha, hs.1.symm, hs.2.symm⟩

/-! ### construct -/

theorem foldl_create (vals : List (Name × Option Nat)) (b : Obj) :
    (vals.foldl (fun b nv => b.createProperty nv.1 nv.2) b).check =
      b.check ++ vals.map (fun nv => attrOf nv.1) := by
  induction vals generalizing b with
  | nil => simp
  | cons nv vals ih =>
    rw [List.foldl_cons, ih]
    unfold Obj.createProperty
    cases nv.2 <;> simp [Obj.bind]

theorem construct_check (vals : List (Name × Option Nat)) :
    (construct vals).check = vals.map fun nv => attrOf nv.1 := by
  unfold construct
  rw [foldl_create]
  rfl

theorem createProperty_ref (b : Obj) (p : Name) (v : Option Nat) (a : Name) :
    (b.createProperty p v).ref a = if a = attrOf p then v.or (b.ref a) else b.ref a := by
  unfold Obj.createProperty
  cases v with
  | none => simp
  | some r => simp [Obj.bind]

theorem foldl_create_ref (vals : List (Name × Option Nat)) (hn : (vals.map Prod.fst).Nodup) (b : Obj)
    (a : Name) :
    (vals.foldl (fun b nv => b.createProperty nv.1 nv.2) b).ref a =
      match vals.find? (fun nv => decide (attrOf nv.1 = a)) with
      | some nv => nv.2.or (b.ref a)
      | none => b.ref a := by
  induction vals generalizing b with
  | nil => rfl
  | cons nv vals ih =>
    rw [List.map_cons, List.nodup_cons] at hn
    rw [List.foldl_cons, ih hn.2, List.find?_cons]
    by_cases e : attrOf nv.1 = a
    · have hnone : vals.find? (fun nv => decide (attrOf nv.1 = a)) = none := by
        rw [List.find?_eq_none]
        intro x hx
        simp only [decide_eq_true_eq]
        intro hxa
        exact hn.1 (List.mem_map.2 ⟨x, hx, attrOf_inj (hxa.trans e.symm)⟩)
      rw [hnone]
      simp only [e, decide_true, createProperty_ref]
      simp
    · simp only [e, decide_false, createProperty_ref]
      rw [if_neg (Ne.symm e)]

theorem construct_ref {vals : List (Name × Option Nat)} (hn : (vals.map Prod.fst).Nodup) {p : Name}
    {v : Option Nat} (hv : (p, v) ∈ vals) : (construct vals).ref (attrOf p) = v := by
  unfold construct
  rw [foldl_create_ref vals hn]
  have : vals.find? (fun nv => decide (attrOf nv.1 = attrOf p)) = some (p, v) := by
    cases hf : vals.find? (fun nv => decide (attrOf nv.1 = attrOf p)) with
    | none =>
      rw [List.find?_eq_none] at hf
      simpa using hf (p, v) hv
    | some x =>
      have hx := List.mem_of_find?_eq_some hf
      have hxp := attrOf_inj (by simpa using List.find?_some hf)
      have := List.inj_on_of_nodup_map hn hx hv hxp
      rw [this]
  rw [this]
  cases v <;> rfl

theorem construct_ref_none {vals : List (Name × Option Nat)} (hn : (vals.map Prod.fst).Nodup) {a : Name}
    (hv : ∀ nv ∈ vals, attrOf nv.1 ≠ a) : (construct vals).ref a = none := by
  unfold construct
  rw [foldl_create_ref vals hn]
  have : vals.find? (fun nv => decide (attrOf nv.1 = a)) = none := by
    rw [List.find?_eq_none]
    intro x hx
    simpa using hv x hx
  rw [this]

theorem baseNames_nodup : baseNames.Nodup := by decide

theorem emptyObj_ref (a : Name) : emptyObj.ref a = none := by
  unfold emptyObj
  have hn : ((baseNames.map fun n => (n, (none : Option Nat))).map Prod.fst).Nodup := by
    rw [List.map_map]
    change (List.map id baseNames).Nodup
    rw [List.map_id]
    exact baseNames_nodup
  unfold construct
  rw [foldl_create_ref _ hn]
  split
  · rename_i nv hf
    have := List.mem_of_find?_eq_some hf
    obtain ⟨n, _, rfl⟩ := List.mem_map.1 this
    rfl
  · rfl

theorem emptyObj_check : emptyObj.check = baseNames.map attrOf := by
  unfold emptyObj
  rw [construct_check, List.map_map]
  rfl

theorem emptyObj_wf (h : Heap V) : Wf h emptyObj := by
  refine ⟨?_, ?_, ?_⟩
  · intro a ha
    rw [emptyObj_check] at ha
    obtain ⟨p, _, rfl⟩ := List.mem_map.1 ha
    exact ⟨p, rfl⟩
  · intro p hp
    rw [emptyObj_check]
    exact List.mem_map.2 ⟨p, hp, rfl⟩
  · intro a r hr
    rw [emptyObj_ref] at hr
    simp at hr

/-! ### Joining -/

theorem ensure_ref (b : Obj) (attr a : Name) : (b.ensure attr).ref a = b.ref a := by
  unfold Obj.ensure
  split
  · rfl
  · rw [createProperty_ref]; simp

theorem ensure_check (b : Obj) (attr : Name) :
    (b.ensure attr).check = b.check ∨ (b.ensure attr).check = b.check ++ [attrOf attr.tail] := by
  unfold Obj.ensure
  split
  · exact Or.inl rfl
  · exact Or.inr rfl

theorem Wf.mono (hw : Wf h b) (hp : h <+: h') : Wf h' b :=
  ⟨hw.name, hw.base, fun a r hr => ⟨(hw.value a r hr).1, Nat.lt_of_lt_of_le (hw.value a r hr).2 hp.length_le⟩⟩

theorem Wf.ensure (hw : Wf h b) (attr : Name) : Wf h (b.ensure attr) := by
  have hsub : ∀ a ∈ b.check, a ∈ (b.ensure attr).check := by
    intro a ha
    rcases ensure_check b attr with e | e <;> rw [e]
    · exact ha
    · exact List.mem_append_left _ ha
  refine ⟨?_, fun p hp => hsub _ (hw.base p hp), ?_⟩
  · intro a ha
    rcases ensure_check b attr with e | e <;> rw [e] at ha
    · exact hw.name a ha
    · rcases List.mem_append.1 ha with ha | ha
      · exact hw.name a ha
      · exact ⟨_, List.mem_singleton.1 ha⟩
  · intro a r hr
    rw [ensure_ref] at hr
    exact ⟨hsub _ (hw.value a r hr).1, (hw.value a r hr).2⟩

theorem set_ok {attr : Name} {r : Nat} {b' : Obj} (hs : b.set attr r = .ok b') :
    attr ∈ b.check ∧ b' = b.bind attr r := by
  unfold Obj.set at hs
  split at hs
  · simp only [Except.ok.injEq] at hs
    exact ⟨by assumption, hs.symm⟩
  · simp at hs

theorem Wf.bind (hw : Wf h b) {attr : Name} {r : Nat} (ha : attr ∈ b.check) (hr : r < h.length) :
    Wf h (b.bind attr r) := by
  refine ⟨hw.name, hw.base, ?_⟩
  intro a r' hr'
  simp only [Obj.bind] at hr' ⊢
  split at hr'
  · rename_i e
    simp only [Option.some.injEq] at hr'
    subst hr'
    exact ⟨e ▸ ha, hr⟩
  · exact hw.value a r' hr'

/-- One round: the attribute becomes the joined array, nothing else changes. -/
theorem joinAttr_ok {bs : List Obj} {attr : Name} {new new' : Obj} (hn : Wf h new)
    (hj : joinAttr bs attr h new = .ok (h', new')) :
    ∃ as a, bs.map (fun b => (b.ref attr).bind fun r => h[r]?) = as.map some ∧ hstack as = .ok a ∧
      h' = h ++ [a] ∧ new'.ref attr = some h.length ∧ (∀ a' ≠ attr, new'.ref a' = new.ref a') ∧
      Wf h' new' := by
  unfold joinAttr at hj
  split at hj
  · simp at hj
  · rename_i rs hrs
    split at hj
    · simp at hj
    · rename_i r h1 hst
      obtain ⟨as, a, has, ha, rfl, rfl⟩ := hstackRefs_ok hst
      split at hj
      · simp at hj
      · rename_i new1 hset
        simp only [Except.ok.injEq, Prod.mk.injEq] at hj
        obtain ⟨rfl, rfl⟩ := hj
        obtain ⟨hmem, rfl⟩ := set_ok hset
        refine ⟨as, a, ?_, ha, rfl, ?_, ?_, ?_⟩
        · rw [← has]
          have := getAll_ok hrs
          have e : bs.map (fun b => (b.ref attr).bind fun r => h[r]?) =
              (bs.map fun b => b.ref attr).map fun o => o.bind fun r => h[r]? := by
            rw [List.map_map]; rfl
          rw [e, this, List.map_map]
          rfl
        · simp [Obj.bind]
        · intro a' ha'
          simp only [Obj.bind, if_neg ha', ensure_ref]
        · refine Wf.bind ((hn.mono (List.prefix_append _ _)).ensure attr) hmem ?_
          simp

/-- What is known of the new bundle after some rounds; `start` is the heap before the first. -/
structure JoinInv (p : Name → Bool) (bs : List Obj) (start : Heap V) (todo : List Name) (done : Name → Prop)
    (h : Heap V) (new : Obj) : Prop where
  grow : start <+: h
  wf : Wf h new
  fresh : ∀ a r, new.ref a = some r → start.length ≤ r
  set : ∀ a, done a → p a = true → ∃ as arr, bs.map (fun b => (b.ref a).bind fun r => start[r]?) = as.map some ∧
    hstack as = .ok arr ∧ (new.ref a).bind (fun r => h[r]?) = some arr
  unset : ∀ a, new.ref a ≠ none → done a ∧ p a = true

theorem joinLoop_inv {p : Name → Bool} {bs : List Obj} {start : Heap V} (hbs : ∀ b ∈ bs, Wf start b)
    {attrs : List Name} {done : Name → Prop} {h h' : Heap V} {new new' : Obj}
    (hinv : JoinInv p bs start attrs done h new)
    (hj : joinLoop p bs attrs h new = .ok (h', new')) :
    JoinInv p bs start [] (fun a => done a ∨ a ∈ attrs) h' new' := by
  induction attrs generalizing done h new with
  | nil =>
    simp only [joinLoop, Except.ok.injEq, Prod.mk.injEq] at hj
    obtain ⟨rfl, rfl⟩ := hj
    exact ⟨hinv.grow, hinv.wf, hinv.fresh, fun a ha => hinv.set a (by simpa using ha),
      fun a ha => by simpa using hinv.unset a ha⟩
  | cons attr attrs ih =>
    unfold joinLoop at hj
    have hiff : ∀ a, (done a ∨ a ∈ attr :: attrs) ↔ ((done a ∨ a = attr) ∨ a ∈ attrs) := by
      intro a; rw [List.mem_cons, or_assoc]
    simp only [hiff]
    split at hj
    · rename_i hp
      split at hj
      · simp at hj
      · rename_i h1 new1 hja
        obtain ⟨as, arr, has, harr, rfl, hset, hother, hwf⟩ := joinAttr_ok hinv.wf hja
        refine ih (done := fun a => done a ∨ a = attr) ?_ hj
        refine ⟨hinv.grow.trans (List.prefix_append _ _), hwf, ?_, ?_, ?_⟩
        · intro a r hr
          by_cases e : a = attr
          · subst e
            rw [hset] at hr
            simp only [Option.some.injEq] at hr
            subst hr
            exact hinv.grow.length_le
          · rw [hother a e] at hr
            exact hinv.fresh a r hr
        · intro a ha hpa
          by_cases e : a = attr
          · subst e
            refine ⟨as, arr, ?_, harr, ?_⟩
            · rw [← has]
              apply List.map_congr_left
              intro b hb
              cases hr : b.ref a with
              | none => rfl
              | some r =>
                exact (prefix_get hinv.grow (ref_lt (hbs b hb) hr)).symm
            · rw [hset]
              simp
          · obtain ⟨as', arr', h1, h2, h3⟩ := hinv.set a (by tauto) hpa
            refine ⟨as', arr', h1, h2, ?_⟩
            rw [hother a e]
            cases hr : new.ref a with
            | none => rw [hr] at h3; simp at h3
            | some r =>
              rw [hr] at h3
              have := prefix_get (List.prefix_append h [arr]) (ref_lt hinv.wf hr)
              simp only [Option.bind_some] at h3 ⊢
              rw [this, h3]
        · intro a ha
          by_cases e : a = attr
          · subst e; exact ⟨Or.inr rfl, hp⟩
          · rw [hother a e] at ha
            exact ⟨Or.inl (hinv.unset a ha).1, (hinv.unset a ha).2⟩
    · rename_i hp
      refine ih (done := fun a => done a ∨ a = attr) ?_ hj
      refine ⟨hinv.grow, hinv.wf, hinv.fresh, ?_, ?_⟩
      · intro a ha hpa
        rcases ha with ha | rfl
        · exact hinv.set a ha hpa
        · exact absurd hpa hp
      · intro a ha
        exact ⟨Or.inl (hinv.unset a ha).1, (hinv.unset a ha).2⟩

theorem joinLoop_spec {p : Name → Bool} {bs : List Obj} (hbs : ∀ b ∈ bs, Wf h b) {attrs : List Name}
    {new : Obj} (hj : joinLoop p bs attrs h emptyObj = .ok (h', new)) :
    JoinInv p bs h [] (fun a => a ∈ attrs) h' new := by
  have := joinLoop_inv hbs (start := h) (done := fun _ => False) (p := p)
    ⟨List.prefix_refl _, emptyObj_wf _, fun a r hr => by rw [emptyObj_ref] at hr; simp at hr,
      fun a ha => ha.elim, fun a ha => absurd (emptyObj_ref a) ha⟩ hj
  refine ⟨this.grow, this.wf, this.fresh, fun a ha => this.set a (Or.inr ha), fun a ha => ?_⟩
  exact ⟨(this.unset a ha).1.resolve_left id, (this.unset a ha).2⟩

/-- When joining succeeds. -/
theorem joinLoop_exists {p : Name → Bool} {bs : List Obj} {attrs : List Name} {h : Heap V} {new : Obj}
    (hnew : Wf h new)
    (hattr : ∀ a ∈ attrs, ∃ q, a = attrOf q)
    (hclash : ∀ a ∈ attrs, attrOf a ∉ attrs) (hclash' : ∀ a ∈ attrs, attrOf a ∉ new.check)
    (hok : ∀ a ∈ attrs, p a = true → ∃ rs as x, getAll a bs = .ok rs ∧ rs.map (fun r => h[r]?) = as.map some ∧
      hstack as = .ok x) :
    ∃ h' new', joinLoop p bs attrs h new = .ok (h', new') := by
  induction attrs generalizing h new with
  | nil => exact ⟨h, new, rfl⟩
  | cons a attrs ih =>
    unfold joinLoop
    split
    · rename_i hp
      obtain ⟨rs, as, x, hrs, has, hx⟩ := hok a (by simp) hp
      have hde : deref h rs = .ok as := by
        obtain ⟨ys, hys⟩ := take_exists (l := h) (sel := rs) (by
          intro i hi
          have : h[i]? ∈ as.map some := has ▸ List.mem_map.2 ⟨i, hi, rfl⟩
          obtain ⟨y, _, hy⟩ := List.mem_map.1 this
          exact (List.getElem?_eq_some_iff.1 hy.symm).1)
        have := take_ok hys
        rw [has] at this
        have := List.map_injective_iff.2 (Option.some_injective _) this
        rw [this]
        exact hys
      have hst : hstackRefs h rs = .ok (h.length, h ++ [x]) := by
        unfold hstackRefs
        rw [hde]
        simp only [hx]
        rfl
      have hnot : new.hasProperty a = false := by
        unfold Obj.hasProperty
        exact decide_eq_false (hclash' a (by simp))
      obtain ⟨q, hq⟩ := hattr a (by simp)
      have htail : attrOf a.tail = a := by rw [hq]; rfl
      have hens : new.ensure a = new.createProperty a.tail none := by
        unfold Obj.ensure; rw [hnot]; rfl
      have hchk : (new.ensure a).check = new.check ++ [a] := by
        rw [hens]; unfold Obj.createProperty; rw [htail]
      have hset : (new.ensure a).set a h.length = .ok ((new.ensure a).bind a h.length) := by
        unfold Obj.set
        rw [if_pos (by rw [hchk]; simp)]
      have hj : joinAttr bs a h new = .ok (h ++ [x], (new.ensure a).bind a h.length) := by
        unfold joinAttr
        rw [hrs]
        simp only [hst, hset]
      rw [hj]
      simp only
      refine ih ?_ (fun b hb => hattr b (by simp [hb])) (fun b hb hb' => hclash b (by simp [hb]) (by simp [hb'])) ?_ ?_
      · exact Wf.bind ((hnew.mono (List.prefix_append _ _)).ensure a) (by rw [hchk]; simp) (by simp)
      · intro b hb hb'
        change _ ∈ (new.ensure a).check at hb'
        rw [hchk, List.mem_append, List.mem_singleton] at hb'
        rcases hb' with hb' | hb'
        · exact hclash' b (by simp [hb]) hb'
        · exact hclash b (by simp [hb]) (by simp [hb'])
      · intro b hb hpb
        obtain ⟨rs', as', x', e1, e2, e3⟩ := hok b (by simp [hb]) hpb
        refine ⟨rs', as', x', e1, ?_, e3⟩
        rw [← e2]
        apply List.map_congr_left
        intro r hr
        have : h[r]? ∈ as'.map some := e2 ▸ List.mem_map.2 ⟨r, hr, rfl⟩
        obtain ⟨y, _, hy⟩ := List.mem_map.1 this
        exact prefix_get (List.prefix_append _ _) (List.getElem?_eq_some_iff.1 hy.symm).1
    · exact ih hnew (fun b hb => hattr b (by simp [hb])) (fun b hb hb' => hclash b (by simp [hb]) (by simp [hb']))
        (fun b hb => hclash' b (by simp [hb])) (fun b hb => hok b (by simp [hb]))

/-! ### inherit -/

theorem getSel_ok {a : Name} {s : Sel} {r : Nat} (hw : Wf h b) (hg : b.getSel h a s = .ok (r, h')) :
    h <+: h' ∧ r < h'.length ∧ ∃ arr, (b.ref a).bind (fun r => h[r]?) = some arr ∧
      h'[r]? = some (s.pick arr) ∧
      ((∃ l, s = .idx l) → h.length ≤ r) ∧ (s = .all → b.ref a = some r) ∧
      (∀ l, s = .idx l → ∀ i ∈ l, i < arr.cols.length) := by
  unfold Obj.getSel at hg
  split at hg
  · simp at hg
  · rename_i r0 hr0
    have hr0' := get_ok hr0
    split at hg
    · simp at hg
    · rename_i arr harr
      split at hg
      · simp only [Except.ok.injEq, Prod.mk.injEq] at hg
        obtain ⟨rfl, rfl⟩ := hg
        exact ⟨List.prefix_refl _, ref_lt hw hr0', arr, by rw [hr0']; exact harr, harr, by simp, fun _ => hr0',
          fun l hl => by simp at hl⟩
      · rename_i l
        split at hg
        · simp at hg
        · rename_i vs hvs
          simp only [Except.ok.injEq, alloc, Prod.mk.injEq] at hg
          obtain ⟨rfl, rfl⟩ := hg
          refine ⟨List.prefix_append _ _, by simp, arr, by rw [hr0']; exact harr, ?_, fun _ => Nat.le_refl _, by simp, ?_⟩
          · simp [take_at' hvs, Sel.pick]
          · intro l' hl' i hi
            simp only [Sel.idx.injEq] at hl'
            subst hl'
            have : arr.cols[i]? ∈ vs.map some := take_ok hvs ▸ List.mem_map.2 ⟨i, hi, rfl⟩
            obtain ⟨y, _, hy⟩ := List.mem_map.1 this
            exact (List.getElem?_eq_some_iff.1 hy.symm).1

/-- The item of `inherit`'s dictionary for one property. -/
def ItemOk (start : Heap V) (b : Obj) (s : Sel) (given : List (Name × Nat)) (h' : Heap V)
    (p : Name) (v : Option Nat) : Prop :=
  match lookup given p with
  | some r => v = some r
  | none =>
    match (b.ref (attrOf p)).bind (fun r => start[r]?) with
    | none => v = none
    | some arr => ∃ r, v = some r ∧ r < h'.length ∧
        h'[r]? = some (s.pick arr) ∧
        ((∃ l, s = .idx l) → start.length ≤ r) ∧ (s = .all → b.ref (attrOf p) = some r)

theorem inheritLoop_ok {s : Sel} {given : List (Name × Nat)} {start : Heap V} (hw : Wf start b)
    {ps : List Name} {items : List (Name × Option Nat)} (hgrow : start <+: h)
    (hl : inheritLoop b s given ps h = .ok (h', items)) :
    h <+: h' ∧ items.map Prod.fst = ps ∧ ∀ pv ∈ items, ItemOk start b s given h' pv.1 pv.2 := by
  induction ps generalizing h items with
  | nil =>
    simp only [inheritLoop, Except.ok.injEq, Prod.mk.injEq] at hl
    obtain ⟨rfl, rfl⟩ := hl
    exact ⟨List.prefix_refl _, rfl, by simp⟩
  | cons p ps ih =>
    unfold inheritLoop at hl
    split at hl
    · rename_i r hr
      split at hl
      · simp at hl
      · rename_i h1 items1 hrec
        simp only [Except.ok.injEq, Prod.mk.injEq] at hl
        obtain ⟨rfl, rfl⟩ := hl
        obtain ⟨g, hf, hi⟩ := ih hgrow hrec
        refine ⟨g, by simp [hf], ?_⟩
        intro pv hpv
        rcases List.mem_cons.1 hpv with rfl | hpv
        · unfold ItemOk; rw [hr]
        · exact hi pv hpv
    · rename_i hr
      split at hl
      · rename_i hhas
        split at hl
        · simp at hl
        · rename_i r h1 hg
          obtain ⟨g1, hlt, arr, harr, hval, hfresh, hall, _⟩ := getSel_ok (hw.mono hgrow) hg
          split at hl
          · simp at hl
          · rename_i h2 items1 hrec
            simp only [Except.ok.injEq, Prod.mk.injEq] at hl
            obtain ⟨rfl, rfl⟩ := hl
            obtain ⟨g, hf, hi⟩ := ih (hgrow.trans g1) hrec
            refine ⟨g1.trans g, by simp [hf], ?_⟩
            intro pv hpv
            rcases List.mem_cons.1 hpv with rfl | hpv
            · unfold ItemOk
              rw [hr]
              have : (b.ref (attrOf p)).bind (fun r => start[r]?) = some arr := by
                rw [← harr]
                cases hb : b.ref (attrOf p) with
                | none => rfl
                | some r0 => exact (prefix_get hgrow (ref_lt hw hb)).symm
              simp only [this]
              exact ⟨r, rfl, Nat.lt_of_lt_of_le hlt g.length_le, (prefix_get g hlt).trans hval,
                fun hs => Nat.le_trans hgrow.length_le (hfresh hs), hall⟩
            · exact hi pv hpv
      · rename_i hhas
        split at hl
        · simp at hl
        · rename_i h1 items1 hrec
          simp only [Except.ok.injEq, Prod.mk.injEq] at hl
          obtain ⟨rfl, rfl⟩ := hl
          obtain ⟨g, hf, hi⟩ := ih hgrow hrec
          refine ⟨g, by simp [hf], ?_⟩
          intro pv hpv
          rcases List.mem_cons.1 hpv with rfl | hpv
          · unfold ItemOk
            rw [hr]
            have : b.ref (attrOf p) = none := by
              simpa [Obj.hasAttr] using hhas
            simp [this]
          · exact hi pv hpv

theorem inheritLoop_exists {s : Sel} {given : List (Name × Nat)} {start : Heap V} (hw : Wf start b)
    {ps : List Name} (hgrow : start <+: h)
    (hok : ∀ p ∈ ps, lookup given p = none → ∀ arr, (b.ref (attrOf p)).bind (fun r => start[r]?) = some arr →
      ∀ l, s = .idx l → ∀ i ∈ l, i < arr.cols.length) :
    ∃ h' items, inheritLoop b s given ps h = .ok (h', items) := by
  induction ps generalizing h with
  | nil => exact ⟨h, [], rfl⟩
  | cons p ps ih =>
    unfold inheritLoop
    split
    · obtain ⟨h', items, e⟩ := ih hgrow fun q hq => hok q (by simp [hq])
      rw [e]
      exact ⟨_, _, rfl⟩
    · rename_i hr
      split
      · rename_i hhas
        have hgs : ∃ r h1, b.getSel h (attrOf p) s = .ok (r, h1) := by
          unfold Obj.getSel
          cases hb : b.ref (attrOf p) with
          | none => simp [Obj.hasAttr, hb] at hhas
          | some r0 =>
            have hg : b.get (attrOf p) = .ok r0 := by
              unfold Obj.get; rw [if_pos (hw.value _ _ hb).1, hb]
            rw [hg]
            have hlt := Nat.lt_of_lt_of_le (ref_lt hw hb) hgrow.length_le
            simp only [List.getElem?_eq_getElem hlt]
            cases s with
            | all => exact ⟨_, _, rfl⟩
            | idx l =>
              have hget := prefix_get hgrow (ref_lt hw hb)
              obtain ⟨vs, hvs⟩ := take_exists (l := h[r0].cols) (sel := l) (by
                refine hok p (by simp) hr h[r0] ?_ l rfl
                rw [hb]
                simp only [Option.bind_some]
                rw [← hget]
                exact List.getElem?_eq_getElem hlt)
              simp only [hvs]
              exact ⟨_, _, rfl⟩
        obtain ⟨r, h1, hg⟩ := hgs
        obtain ⟨g1, _⟩ := getSel_ok (hw.mono hgrow) hg
        obtain ⟨h', items, e⟩ := ih (hgrow.trans g1) fun q hq => hok q (by simp [hq])
        rw [hg]
        simp only [e]
        exact ⟨_, _, rfl⟩
      · obtain ⟨h', items, e⟩ := ih hgrow fun q hq => hok q (by simp [hq])
        rw [e]
        exact ⟨_, _, rfl⟩

theorem nodup_inheritKeys (b : Obj) (given : List (Name × Nat)) : (inheritKeys b given).Nodup :=
  List.nodup_dedup _

end Tracer.Dict
