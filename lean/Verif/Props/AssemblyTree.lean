import Verif.Spec.AssemblyTree
import Mathlib.Data.List.Basic
import Mathlib.Data.List.Nodup
import Mathlib.Tactic.Common

/-! C77: the tree widget of assemblies. -/

namespace Tracer.TreeUI

theorem captionOf_eq (tag : Option String) (kind : String) (i : Nat) : captionOf tag kind i = tag.getD (kind ++ toString i) := by
  cases tag <;> rfl

theorem shownAll_append (l l' : List Item) : shownAll (l ++ l') = shownAll l ++ shownAll l' := by
  induction l with
  | nil => rfl
  | cons x l ih => simp only [List.cons_append, shownAll, ih, List.append_assoc]

theorem surfs_shown (at_ : Path) (i : Nat) (l : List TSurf) (p : Path) (c : String) :
    (p, c) ∈ shownAll (addSurfs at_ i l).1 ↔
      ∃ j s, l[j]? = some s ∧ p = at_ ++ [.surf (i + j)] ∧ c = s.tag.getD (Step.surf (i + j)).defaultCaption := by
  induction l generalizing i with
  | nil => simp [addSurfs, shownAll]
  | cons s l ih =>
    simp only [addSurfs, shownAll, Item.shown, List.cons_append, List.nil_append, List.mem_cons, Prod.mk.injEq, ih]
    constructor
    · rintro (⟨rfl, rfl⟩ | ⟨j, s', h1, rfl, rfl⟩)
      · exact ⟨0, s, rfl, rfl, captionOf_eq _ _ _⟩
      · exact ⟨j + 1, s', h1, by rw [Nat.add_right_comm]; rfl, by rw [Nat.add_right_comm]; rfl⟩
    · rintro ⟨j, s', h1, rfl, rfl⟩
      cases j with
      | zero =>
        cases h1
        exact .inl ⟨rfl, (captionOf_eq _ _ _).symm⟩
      | succ j =>
        exact .inr ⟨j, s', h1, by rw [Nat.add_right_comm]; rfl, by rw [Nat.add_right_comm]; rfl⟩

theorem objs_shown (at_ : Path) (i : Nat) (l : List TObj) (p : Path) (c : String) :
    (p, c) ∈ shownAll (addObjs at_ i l).1 ↔
      ∃ j o q tag, l[j]? = some o ∧ p = at_ ++ (.obj (i + j) :: q) ∧ o.tagAt q = some tag ∧ c = tag.getD (defaultCaption (.obj (i + j) :: q)) := by
  induction l generalizing i with
  | nil => simp [addObjs, shownAll]
  | cons o l ih =>
    simp only [addObjs, shownAll, Item.shown, List.cons_append, List.mem_cons, List.mem_append, Prod.mk.injEq, ih, surfs_shown]
    constructor
    · rintro (⟨rfl, rfl⟩ | ⟨j, s, h1, rfl, rfl⟩ | ⟨j, o', q, tag, h1, rfl, h2, rfl⟩)
      · exact ⟨0, o, [], o.tag, rfl, rfl, rfl, captionOf_eq _ _ _⟩
      · refine ⟨0, o, [.surf (0 + j)], s.tag, rfl, by simp, ?_, rfl⟩
        simp only [TObj.tagAt, Nat.zero_add, h1, Option.map_some]
      · exact ⟨j + 1, o', q, tag, h1, by rw [Nat.add_right_comm]; rfl, h2, by rw [Nat.add_right_comm]; rfl⟩
    · rintro ⟨j, o', q, tag, h1, rfl, h2, rfl⟩
      cases j with
      | zero =>
        cases h1
        match q, h2 with
        | [], h2 =>
          cases h2
          exact .inl ⟨rfl, (captionOf_eq _ _ _).symm⟩
        | [.surf k], h2 =>
          simp only [TObj.tagAt, Option.map_eq_some_iff] at h2
          obtain ⟨s, h3, rfl⟩ := h2
          exact .inr (.inl ⟨k, s, h3, by simp, by rw [Nat.zero_add]; rfl⟩)
        | [.sub k], h2 => cases h2
        | [.obj k], h2 => cases h2
        | .surf _ :: _ :: _, h2 => cases h2
        | .sub _ :: _ :: _, h2 => cases h2
        | .obj _ :: _ :: _, h2 => cases h2
      | succ j =>
        exact .inr (.inr ⟨j, o', q, tag, h1, by rw [Nat.add_right_comm]; rfl, h2, by rw [Nat.add_right_comm]; rfl⟩)

theorem default_cons (s t : Step) (q : Path) : defaultCaption (s :: t :: q) = defaultCaption (t :: q) := by
  unfold defaultCaption
  rw [List.getLast?_cons_cons]

mutual
theorem sub_shown (at_ : Path) (p : Path) (c : String) : ∀ a : TAsm,
    (p, c) ∈ shownAll (addSub at_ a).1 ↔
      ∃ q tag, q ≠ [] ∧ p = at_ ++ q ∧ a.tagAt q = some tag ∧ c = tag.getD (defaultCaption q)
  | .mk tag subs objs => by
    have h1 := subs_shown at_ p c 0 subs
    have h2 := objs_shown at_ 0 objs p c
    have e1 : (p, c) ∈ shownAll (if subs.length > 0 then [Item.mk "Subassemblies" none (addSubs at_ 0 subs).1] else []) ↔
        (p, c) ∈ shownAll (addSubs at_ 0 subs).1 := by
      cases subs with
      | nil => simp [addSubs]
      | cons a l => simp [shownAll, Item.shown]
    have e2 : (p, c) ∈ shownAll (if objs.length > 0 then [Item.mk "Optical objects" none (addObjs at_ 0 objs).1] else []) ↔
        (p, c) ∈ shownAll (addObjs at_ 0 objs).1 := by
      cases objs with
      | nil => simp [addObjs]
      | cons a l => simp [shownAll, Item.shown]
    simp only [addSub, shownAll_append, List.mem_append, e1, e2, h1, h2, Nat.zero_add]
    constructor
    · rintro (⟨j, a, q, t, g1, rfl, g2, rfl⟩ | ⟨j, o, q, t, g1, rfl, g2, rfl⟩)
      · exact ⟨.sub j :: q, t, by simp, rfl, by simp only [TAsm.tagAt, g1, Option.bind_some, g2], rfl⟩
      · exact ⟨.obj j :: q, t, by simp, rfl, by simp only [TAsm.tagAt, g1, Option.bind_some, g2], rfl⟩
    · rintro ⟨q, t, hq, rfl, g, rfl⟩
      match q, hq, g with
      | .sub j :: q, _, g =>
        simp only [TAsm.tagAt, Option.bind_eq_some_iff] at g
        obtain ⟨a, g1, g2⟩ := g
        exact .inl ⟨j, a, q, t, g1, rfl, g2, rfl⟩
      | .obj j :: q, _, g =>
        simp only [TAsm.tagAt, Option.bind_eq_some_iff] at g
        obtain ⟨a, g1, g2⟩ := g
        exact .inr ⟨j, a, q, t, g1, rfl, g2, rfl⟩
      | .surf j :: q, _, g => cases g

theorem subs_shown (at_ : Path) (p : Path) (c : String) : ∀ (i : Nat) (l : List TAsm),
    (p, c) ∈ shownAll (addSubs at_ i l).1 ↔
      ∃ j a q tag, l[j]? = some a ∧ p = at_ ++ (.sub (i + j) :: q) ∧ a.tagAt q = some tag ∧ c = tag.getD (defaultCaption (.sub (i + j) :: q))
  | i, [] => by simp [addSubs, shownAll]
  | i, a :: l => by
    have h1 := sub_shown (at_ ++ [.sub i]) p c a
    have h2 := subs_shown at_ p c (i + 1) l
    simp only [addSubs, shownAll, Item.shown, List.cons_append, List.mem_cons, List.mem_append, Prod.mk.injEq, h1, h2]
    constructor
    · rintro (⟨rfl, rfl⟩ | ⟨q, t, hq, rfl, g, rfl⟩ | ⟨j, a', q, t, g1, rfl, g2, rfl⟩)
      · exact ⟨0, a, [], a.tag, rfl, rfl, by cases a; rfl, captionOf_eq _ _ _⟩
      · refine ⟨0, a, q, t, rfl, by simp, g, ?_⟩
        cases q with
        | nil => exact absurd rfl hq
        | cons s q => rw [default_cons]
      · exact ⟨j + 1, a', q, t, g1, by rw [Nat.add_right_comm]; rfl, g2, by rw [Nat.add_right_comm]; rfl⟩
    · rintro ⟨j, a', q, t, g1, rfl, g2, rfl⟩
      cases j with
      | zero =>
        cases g1
        cases q with
        | nil =>
          left
          have : t = a.tag := by cases a; cases g2; rfl
          subst this
          exact ⟨rfl, (captionOf_eq _ _ _).symm⟩
        | cons s q => exact .inr (.inl ⟨s :: q, t, by simp, by simp, g2, by rw [Nat.add_zero, default_cons]⟩)
      | succ j =>
        exact .inr (.inr ⟨j, a', q, t, g1, by rw [Nat.add_right_comm]; rfl, g2, by rw [Nat.add_right_comm]; rfl⟩)
end

/-- C77: the widget shows an item for the top assembly, always under the same text, and an item for every component below it, under its caption
tag, or under its default caption if it has none; and for nothing else. -/
theorem C77_shown (a : TAsm) (p : Path) (c : String) :
    (p, c) ∈ (setAssembly a).1.shown ↔
      (p = [] ∧ c = "Top assembly") ∨ (p ≠ [] ∧ ∃ tag, a.tagAt p = some tag ∧ c = tag.getD (defaultCaption p)) := by
  simp only [setAssembly, Item.shown, List.mem_cons, Prod.mk.injEq, sub_shown, List.nil_append]
  refine or_congr Iff.rfl ⟨?_, ?_⟩
  · rintro ⟨q, t, hq, rfl, h⟩; exact ⟨hq, t, h⟩
  · rintro ⟨hq, t, h⟩; exact ⟨p, t, hq, rfl, h⟩

/-! ### Each once -/

theorem surfs_nodup (at_ : Path) (i : Nat) (l : List TSurf) : ((shownAll (addSurfs at_ i l).1).map Prod.fst).Nodup := by
  induction l generalizing i with
  | nil => simp [addSurfs, shownAll]
  | cons s l ih =>
    simp only [addSurfs, shownAll, Item.shown, List.cons_append, List.nil_append, List.map_cons, List.nodup_cons]
    refine ⟨?_, ih (i + 1)⟩
    intro h
    obtain ⟨⟨p, c⟩, hm, hp⟩ := List.mem_map.1 h
    obtain ⟨j, s', _, rfl, _⟩ := (surfs_shown _ _ _ _ _).1 hm
    simp only [List.append_cancel_left_eq, List.cons.injEq, Step.surf.injEq, and_true] at hp
    omega

theorem objs_nodup (at_ : Path) (i : Nat) (l : List TObj) : ((shownAll (addObjs at_ i l).1).map Prod.fst).Nodup := by
  induction l generalizing i with
  | nil => simp [addObjs, shownAll]
  | cons o l ih =>
    simp only [addObjs, shownAll, Item.shown, List.cons_append, List.map_cons, List.map_append, List.nodup_cons]
    refine ⟨?_, List.Nodup.append (surfs_nodup _ _ _) (ih (i + 1)) ?_⟩
    · intro h
      rcases List.mem_append.1 h with h | h
      · obtain ⟨⟨p, c⟩, hm, hp⟩ := List.mem_map.1 h
        obtain ⟨j, s', _, rfl, _⟩ := (surfs_shown _ _ _ _ _).1 hm
        simp at hp
      · obtain ⟨⟨p, c⟩, hm, hp⟩ := List.mem_map.1 h
        obtain ⟨j, o', q, t, _, rfl, _, _⟩ := (objs_shown _ _ _ _ _).1 hm
        simp only [List.append_cancel_left_eq, List.cons.injEq, Step.obj.injEq] at hp
        omega
    · intro p h1 h2
      obtain ⟨⟨p1, c1⟩, hm, rfl⟩ := List.mem_map.1 h1
      obtain ⟨j, s', _, rfl, _⟩ := (surfs_shown _ _ _ _ _).1 hm
      obtain ⟨⟨p2, c2⟩, hm2, hp⟩ := List.mem_map.1 h2
      obtain ⟨k, o', q, t, _, rfl, _, _⟩ := (objs_shown _ _ _ _ _).1 hm2
      simp only [List.append_assoc, List.append_cancel_left_eq, List.cons_append, List.cons.injEq, Step.obj.injEq] at hp
      omega

mutual
theorem sub_nodup (at_ : Path) : ∀ a : TAsm, ((shownAll (addSub at_ a).1).map Prod.fst).Nodup
  | .mk tag subs objs => by
    have h1 := subs_nodup at_ 0 subs
    have h2 := objs_nodup at_ 0 objs
    have e1 : shownAll (if subs.length > 0 then [Item.mk "Subassemblies" none (addSubs at_ 0 subs).1] else []) =
        shownAll (addSubs at_ 0 subs).1 := by
      cases subs with
      | nil => simp [addSubs]
      | cons a l => simp [shownAll, Item.shown]
    have e2 : shownAll (if objs.length > 0 then [Item.mk "Optical objects" none (addObjs at_ 0 objs).1] else []) =
        shownAll (addObjs at_ 0 objs).1 := by
      cases objs with
      | nil => simp [addObjs]
      | cons a l => simp [shownAll, Item.shown]
    simp only [addSub, shownAll_append, e1, e2, List.map_append]
    refine List.Nodup.append h1 h2 ?_
    intro p g1 g2
    obtain ⟨⟨p1, c1⟩, hm, rfl⟩ := List.mem_map.1 g1
    obtain ⟨j, s', _, _, _, rfl, _⟩ := (subs_shown _ _ _ _ _).1 hm
    obtain ⟨⟨p2, c2⟩, hm2, hp⟩ := List.mem_map.1 g2
    obtain ⟨k, o', q, t, _, rfl, _, _⟩ := (objs_shown _ _ _ _ _).1 hm2
    simp at hp

theorem subs_nodup (at_ : Path) : ∀ (i : Nat) (l : List TAsm), ((shownAll (addSubs at_ i l).1).map Prod.fst).Nodup
  | i, [] => by simp [addSubs, shownAll]
  | i, a :: l => by
    have h1 := sub_nodup (at_ ++ [.sub i]) a
    have h2 := subs_nodup at_ (i + 1) l
    simp only [addSubs, shownAll, Item.shown, List.cons_append, List.map_cons, List.map_append, List.nodup_cons]
    refine ⟨?_, List.Nodup.append h1 h2 ?_⟩
    · intro h
      rcases List.mem_append.1 h with h | h
      · obtain ⟨⟨p, c⟩, hm, hp⟩ := List.mem_map.1 h
        obtain ⟨q, t, hq, rfl, _⟩ := (sub_shown _ _ _ _).1 hm
        simp at hp
        exact hq hp
      · obtain ⟨⟨p, c⟩, hm, hp⟩ := List.mem_map.1 h
        obtain ⟨j, o', q, t, _, rfl, _, _⟩ := (subs_shown _ _ _ _ _).1 hm
        simp only [List.append_cancel_left_eq, List.cons.injEq, Step.sub.injEq] at hp
        omega
    · intro p g1 g2
      obtain ⟨⟨p1, c1⟩, hm, rfl⟩ := List.mem_map.1 g1
      obtain ⟨q, t, _, rfl, _⟩ := (sub_shown _ _ _ _).1 hm
      obtain ⟨⟨p2, c2⟩, hm2, hp⟩ := List.mem_map.1 g2
      obtain ⟨k, o', q', t', _, rfl, _, _⟩ := (subs_shown _ _ _ _ _).1 hm2
      simp only [List.append_assoc, List.append_cancel_left_eq, List.cons_append, List.cons.injEq, Step.sub.injEq] at hp
      omega
end

/-- C77: no component has two items. -/
theorem C77_once (a : TAsm) : ((setAssembly a).1.shown.map Prod.fst).Nodup := by
  simp only [setAssembly, Item.shown, List.map_cons, List.nodup_cons]
  refine ⟨?_, sub_nodup [] a⟩
  intro h
  obtain ⟨⟨p, c⟩, hm, hp⟩ := List.mem_map.1 h
  obtain ⟨q, t, hq, rfl, _⟩ := (sub_shown _ _ _ _).1 hm
  exact hq (by simpa using hp)

/-! ### Where -/

theorem placedAll_append (q : Option Path) (h : Option String) (l l' : List Item) : placedAll q h (l ++ l') = placedAll q h l ++ placedAll q h l' := by
  induction l with
  | nil => rfl
  | cons x l ih => simp only [List.cons_append, placedAll, ih, List.append_assoc]

mutual
theorem placed_fst (q : Option Path) (h : Option String) : ∀ x : Item, (x.placed q h).map Prod.fst = x.shown.map Prod.fst
  | .mk c none ch => by simp only [Item.placed, Item.shown, placedAll_fst q (some c) ch]
  | .mk c (some p) ch => by simp only [Item.placed, Item.shown, List.map_cons, placedAll_fst (some p) none ch]

theorem placedAll_fst (q : Option Path) (h : Option String) : ∀ l : List Item, (placedAll q h l).map Prod.fst = (shownAll l).map Prod.fst
  | [] => rfl
  | x :: l => by simp only [placedAll, shownAll, List.map_append, placed_fst q h x, placedAll_fst q h l]
end

/-- The item of a component below the top is below the item of the component that holds it, under the right heading. -/
def WellPlaced (x : Path × Option Path × Option String) : Prop :=
  ∃ (q : Path) (s : Step), x = (q ++ [s], some q, s.heading)

theorem surfs_placed (at_ : Path) (i : Nat) (l : List TSurf) : ∀ x ∈ placedAll (some at_) none (addSurfs at_ i l).1, WellPlaced x := by
  induction l generalizing i with
  | nil => intro x hx; cases hx
  | cons s l ih =>
    intro x hx
    simp only [addSurfs, placedAll, Item.placed, List.cons_append, List.nil_append, List.mem_cons] at hx
    rcases hx with rfl | hx
    · exact ⟨at_, .surf i, rfl⟩
    · exact ih _ x hx

theorem objs_placed (at_ : Path) (i : Nat) (l : List TObj) : ∀ x ∈ placedAll (some at_) (some "Optical objects") (addObjs at_ i l).1, WellPlaced x := by
  induction l generalizing i with
  | nil => intro x hx; cases hx
  | cons s l ih =>
    intro x hx
    simp only [addObjs, placedAll, Item.placed, List.cons_append, List.mem_cons, List.mem_append] at hx
    rcases hx with rfl | hx | hx
    · exact ⟨at_, .obj i, rfl⟩
    · exact surfs_placed _ _ _ x hx
    · exact ih _ x hx

mutual
theorem sub_placed (at_ : Path) : ∀ (a : TAsm), ∀ x ∈ placedAll (some at_) none (addSub at_ a).1, WellPlaced x
  | .mk tag subs objs => by
    have h1 := subs_placed at_ 0 subs
    have h2 := objs_placed at_ 0 objs
    intro x hx
    simp only [addSub, placedAll_append, List.mem_append] at hx
    rcases hx with hx | hx
    · split at hx
      · exact h1 x (by simpa [placedAll, Item.placed] using hx)
      · cases hx
    · split at hx
      · exact h2 x (by simpa [placedAll, Item.placed] using hx)
      · cases hx

theorem subs_placed (at_ : Path) : ∀ (i : Nat) (l : List TAsm), ∀ x ∈ placedAll (some at_) (some "Subassemblies") (addSubs at_ i l).1, WellPlaced x
  | i, [] => by intro x hx; simp [addSubs, placedAll] at hx
  | i, a :: l => by
    have h1 := sub_placed (at_ ++ [.sub i]) a
    have h2 := subs_placed at_ (i + 1) l
    intro x hx
    simp only [addSubs, placedAll, Item.placed, List.cons_append, List.mem_cons, List.mem_append] at hx
    rcases hx with rfl | hx | hx
    · exact ⟨at_, .sub i, rfl⟩
    · exact h1 x hx
    · exact h2 x hx
end

/-- C77: the items follow the structure of the assembly: the first is that of the top assembly; every other one is below the item of the
component that holds its component, assemblies and objects under a heading for each. -/
theorem C77_place (a : TAsm) :
    (((setAssembly a).1.placed none none).map Prod.fst = (setAssembly a).1.shown.map Prod.fst) ∧
    ∃ rest, (setAssembly a).1.placed none none = ([], none, none) :: rest ∧
      ∀ p parent heading, (p, parent, heading) ∈ rest → ∃ (q : Path) (s : Step), p = q ++ [s] ∧ parent = some q ∧ heading = s.heading := by
  refine ⟨placed_fst _ _ _, _, rfl, fun p parent heading h => ?_⟩
  obtain ⟨q, s, h⟩ := sub_placed [] a _ h
  cases h
  exact ⟨q, s, rfl, rfl, rfl⟩

/-! ### Tags -/

theorem surfs_tags (at_ : Path) (i : Nat) (l : List TSurf) (j : Nat) :
    (addSurfs at_ i l).2[j]? = l[j]?.map fun s => ⟨some (s.tag.getD (Step.surf (i + j)).defaultCaption)⟩ := by
  induction l generalizing i j with
  | nil => simp [addSurfs]
  | cons s l ih =>
    cases j with
    | zero => simp only [addSurfs, List.getElem?_cons_zero, Option.map_some, captionOf_eq]; rfl
    | succ j =>
      simp only [addSurfs, List.getElem?_cons_succ, ih]
      rw [show i + 1 + j = i + (j + 1) by omega]

theorem objs_tags (at_ : Path) (i : Nat) (l : List TObj) (j : Nat) :
    (addObjs at_ i l).2[j]? = l[j]?.map fun o => ⟨some (o.tag.getD (Step.obj (i + j)).defaultCaption), (addSurfs (at_ ++ [.obj (i + j)]) 0 o.surfs).2⟩ := by
  induction l generalizing i j with
  | nil => simp [addObjs]
  | cons s l ih =>
    cases j with
    | zero => simp only [addObjs, List.getElem?_cons_zero, Option.map_some, captionOf_eq]; rfl
    | succ j =>
      simp only [addObjs, List.getElem?_cons_succ, ih]
      rw [show i + 1 + j = i + (j + 1) by omega]

theorem subs_tags (at_ : Path) (i : Nat) (l : List TAsm) (j : Nat) :
    (addSubs at_ i l).2[j]? = l[j]?.map fun a => (addSub (at_ ++ [.sub (i + j)]) a).2.setTag (a.tag.getD (Step.sub (i + j)).defaultCaption) := by
  induction l generalizing i j with
  | nil => simp [addSubs]
  | cons s l ih =>
    cases j with
    | zero => simp only [addSubs, List.getElem?_cons_zero, Option.map_some, captionOf_eq]; rfl
    | succ j =>
      simp only [addSubs, List.getElem?_cons_succ, ih]
      rw [show i + 1 + j = i + (j + 1) by omega]

theorem setTag_tagAt (c : String) (a : TAsm) : (∀ s q, (a.setTag c).tagAt (s :: q) = a.tagAt (s :: q)) ∧ (a.setTag c).tagAt [] = some (some c) := by
  cases a
  exact ⟨fun s q => by cases s <;> rfl, rfl⟩

theorem sub_tagAt (p : Path) : ∀ (at_ : Path) (a : TAsm), p ≠ [] →
    (addSub at_ a).2.tagAt p = (a.tagAt p).map fun tag => some (tag.getD (defaultCaption p)) := by
  induction p with
  | nil => intro _ _ h; exact absurd rfl h
  | cons s p ih =>
    intro at_ a _
    obtain ⟨tag, subs, objs⟩ := a
    cases s with
    | surf i => simp [addSub, TAsm.tagAt]
    | sub i =>
      simp only [addSub, TAsm.tagAt, subs_tags, Nat.zero_add]
      cases subs[i]? with
      | none => rfl
      | some a =>
        simp only [Option.map_some, Option.bind_some]
        cases p with
        | nil => rw [(setTag_tagAt _ _).2]; cases a; rfl
        | cons t p =>
          rw [(setTag_tagAt _ _).1, ih _ _ (by simp), default_cons]
    | obj i =>
      simp only [addSub, TAsm.tagAt, objs_tags, Nat.zero_add]
      cases objs[i]? with
      | none => rfl
      | some o =>
        simp only [Option.map_some, Option.bind_some]
        match p with
        | [] => rfl
        | [.surf k] =>
          simp only [TObj.tagAt, surfs_tags, Nat.zero_add, Option.map_map, Function.comp_def]
          rfl
        | [.sub k] => rfl
        | [.obj k] => rfl
        | .surf _ :: _ :: _ => rfl
        | .sub _ :: _ :: _ => rfl
        | .obj _ :: _ :: _ => rfl

/-- C77: showing an assembly gives every component below it that has no caption its default caption, and changes no other caption. -/
theorem C77_tags (a : TAsm) (p : Path) :
    (setAssembly a).2.tagAt p = if p = [] then a.tagAt [] else (a.tagAt p).map fun tag => some (tag.getD (defaultCaption p)) := by
  split
  · subst p; cases a; rfl
  · exact sub_tagAt p [] a (by assumption)

/-- C77: showing it again shows the same. -/
theorem C77_again (a : TAsm) (p : Path) (c : String) :
    (p, c) ∈ (setAssembly (setAssembly a).2).1.shown ↔ (p, c) ∈ (setAssembly a).1.shown := by
  rw [C77_shown, C77_shown]
  refine or_congr Iff.rfl (and_congr_right fun hp => ?_)
  rw [C77_tags, if_neg hp]
  cases a.tagAt p with
  | none => simp
  | some t => simp

/-! ### Renaming -/

theorem modify_get {α : Type} (f : α → α) (i : Nat) (l : List α) (j : Nat) :
    (modify f i l)[j]? = if i = j then l[j]?.map f else l[j]? := by
  induction l generalizing i j with
  | nil => cases i <;> simp [modify]
  | cons a l ih =>
    cases i <;> cases j <;> simp [modify, ih]

theorem obj_rename (text : String) (p q : Path) (o : TObj) :
    (o.rename text p).tagAt q = if q = p then (o.tagAt q).map (fun _ => some text) else o.tagAt q := by
  match p, q with
  | [], [] => rfl
  | [], .surf i :: q => cases q <;> simp [TObj.rename, TObj.tagAt]
  | [], .sub i :: q => cases q <;> simp [TObj.rename, TObj.tagAt]
  | [], .obj i :: q => cases q <;> simp [TObj.rename, TObj.tagAt]
  | [.surf i], [] => simp [TObj.rename, TObj.tagAt]
  | [.surf i], [.surf j] =>
    simp only [TObj.rename, TObj.tagAt, modify_get]
    by_cases h : i = j
    · subst h; simp [Function.comp_def]
    · have h' : j ≠ i := fun e => h e.symm
      simp [h, h']
  | [.surf i], .surf j :: _ :: _ => simp [TObj.rename, TObj.tagAt]
  | [.surf i], .sub j :: q => cases q <;> simp [TObj.rename, TObj.tagAt]
  | [.surf i], .obj j :: q => cases q <;> simp [TObj.rename, TObj.tagAt]
  | .surf i :: s :: p, q =>
    simp only [TObj.rename]
    split
    · subst q; rfl
    · rfl
  | .sub i :: p, q =>
    have : o.rename text (.sub i :: p) = o := by cases p <;> rfl
    rw [this]
    split
    · subst q; cases p <;> rfl
    · rfl
  | .obj i :: p, q =>
    have : o.rename text (.obj i :: p) = o := by cases p <;> rfl
    rw [this]
    split
    · subst q; cases p <;> rfl
    · rfl

theorem asm_rename (text : String) (p : Path) : ∀ (q : Path) (a : TAsm),
    (a.rename text p).tagAt q = if q = p then (a.tagAt q).map (fun _ => some text) else a.tagAt q := by
  induction p with
  | nil =>
    intro q a
    obtain ⟨tag, subs, objs⟩ := a
    cases q with
    | nil => rfl
    | cons s q => cases s <;> simp [TAsm.rename, TAsm.tagAt]
  | cons s p ih =>
    intro q a
    obtain ⟨tag, subs, objs⟩ := a
    cases s with
    | surf i =>
      simp only [TAsm.rename]
      split
      · subst q; rfl
      · rfl
    | sub i =>
      match q with
      | [] => simp [TAsm.rename, TAsm.tagAt]
      | .surf j :: q => simp [TAsm.rename, TAsm.tagAt]
      | .obj j :: q => simp [TAsm.rename, TAsm.tagAt]
      | .sub j :: q =>
        simp only [TAsm.rename, TAsm.tagAt, modify_get]
        by_cases h : i = j
        · subst h
          cases subs[i]? with
          | none => simp
          | some a => simp [ih]
        · have h' : j ≠ i := fun e => h e.symm
          simp [h, h']
    | obj i =>
      match q with
      | [] => simp [TAsm.rename, TAsm.tagAt]
      | .surf j :: q => simp [TAsm.rename, TAsm.tagAt]
      | .sub j :: q => simp [TAsm.rename, TAsm.tagAt]
      | .obj j :: q =>
        simp only [TAsm.rename, TAsm.tagAt, modify_get]
        by_cases h : i = j
        · subst h
          cases objs[i]? with
          | none => simp
          | some a => simp [obj_rename]
        · have h' : j ≠ i := fun e => h e.symm
          simp [h, h']

/-- C77, in part: if the user renames the item of a component below the top, the new text and only it is different when the assembly is shown
again.  For the top item see `C77_top_fails`. -/
theorem C77_rename_partial (a : TAsm) (text : String) {p : Path} (hp : p ≠ []) (hex : ∃ tag, a.tagAt p = some tag) (q : Path) (c : String) :
    (q, c) ∈ (setAssembly (TAsm.rename text p (setAssembly a).2)).1.shown ↔
      if q = p then c = text else (q, c) ∈ (setAssembly a).1.shown := by
  rw [C77_shown]
  by_cases hq : q = []
  · subst hq
    rw [if_neg (fun e => hp e.symm), C77_shown]
    simp
  rw [asm_rename, C77_tags, if_neg hq]
  split
  · rename_i h
    subst h
    obtain ⟨tag, ht⟩ := hex
    simp [ht, hq]
  · rw [C77_shown]
    refine or_congr Iff.rfl (and_congr_right fun _ => ?_)
    cases a.tagAt q with
    | none => simp
    | some t => simp

/-- A new name for the top item is written down, but not shown when the assembly is shown again. -/
theorem C77_top_fails (a : TAsm) (text : String) :
    (TAsm.rename text [] (setAssembly a).2).tagAt [] = some (some text) ∧
    ∀ c, ([], c) ∈ (setAssembly (TAsm.rename text [] (setAssembly a).2)).1.shown ↔ c = "Top assembly" := by
  refine ⟨by rw [asm_rename, if_pos rfl]; cases a; rfl, fun c => ?_⟩
  rw [C77_shown]
  simp

/-! ### An example -/

/-- The minidish of assembly_tree.py:153-170, whose dish has been given no caption. -/
def miniDish : TAsm :=
  .mk none [.mk (some "Homogenizer") [] (List.replicate 4 ⟨none, [⟨none⟩]⟩)] [⟨some "Receiver", [⟨none⟩, ⟨none⟩]⟩, ⟨none, [⟨none⟩]⟩]

example : (setAssembly miniDish).1.shown = [([], "Top assembly"), ([.sub 0], "Homogenizer"),
    ([.sub 0, .obj 0], "Object 0"), ([.sub 0, .obj 0, .surf 0], "Surface 0"),
    ([.sub 0, .obj 1], "Object 1"), ([.sub 0, .obj 1, .surf 0], "Surface 0"),
    ([.sub 0, .obj 2], "Object 2"), ([.sub 0, .obj 2, .surf 0], "Surface 0"),
    ([.sub 0, .obj 3], "Object 3"), ([.sub 0, .obj 3, .surf 0], "Surface 0"),
    ([.obj 0], "Receiver"), ([.obj 0, .surf 0], "Surface 0"), ([.obj 0, .surf 1], "Surface 1"),
    ([.obj 1], "Object 1"), ([.obj 1, .surf 0], "Surface 0")] := by
  rfl

/-- The hypotheses of `C77_rename_partial` are met by its dish. -/
example (c : String) : ([.obj 1], c) ∈ (setAssembly (TAsm.rename "Dish" [.obj 1] (setAssembly miniDish).2)).1.shown ↔ c = "Dish" := by
  rw [C77_rename_partial _ _ (by simp) ⟨none, rfl⟩, if_pos rfl]

/-- Once shown, default captions stay with their components: if components that were first in two assemblies are put into one, they are shown
under the same text. -/
theorem C77_same_caption_counterexample :
    ∃ o o' : TObj, o.tag = none ∧ o'.tag = none ∧
      ∃ t t' : TObj, (setAssembly (.mk none [] [o])).2 = .mk none [] [t] ∧ (setAssembly (.mk none [] [o'])).2 = .mk none [] [t'] ∧
        ([.obj 0], "Object 0") ∈ (setAssembly (.mk none [] [t, t'])).1.shown ∧ ([.obj 1], "Object 0") ∈ (setAssembly (.mk none [] [t, t'])).1.shown :=
  ⟨⟨none, [⟨none⟩]⟩, ⟨none, []⟩, rfl, rfl, ⟨some "Object 0", [⟨some "Surface 0"⟩]⟩, ⟨some "Object 0", []⟩, rfl, rfl,
    by rw [C77_shown]; exact .inr ⟨by simp, some "Object 0", rfl, rfl⟩, by rw [C77_shown]; exact .inr ⟨by simp, some "Object 0", rfl, rfl⟩⟩

end Tracer.TreeUI
