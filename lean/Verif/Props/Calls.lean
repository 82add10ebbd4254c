import Verif.Spec.Calls
import Verif.Props.Frames

/-!
# What calls on an assembly tree change, frames for tracing aside (C22)
-/

namespace Tracer

variable {K : Type _} [Field K] {P Q : Type _}

theorem modifyNth_modify {α : Type _} (f : α → α) (i : Nat) (l : List α) : modifyNth f i l = l.modify i f := by
  induction l generalizing i with
  | nil => cases i <;> simp [modifyNth]
  | cons a l ih => cases i <;> simp [modifyNth, ih]

theorem map_modify {α β : Type _} {f : α → α} {g : α → β} {f' : β → β} (h : ∀ a, g (f a) = f' (g a)) (i : Nat) (l : List α) :
    (l.modify i f).map g = (l.map g).modify i f' := by
  induction l generalizing i with
  | nil => simp
  | cons a l ih => cases i <;> simp [ih, h]

theorem modifyAt_at (f : Asm K P Q → Asm K P Q) (path : List Nat) (a : Asm K P Q) : (Asm.modifyAt f path a).at path = (a.at path).map f := by
  induction path generalizing a with
  | nil => rfl
  | cons i path ih =>
    cases a with
    | mk own subs objs =>
      unfold Asm.modifyAt Asm.at
      rw [modifyNth_modify]
      simp only [List.getElem?_modify_eq]
      cases subs[i]? with
      | none => rfl
      | some b => exact ih b

theorem modifyAt_elsewhere (f : Asm K P Q → Asm K P Q) (path q : List Nat) (hq : ¬ path <+: q) {a d : Asm K P Q} (h : a.at q = some d) :
    ∃ d', (Asm.modifyAt f path a).at q = some d' ∧ d'.own = d.own ∧ d'.objs = d.objs ∧ d'.subs.length = d.subs.length := by
  induction path generalizing q a with
  | nil => exact absurd List.nil_prefix hq
  | cons i path ih =>
    cases a with
    | mk own subs objs =>
      cases q with
      | nil =>
        cases h
        exact ⟨_, rfl, rfl, rfl, by simp [Asm.modifyAt, Asm.subs, modifyNth_modify]⟩
      | cons j q =>
        unfold Asm.modifyAt
        unfold Asm.at at h ⊢
        rw [modifyNth_modify]
        by_cases hij : i = j
        · subst hij
          simp only [List.getElem?_modify_eq]
          cases hb : subs[i]? with
          | none => rw [hb] at h; cases h
          | some b =>
            rw [hb] at h
            exact ih q (fun hp => hq (List.cons_prefix_cons.2 ⟨rfl, hp⟩)) h
        · rw [List.getElem?_modify_ne _ _ hij]
          exact ⟨d, h, rfl, rfl, rfl⟩

/-- C22: a call on a component of a tree of assemblies (the assembly at the path, or an object or surface in it) does to the relative transforms and the structure there
what it is asked to do; assemblies that are neither it nor below it keep their transforms, their objects with the frames of their surfaces, and the number of their
sub-assemblies. -/
theorem C22_calls (c : Call K P Q) {a b : Asm K P Q} (h : a.at c.path = some b) :
    ((c.apply a).at c.path).map Asm.relative = some (c.asked b.relative) ∧
    ∀ q d, ¬ c.path <+: q → a.at q = some d →
      ∃ d', (c.apply a).at q = some d' ∧ d'.own = d.own ∧ d'.objs = d.objs ∧ d'.subs.length = d.subs.length := by
  have key : ∀ f : Asm K P Q → Asm K P Q, c.apply = Asm.modifyAt f c.path → (f b).relative = c.asked b.relative →
      ((c.apply a).at c.path).map Asm.relative = some (c.asked b.relative) ∧
      ∀ q d, ¬ c.path <+: q → a.at q = some d →
        ∃ d', (c.apply a).at q = some d' ∧ d'.own = d.own ∧ d'.objs = d.objs ∧ d'.subs.length = d.subs.length := by
    intro f h1 h2
    rw [h1]
    refine ⟨?_, fun q d hq hd => modifyAt_elsewhere f _ q hq hd⟩
    rw [modifyAt_at, h, Option.map_some, Option.map_some, h2]
  obtain ⟨own, subs, objs⟩ := b
  have hrel : (Asm.mk own subs objs).relative = .mk own (subs.map Asm.relative) (objs.map ObjNode.relative) := by
    rw [Asm.relative, relativeAll_eq]
  cases c with
  | setAsm path c =>
    refine key _ rfl ?_
    rw [(C22_set c own subs objs).2, hrel]
    rfl
  | addObj path o t =>
    refine key _ rfl ?_
    rw [(C22_add_object o t own subs objs).2, hrel]
    rfl
  | addAsm path b t =>
    refine key _ rfl ?_
    rw [(C22_add_assembly b t own subs objs).2, hrel]
    rfl
  | transformChildren path T =>
    refine key _ rfl ?_
    rw [(C22_transform_children T _).2]
    rfl
  | setObj path i c =>
    refine key _ rfl ?_
    rw [hrel]
    unfold Asm.modifyObj
    rw [Asm.relative, relativeAll_eq, modifyNth_modify, map_modify (f' := fun o => { o with own := c.apply o.own })]
    · rfl
    · intro o
      unfold ObjNode.set
      rw [obj_transform_relative]
      rfl
  | addSurf path i s =>
    refine key _ rfl ?_
    rw [hrel]
    unfold Asm.modifyObj
    rw [Asm.relative, relativeAll_eq, modifyNth_modify, map_modify (f' := fun o => { o with surfs := o.surfs ++ [{ s with temp := 1 }] })]
    · rfl
    · intro o
      unfold ObjNode.addSurface
      rw [obj_transform_relative]
      unfold ObjNode.relative
      simp
  | setSurf path i j c =>
    refine key _ rfl ?_
    rw [hrel]
    unfold Asm.modifyObj
    rw [Asm.relative, relativeAll_eq, modifyNth_modify,
      map_modify (f' := fun o => { o with surfs := o.surfs.modify j fun s => { s with own := c.apply s.own } })]
    · rfl
    · intro o
      unfold ObjNode.relative
      simp only [modifyNth_modify]
      rw [map_modify (f' := fun s => { s with own := c.apply s.own })]
      intro s
      rfl

/-- In the tree of depth two an assembly is added to the inner one at (0, 0, 5): it is there, and the root is as before. -/
example : ∃ b, Examples.nested.at [0] = some b ∧
    (((Call.addAsm [0] (Asm.new [] [] 0 1 1) ⟨1, ⟨0, 0, 5⟩⟩).apply Examples.nested).at [0, 0]).map Asm.own = some ⟨1, ⟨0, 0, 5⟩⟩ ∧
    ((Call.addAsm [0] (Asm.new [] [] 0 1 1) ⟨1, ⟨0, 0, 5⟩⟩).apply Examples.nested).own.loc = ⟨1, 0, 0⟩ := by
  refine ⟨_, rfl, by decide +kernel, ?_⟩
  obtain ⟨d', h1, h2, -⟩ := (C22_calls (Call.addAsm [0] (Asm.new [] [] 0 1 1) ⟨1, ⟨0, 0, 5⟩⟩) (a := Examples.nested) rfl).2 [] _ (by simp [Call.path]) rfl
  cases h1
  rw [h2]
  decide +kernel

end Tracer
