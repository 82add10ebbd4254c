import Verif.Spec.Assembly
import Verif.Model.Scene
import Verif.Lemmas.Vec
import Verif.Props.Engine

/-!
# Frames of assembly trees (C19, C22, C23)
-/

set_option linter.unusedSectionVars false

namespace Tracer

variable {K : Type _} [Field K] {P Q : Type _}

/-! ## Lemmas -/

theorem foldl_cons_mul (T own : Tf K) (path : List (Tf K)) :
    (own :: path).foldl (· * ·) T = path.foldl (· * ·) (T * own) := rfl

theorem mem_modifyNth {α : Type _} {f : α → α} {i : Nat} {l : List α} {x : α} (h : x ∈ modifyNth f i l) :
    x ∈ l ∨ ∃ y, l[i]? = some y ∧ x = f y := by
  induction l generalizing i with
  | nil => cases i <;> simp [modifyNth] at h
  | cons a l ih =>
    cases i with
    | zero =>
      simp only [modifyNth, List.mem_cons] at h
      rcases h with rfl | h
      · exact Or.inr ⟨a, rfl, rfl⟩
      · exact Or.inl (List.mem_cons_of_mem _ h)
    | succ i =>
      simp only [modifyNth, List.mem_cons] at h
      rcases h with rfl | h
      · exact Or.inl (by simp)
      · rcases ih h with h | h
        · exact Or.inl (List.mem_cons_of_mem _ h)
        · exact Or.inr h

theorem obj_transform_sync (T : Tf K) (o : ObjNode K P Q) : (o.transformChildren T).InSync T := by
  intro s hs
  obtain ⟨s0, _, rfl⟩ := List.mem_map.1 hs
  rfl

mutual
theorem transform_sync (T : Tf K) : ∀ a : Asm K P Q, InSync T (a.transformChildren T)
  | .mk own subs objs => by
    intro path s h
    unfold Asm.transformChildren at h
    cases h with
    | object ho hs =>
      obtain ⟨o, _, rfl⟩ := List.mem_map.1 ho
      exact obj_transform_sync (T * own) o s hs
    | sub ha hb => exact transformAll_sync (T * own) subs _ ha _ _ hb

theorem transformAll_sync (T : Tf K) : ∀ l : List (Asm K P Q), ∀ a ∈ Asm.transformAll T l, InSync T a
  | [], a, h => by simp [Asm.transformAll] at h
  | b :: l, a, h => by
    unfold Asm.transformAll at h
    rcases List.mem_cons.1 h with rfl | h
    · exact transform_sync T b
    · exact transformAll_sync T l a h
end

theorem obj_transform_relative (T : Tf K) (o : ObjNode K P Q) : (o.transformChildren T).relative = o.relative := by
  unfold ObjNode.transformChildren ObjNode.relative
  simp [SurfNode.transformFrame]

mutual
theorem transform_relative (T : Tf K) : ∀ a : Asm K P Q, (a.transformChildren T).relative = a.relative
  | .mk own subs objs => by
    unfold Asm.transformChildren Asm.relative
    rw [transformAll_relative (T * own) subs, List.map_map]
    congr 1
    apply List.map_congr_left
    intro o _
    exact obj_transform_relative _ _

theorem transformAll_relative (T : Tf K) : ∀ l : List (Asm K P Q),
    Asm.relativeAll (Asm.transformAll T l) = Asm.relativeAll l
  | [] => rfl
  | b :: l => by
    unfold Asm.transformAll Asm.relativeAll
    rw [transform_relative T b, transformAll_relative T l]
end

theorem relativeAll_eq (l : List (Asm K P Q)) : Asm.relativeAll l = l.map Asm.relative := by
  induction l with
  | nil => rfl
  | cons a l ih => unfold Asm.relativeAll; rw [ih, List.map_cons]

theorem getObjectsAll_eq (l : List (Asm K P Q)) : Asm.getObjectsAll l = l.flatMap Asm.getObjects := by
  induction l with
  | nil => rfl
  | cons a l ih => unfold Asm.getObjectsAll; rw [ih, List.flatMap_cons]

/-! ## C22 -/

/-- C22: `transform_children(T)` on any tree puts every surface below at the product of `T` and the
transforms on its path, and changes no relative transform. -/
theorem C22_transform_children (T : Tf K) (a : Asm K P Q) :
    InSync T (a.transformChildren T) ∧ (a.transformChildren T).relative = a.relative :=
  ⟨transform_sync T a, transform_relative T a⟩

/-- C22: constructing an assembly from any children puts all surfaces below at the right place,
whatever the uninitialised memory held. -/
theorem C22_construct (objs : List (ObjNode K P Q)) (subs : List (Asm K P Q)) (loc : V3 K) (rot junk : M3 K) :
    InSync 1 (Asm.new objs subs loc rot junk) ∧
    (Asm.new objs subs loc rot junk).relative =
      .mk ⟨rot, loc⟩ (subs.map Asm.relative) (objs.map ObjNode.relative) := by
  constructor
  · exact transform_sync 1 _
  · unfold Asm.new Asm.set Asm.transformChildren
    simp only [Change.apply]
    unfold Asm.relative
    rw [transformAll_relative, transformAll_relative, relativeAll_eq, List.map_map, List.map_map]
    congr 1
    apply List.map_congr_left
    intro o _
    simp only [Function.comp, obj_transform_relative]

/-- C22: moving the root puts all surfaces below at the right place and changes no other relative
transform. -/
theorem C22_set (c : Change K) (own : Tf K) (subs : List (Asm K P Q)) (objs : List (ObjNode K P Q)) :
    InSync 1 ((Asm.mk own subs objs).set c) ∧
    ((Asm.mk own subs objs).set c).relative =
      .mk (c.apply own) (subs.map Asm.relative) (objs.map ObjNode.relative) := by
  refine ⟨transform_sync 1 _, ?_⟩
  unfold Asm.set
  rw [transform_relative]
  unfold Asm.relative
  rw [relativeAll_eq]

/-- C22: adding an object sets that object's transform only. -/
theorem C22_add_object (o : ObjNode K P Q) (t : Tf K) (own : Tf K) (subs : List (Asm K P Q))
    (objs : List (ObjNode K P Q)) :
    InSync 1 ((Asm.mk own subs objs).addObject o t) ∧
    ((Asm.mk own subs objs).addObject o t).relative =
      .mk own (subs.map Asm.relative) (objs.map ObjNode.relative ++ [{ o.relative with own := t }]) := by
  refine ⟨transform_sync 1 _, ?_⟩
  unfold Asm.addObject
  rw [transform_relative]
  unfold Asm.relative
  rw [relativeAll_eq, List.map_append]
  unfold ObjNode.set
  rw [List.map_singleton, obj_transform_relative]
  rfl

/-- C22: adding an assembly sets that assembly's transform only. -/
theorem C22_add_assembly (b : Asm K P Q) (t own : Tf K) (subs : List (Asm K P Q))
    (objs : List (ObjNode K P Q)) :
    InSync 1 (Asm.addAssembly b t (.mk own subs objs)) ∧
    (Asm.addAssembly b t (.mk own subs objs)).relative =
      .mk own (subs.map Asm.relative ++ [.mk t b.relative.subs b.relative.objs]) (objs.map ObjNode.relative) := by
  refine ⟨transform_sync 1 _, ?_⟩
  unfold Asm.addAssembly
  rw [transform_relative]
  cases b with
  | mk o s ob =>
    unfold Asm.relative
    rw [relativeAll_eq, List.map_append, List.map_singleton, (C22_set _ _ _ _).2]
    simp [Change.apply, Asm.relative, Asm.subs, Asm.objs, relativeAll_eq]

/-- C22: after any history of calls on any components, one call on the root puts everything right. -/
theorem C22_history (calls : List (Call K P Q)) (c : Call K P Q) {T : Tf K} (hc : c.onRoot = some T)
    (a : Asm K P Q) : InSync T (runCalls (calls ++ [c]) a) := by
  unfold runCalls
  rw [List.foldl_append, List.foldl_cons, List.foldl_nil]
  generalize calls.foldl (fun a c => c.apply a) a = b
  cases b with
  | mk own subs objs =>
    unfold Call.onRoot at hc
    split at hc <;> simp only [Option.some.injEq, reduceCtorEq] at hc
    · subst hc; exact transform_sync 1 _
    · subst hc; exact transform_sync 1 _
    · subst hc; exact transform_sync 1 _
    · subst hc; exact transform_sync _ _

/-! ## C23 -/

/-- A move of an object at the top level of an assembly. -/
theorem modifyAt_sync {f : Asm K P Q → Asm K P Q} {path : List Nat} {T : Tf K} {a : Asm K P Q}
    (hs : InSync T a) (hf : ∀ b T', a.at path = some b → a.above T path = some T' → InSync T' b → InSync T' (f b)) :
    InSync T (Asm.modifyAt f path a) := by
  induction path generalizing T a with
  | nil => exact hf a T rfl rfl hs
  | cons i path ih =>
    cases a with
    | mk own subs objs =>
      unfold Asm.modifyAt
      intro p s hb
      cases hb with
      | object ho hso => exact hs _ _ (.object ho hso)
      | @sub _ _ _ a' p' _ ha hb =>
        rcases mem_modifyNth ha with ha | ⟨y, hy, rfl⟩
        · exact hs _ _ (.sub ha hb)
        · refine ih (T := T * own) (a := y) ?_ ?_ _ _ hb
          · intro q s' hq
            exact hs _ _ (.sub (List.mem_of_getElem? hy) hq)
          · intro b T' hat habove
            apply hf b T'
            · simp only [Asm.at, hy]; exact hat
            · simp only [Asm.above, hy]; exact habove

/-- C23, partial: moving an assembly (or adding to it) keeps all frames right if the assemblies above
it compose to the identity.  Missing: other positions, see `C23_counterexample`. -/
theorem C23_assembly_partial {a : Asm K P Q} (hs : InSync 1 a) {path : List Nat} (habove : a.above 1 path = some 1)
    (c : Change K) (o : ObjNode K P Q) (b : Asm K P Q) (t : Tf K) :
    InSync 1 ((Call.setAsm path c).apply a) ∧ InSync 1 ((Call.addObj path o t).apply a) ∧
    InSync 1 ((Call.addAsm path b t).apply a) := by
  refine ⟨modifyAt_sync hs ?_, modifyAt_sync hs ?_, modifyAt_sync hs ?_⟩
  all_goals
    intro x T' hx hT' _
    rw [habove] at hT'
    cases hT'
    cases x
    exact transform_sync 1 _

/-- C23, partial: moving an object (or adding a surface to it) keeps all frames right if the
assemblies above the object compose to the identity. -/
theorem C23_object_partial {a : Asm K P Q} (hs : InSync 1 a) {path : List Nat} {b : Asm K P Q} {T : Tf K}
    (hat : a.at path = some b) (habove : a.above 1 path = some T) (hT : T * b.own = 1) (i : Nat)
    (c : Change K) (s : SurfNode K P) :
    InSync 1 ((Call.setObj path i c).apply a) ∧ InSync 1 ((Call.addSurf path i s).apply a) := by
  have key : ∀ f : ObjNode K P Q → ObjNode K P Q, (∀ o, (f o).InSync 1) →
      InSync 1 (Asm.modifyAt (Asm.modifyObj f i) path a) := by
    intro f hf
    refine modifyAt_sync hs ?_
    intro x T' hx hT' hsx
    rw [hat] at hx
    rw [habove] at hT'
    cases hx
    cases hT'
    cases b with
    | mk own subs objs =>
      intro p s hb
      cases hb with
      | @object _ _ _ o _ ho hso =>
        rcases mem_modifyNth ho with ho | ⟨y, hy, rfl⟩
        · exact hsx _ _ (.object ho hso)
        · have := hf y s hso
          rw [this]
          have hT'' : T * own = 1 := hT
          show _ = T * own * _ * _
          rw [hT'']
      | sub ha hb => exact hsx _ _ (.sub ha hb)
  constructor
  · exact key _ fun o => obj_transform_sync 1 _
  · exact key _ fun o => obj_transform_sync 1 _

/-- C23, the repair: after any history, `transform_children()` of the root puts everything right. -/
theorem C23_repair (calls : List (Call K P Q)) (a : Asm K P Q) :
    InSync 1 (runCalls (calls ++ [.transformChildren [] 1]) a) :=
  C22_history calls _ rfl a

/-- A tree of depth two: a root at (1, 0, 0), in it an assembly at (0, 1, 0), in it an object with a
surface, all placed by the constructor. -/
def Examples.nested : Asm ℚ Unit Unit :=
  Asm.new [] [Asm.new [ObjNode.new [⟨1, 1, ()⟩] 1 ()] [] ⟨0, 1, 0⟩ 1 1] ⟨1, 0, 0⟩ 1 1

def firstFrame (a : Asm K P Q) : Option (V3 K) := (a.getObjects.flatMap ObjNode.surfs).head?.map fun s => s.temp.loc

/-- C23 fails: moving the inner assembly to (0, 2, 0) puts the surface at (0, 2, 0) instead of (1, 2, 0),
moving the object or the surface loses the assemblies above or does nothing. -/
theorem C23_counterexample :
    firstFrame Examples.nested = some ⟨1, 1, 0⟩ ∧
    firstFrame ((Call.setAsm [0] (.location ⟨0, 2, 0⟩)).apply Examples.nested) = some ⟨0, 2, 0⟩ ∧
    firstFrame ((Call.setObj [0] 0 (.location ⟨0, 0, 1⟩)).apply Examples.nested) = some ⟨0, 0, 1⟩ ∧
    firstFrame ((Call.setSurf [0] 0 0 (.location ⟨0, 0, 1⟩)).apply Examples.nested) = some ⟨1, 1, 0⟩ ∧
    ¬ InSync 1 ((Call.setAsm [0] (.location ⟨0, 2, 0⟩)).apply Examples.nested) := by
  refine ⟨by decide +kernel, by decide +kernel, by decide +kernel, by decide +kernel, ?_⟩
  intro h
  have := h _ _ (.sub (List.mem_cons_self) (.object (List.mem_cons_self) (List.mem_cons_self)))
  revert this
  decide +kernel

/-- The hypotheses of the partial theorems are met by a move two levels down, below assemblies at
the origin. -/
example : ∃ a : Asm ℚ Unit Unit, InSync 1 a ∧ a.above 1 [0] = some 1 ∧
    InSync 1 ((Call.setAsm [0] (.location ⟨0, 2, 0⟩)).apply a) ∧
    firstFrame ((Call.setAsm [0] (.location ⟨0, 2, 0⟩)).apply a) = some ⟨0, 2, 0⟩ := by
  refine ⟨Asm.new [] [Asm.new [ObjNode.new [⟨1, 1, ()⟩] 1 ()] [] ⟨0, 1, 0⟩ 1 1] 0 1 1, ?_, ?_, ?_, ?_⟩
  · exact (C22_construct _ _ _ _ _).1
  · decide +kernel
  · exact (C23_assembly_partial (C22_construct _ _ _ _ _).1 (by decide +kernel) _
      (ObjNode.new [] 1 ()) (Asm.new [] [] 0 1 1) 1).1
  · decide +kernel

/-! ## C19 for trees -/

/-- C19: the objects of the sub-assemblies, in order, then the local ones. -/
theorem C19_objects (own : Tf K) (subs : List (Asm K P Q)) (objs : List (ObjNode K P Q)) :
    (Asm.mk own subs objs).getObjects = subs.flatMap Asm.getObjects ++ objs := by
  unfold Asm.getObjects
  rw [getObjectsAll_eq]

/-- C19: `get_surfaces()` is the concatenation of the objects' surfaces in `get_objects()` order; it
raises `TypeError` exactly if there is no object. -/
theorem C19_surfaces (a : Asm K P Q) :
    (a.getObjects = [] → a.getSurfaces = .error .type) ∧
    (a.getObjects ≠ [] → a.getSurfaces = .ok (a.getObjects.flatMap ObjNode.surfs)) := by
  unfold Asm.getSurfaces
  constructor
  · intro h; rw [h]; rfl
  · intro h
    have : a.getObjects.isEmpty = false := by
      cases hl : a.getObjects with
      | nil => exact absurd hl h
      | cons => rfl
    rw [this]
    rfl

/-- C19: an object is listed if and only if it sits somewhere in the tree. -/
theorem C19_complete (a : Asm K P Q) (o : ObjNode K P Q) :
    o ∈ a.getObjects ↔ ∃ path b, a.at path = some b ∧ o ∈ b.objs := by
  constructor
  · have : ∀ a : Asm K P Q, o ∈ a.getObjects → ∃ path b, a.at path = some b ∧ o ∈ b.objs := by
      intro a
      induction a using Asm.rec (motive_2 := fun l => ∀ a ∈ l, o ∈ a.getObjects → ∃ path b, a.at path = some b ∧ o ∈ b.objs) with
      | mk own subs objs ih =>
        intro h
        rw [C19_objects] at h
        rcases List.mem_append.1 h with h | h
        · obtain ⟨b, hb, hob⟩ := List.mem_flatMap.1 h
          obtain ⟨path, c, hc, hoc⟩ := ih b hb hob
          obtain ⟨i, hi⟩ := List.mem_iff_getElem?.1 hb
          refine ⟨i :: path, c, ?_, hoc⟩
          simp only [Asm.at, hi]
          exact hc
        · exact ⟨[], _, rfl, h⟩
      | nil => rename_i hx _; simp at hx
      | cons b l ihb ihl =>
        rename_i x hx hox
        rcases List.mem_cons.1 hx with rfl | hx
        · exact ihb hox
        · exact ihl x hx hox
    exact this a
  · rintro ⟨path, b, hb, hob⟩
    induction path generalizing a with
    | nil =>
      simp only [Asm.at, Option.some.injEq] at hb
      subst hb
      cases a with
      | mk own subs objs => rw [C19_objects]; exact List.mem_append_right _ hob
    | cons i path ih =>
      cases a with
      | mk own subs objs =>
        simp only [Asm.at] at hb
        split at hb
        · simp at hb
        · rename_i x hx
          rw [C19_objects]
          exact List.mem_append_left _ (List.mem_flatMap.2 ⟨x, List.mem_of_getElem? hx, ih x hb⟩)

/-- C19: `add_surface` appends: the object's earlier surfaces keep their positions, transforms and contents, the
new one comes last, and all are placed by the object's transform. -/
theorem C19_add_surface (s : SurfNode K P) (o : ObjNode K P Q) :
    ((o.addSurface s).surfs.map fun x => (x.own, x.data)) =
      (o.surfs.map fun x => (x.own, x.data)) ++ [(s.own, s.data)] ∧
    (o.addSurface s).InSync 1 ∧ (o.addSurface s).own = o.own ∧ (o.addSurface s).data = o.data := by
  refine ⟨?_, obj_transform_sync 1 _, rfl, rfl⟩
  simp only [ObjNode.addSurface, ObjNode.transformChildren, SurfNode.transformFrame, List.map_append, List.map_map,
    List.map_cons, List.map_nil]
  rfl

mutual
theorem relative_getObjects : ∀ a : Asm K P Q, a.relative.getObjects = a.getObjects.map ObjNode.relative
  | .mk own subs objs => by
    unfold Asm.relative Asm.getObjects
    rw [relativeAll_getObjects subs, List.map_append]

theorem relativeAll_getObjects : ∀ l : List (Asm K P Q),
    Asm.getObjectsAll (Asm.relativeAll l) = (Asm.getObjectsAll l).map ObjNode.relative
  | [] => rfl
  | a :: l => by
    unfold Asm.relativeAll Asm.getObjectsAll
    rw [relative_getObjects a, relativeAll_getObjects l, List.map_append]
end

theorem flatMap_relative (l : List (Asm K P Q)) :
    (l.map Asm.relative).flatMap Asm.getObjects = (l.flatMap Asm.getObjects).map ObjNode.relative := by
  rw [← relativeAll_eq, ← getObjectsAll_eq, ← getObjectsAll_eq, relativeAll_getObjects]

/-- C19: an added object gets the last number; the numbers of all other objects stay.  (`relative` forgets the frames
used for tracing, which the call recomputes.) -/
theorem C19_add_object (a : Asm K P Q) (o : ObjNode K P Q) (t : Tf K) :
    ((a.addObject o t).getObjects.map ObjNode.relative) =
      a.getObjects.map ObjNode.relative ++ [{ o.relative with own := t }] := by
  cases a with
  | mk own subs objs =>
    rw [← relative_getObjects, (C22_add_object o t own subs objs).2, C19_objects, C19_objects, List.map_append,
      ← List.append_assoc, flatMap_relative]

/-- C19: the objects of an added sub-assembly come after those of the earlier sub-assemblies and before the local
objects. -/
theorem C19_add_assembly (b : Asm K P Q) (t own : Tf K) (subs : List (Asm K P Q)) (objs : List (ObjNode K P Q)) :
    ((Asm.addAssembly b t (.mk own subs objs)).getObjects.map ObjNode.relative) =
      (subs.flatMap Asm.getObjects).map ObjNode.relative ++ b.getObjects.map ObjNode.relative ++
        objs.map ObjNode.relative := by
  rw [← relative_getObjects, (C22_add_assembly b t own subs objs).2, C19_objects, List.flatMap_append,
    List.flatMap_singleton, flatMap_relative, ← relative_getObjects b]
  cases b with
  | mk o s ob =>
    unfold Asm.relative
    simp only [C19_objects, Asm.subs, Asm.objs]

section
variable [LinearOrder K] [IsStrictOrderedRing K] {E σ : Type _}

/-- C19: the engine's surfaces are those of `get_surfaces()`, in order, and its number `k` is
surface `k - surfs_until_obj[o]` of `get_objects()[o]`, `o = surf_ownership[k]`, for any nesting. -/
theorem C19_tree (a : Asm K (Geometry K E × Optics σ K E)
    ((Bundle K E → Nat → List Bool) × (Bundle K E → Nat → List (List Bool)))) :
    getSurfaces a.scene = a.getSurfaces.map (fun l => l.map SurfNode.surf) ∧
    ∀ surfaces, a.getSurfaces = .ok surfaces → ∀ (k : Nat) s, surfaces[k]? = some s →
      ∃ o obj before, (surfOwnership a.scene)[k]? = some o ∧ a.getObjects[o]? = some obj ∧
        (surfsUntilObj a.scene)[o]? = some before ∧ before ≤ k ∧ obj.surfs[k - before]? = some s := by
  constructor
  · unfold getSurfaces Asm.getSurfaces Asm.scene
    rw [List.isEmpty_map]
    split
    · rfl
    · simp only [Except.map, List.flatMap_map, List.map_flatMap]
      rfl
  · intro surfaces hs k s hk
    have hsurf : surfaces = a.getObjects.flatMap ObjNode.surfs := by
      unfold Asm.getSurfaces at hs
      split at hs
      · simp at hs
      · simpa using hs.symm
    subst hsurf
    have hlen : k < (a.getObjects.flatMap ObjNode.surfs).length := (List.getElem?_eq_some_iff.1 hk).1
    have hlen' : k < (a.scene.flatMap Obj.surfs).length := by
      simpa [Asm.scene, List.length_flatMap, List.map_map, Function.comp_def] using hlen
    obtain ⟨o, obj, before, h1, h2, h3, h4, h5⟩ :=
      C19_numbering a.scene k _ (List.getElem?_eq_getElem hlen')
    have h2' : ∃ obj', a.getObjects[o]? = some obj' := by
      unfold Asm.scene at h2
      rw [List.getElem?_map] at h2
      cases hx : a.getObjects[o]? with
      | none => rw [hx] at h2; simp at h2
      | some x => exact ⟨x, rfl⟩
    obtain ⟨obj', h2'⟩ := h2'
    refine ⟨o, obj', before, h1, h2', h3, h4, ?_⟩
    have hobj : obj.surfs.length = obj'.surfs.length := by
      unfold Asm.scene at h2
      rw [List.getElem?_map, h2'] at h2
      cases h2
      simp
    have hi : k - before < obj'.surfs.length := by
      rw [← hobj]; exact (List.getElem?_eq_some_iff.1 h5).1
    have := flatMap_getElem? ObjNode.surfs a.getObjects o (k - before) obj' h2' hi
    have hb : before = ((a.getObjects.map fun o => o.surfs.length).take o).sum := by
      have hac := accumulate_spec (surfsPerObj a.scene) 0 o (by
        have := (List.getElem?_eq_some_iff.1 h2').1
        simp [surfsPerObj, Asm.scene]; omega)
      rw [Nat.zero_add] at hac
      have hx : (surfsUntilObj a.scene)[o]? = some (((surfsPerObj a.scene).take o).sum) := hac
      rw [h3] at hx
      cases hx
      simp [surfsPerObj, Asm.scene, Function.comp_def]
    rw [← hb] at this
    rw [show before + (k - before) = k by omega, hk] at this
    exact this.symm

end

/-- A call on the outermost assembly sets everything right again, and so does the start of a trace. -/
example : InSync ⟨1, ⟨0, 0, 7⟩⟩ (runCalls ([.setAsm [0] (.location ⟨0, 2, 0⟩)] ++ [.transformChildren [] ⟨1, ⟨0, 0, 7⟩⟩]) Examples.nested) ∧
    InSync 1 (runCalls ([.setAsm [0] (.location ⟨0, 2, 0⟩)] ++ [.transformChildren [] 1]) Examples.nested) :=
  ⟨C22_history _ _ rfl _, C23_repair _ _⟩

/-- An object in an assembly at the origin can be moved. -/
example : InSync 1 ((Call.setObj [] 0 (.location ⟨0, 0, 1⟩)).apply
    (Asm.new [ObjNode.new [⟨1, 1, ()⟩] 1 ()] [] 0 1 1 : Asm ℚ Unit Unit)) :=
  (C23_object_partial (C22_construct _ _ _ _ _).1 (path := []) (T := 1) rfl rfl (by decide +kernel) 0 _ ⟨1, 1, ()⟩).1

end Tracer
