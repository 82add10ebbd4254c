import Verif.Model.Surface

/-!
Model of `assembly.py`, `object.py` and of the frames of `has_frame.py` as values.

An assembly is a tree.  Simplifications: a component belongs to one assembly only (the Python code
does not prevent adding it twice, see `Model/Graph.lean`), arrays are values (`Model/Frames.lean` treats sharing of arrays),
boundaries are left out (they never influence a trace; `Model/Boundary.lean` has their geometry).
-/

namespace Tracer

variable {K : Type _} [Field K]

/-- A `Surface` (surface.py, has_frame.py): its transform relative to the object (`_transform`), its frame
for tracing (`_temp_frame`), and everything else. -/
structure SurfNode (K P : Type _) where
  own : Tf K
  temp : Tf K
  data : P

/-- An `AssembledObject` (object.py:15-38): transform, surfaces, and everything else (its policies). -/
structure ObjNode (K P Q : Type _) where
  own : Tf K
  surfs : List (SurfNode K P)
  data : Q

/-- An `Assembly` (assembly.py:17-34): transform, sub-assemblies and local objects. -/
inductive Asm (K P Q : Type _) where
  | mk (own : Tf K) (subs : List (Asm K P Q)) (objs : List (ObjNode K P Q))

variable {P Q : Type _}

namespace SurfNode

/-- `transform_frame(transform)` (has_frame.py:69-74) -/
def transformFrame (T : Tf K) (s : SurfNode K P) : SurfNode K P := { s with temp := T * s.own }

end SurfNode

namespace ObjNode

/-- `AssembledObject.transform_children` (object.py:61-65) -/
def transformChildren (T : Tf K) (o : ObjNode K P Q) : ObjNode K P Q :=
  { o with surfs := o.surfs.map (·.transformFrame (T * o.own)) }

end ObjNode

namespace Asm

/-- `get_transform()` of an assembly (has_frame.py:66-67) -/
def own : Asm K P Q → Tf K
  | mk own _ _ => own

/-- `get_assemblies()` (assembly.py:43-44) -/
def subs : Asm K P Q → List (Asm K P Q)
  | mk _ subs _ => subs

/-- `get_local_objects()` (assembly.py:36-41) -/
def objs : Asm K P Q → List (ObjNode K P Q)
  | mk _ _ objs => objs

mutual
/-- `Assembly.transform_children(assembly_transform)` (assembly.py:123-133) -/
def transformChildren (T : Tf K) : Asm K P Q → Asm K P Q
  | mk own subs objs =>
    mk own (transformAll (T * own) subs) (objs.map (·.transformChildren (T * own)))

/-- The loop over the sub-assemblies (assembly.py:132). -/
def transformAll (T : Tf K) : List (Asm K P Q) → List (Asm K P Q)
  | [] => []
  | a :: l => transformChildren T a :: transformAll T l
end

mutual
/-- `get_objects()` (assembly.py:46-52) -/
def getObjects : Asm K P Q → List (ObjNode K P Q)
  | mk _ subs objs => getObjectsAll subs ++ objs

/-- The lists of the sub-assemblies, joined (assembly.py:51-52). -/
def getObjectsAll : List (Asm K P Q) → List (ObjNode K P Q)
  | [] => []
  | a :: l => getObjects a ++ getObjectsAll l
end

/-- `get_surfaces()` (assembly.py:54-64): `reduce` of an empty list raises `TypeError`. -/
def getSurfaces (a : Asm K P Q) : Except Err (List (SurfNode K P)) :=
  if a.getObjects.isEmpty then .error .type else .ok (a.getObjects.flatMap ObjNode.surfs)

end Asm

/-- `set_transform`, `set_location` and `set_rotation` (has_frame.py:42-64), with the new value. -/
inductive Change (K : Type _) where
  | transform (t : Tf K)
  | location (v : V3 K)
  | rotation (m : M3 K)

/-- The new relative transform. `_transform` after has_frame.py:47, 54 or 62. -/
def Change.apply : Change K → Tf K → Tf K
  | .transform t, _ => t
  | .location v, old => { old with loc := v }
  | .rotation m, old => { old with rot := m }

/-- `Surface.set_...` (surface.py inherits has_frame.py:42-64): only the relative transform.
Simplification: before the surface is placed for the first time, `_temp_frame` is the same array as
`_transform` and would follow (has_frame.py:34), see `Model/Frames.lean`. -/
def SurfNode.set (c : Change K) (s : SurfNode K P) : SurfNode K P := { s with own := c.apply s.own }

/-- `AssembledObject.set_...` (inherited, assembly.py:95-121, with object.py:61-65). -/
def ObjNode.set (c : Change K) (o : ObjNode K P Q) : ObjNode K P Q :=
  ({ o with own := c.apply o.own } : ObjNode K P Q).transformChildren 1

/-- `AssembledObject.add_surface` (object.py:43-48) -/
def ObjNode.addSurface (s : SurfNode K P) (o : ObjNode K P Q) : ObjNode K P Q :=
  ({ o with surfs := o.surfs ++ [s] } : ObjNode K P Q).transformChildren 1

/-- `AssembledObject(surfs, transform=t)` (object.py:15-38) -/
def ObjNode.new (surfs : List (SurfNode K P)) (t : Tf K) (data : Q) : ObjNode K P Q :=
  (⟨t, surfs, data⟩ : ObjNode K P Q).transformChildren 1

namespace Asm

/-- `Assembly.set_...` (assembly.py:95-121) -/
def set (c : Change K) : Asm K P Q → Asm K P Q
  | mk own subs objs => (mk (c.apply own) subs objs).transformChildren 1

/-- `add_object(object, transform)` (assembly.py:66-79) -/
def addObject (o : ObjNode K P Q) (t : Tf K) : Asm K P Q → Asm K P Q
  | mk own subs objs => (mk own subs (objs ++ [o.set (.transform t)])).transformChildren 1

/-- `add_assembly(assembly, transform)` (assembly.py:81-93) -/
def addAssembly (a : Asm K P Q) (t : Tf K) : Asm K P Q → Asm K P Q
  | mk own subs objs => (mk own (subs ++ [a.set (.transform t)]) objs).transformChildren 1

/-- `Assembly(objects, subassemblies, location, rotation)` (assembly.py:17-34 with
has_frame.py:23-34): `set_location` moves the children with the uninitialised rotation `junk`
still in place, then `set_rotation` moves them again. -/
def new (objs : List (ObjNode K P Q)) (subs : List (Asm K P Q)) (loc : V3 K) (rot junk : M3 K) : Asm K P Q :=
  ((mk ⟨junk, 0⟩ subs objs).set (.location loc)).set (.rotation rot)

end Asm

/-- Modify the `i`-th entry of a list, if there is one. Stands for the call on a component found in `_assemblies`, `_objects` or `surfaces` (assembly.py:28, 32; object.py:26-29), which changes it in place. -/
def modifyNth {α : Type _} (f : α → α) : Nat → List α → List α
  | _, [] => []
  | 0, a :: l => f a :: l
  | i + 1, a :: l => a :: modifyNth f i l

namespace Asm

/-- Modify the sub-assembly at a path (positions in `get_assemblies()`, from the root down). Assemblies are found by assembly.py:43-44. -/
def modifyAt (f : Asm K P Q → Asm K P Q) : List Nat → Asm K P Q → Asm K P Q
  | [], a => f a
  | i :: path, mk own subs objs => mk own (modifyNth (modifyAt f path) i subs) objs

/-- Modify a local object of an assembly. Objects are found by assembly.py:36-41. -/
def modifyObj (f : ObjNode K P Q → ObjNode K P Q) (i : Nat) : Asm K P Q → Asm K P Q
  | mk own subs objs => mk own subs (modifyNth f i objs)

end Asm

/-- A call on some component of a tree: the component is found by the path of its assembly, the
position of the object in it and the position of the surface in the object. The calls are those of has_frame.py:42-64, assembly.py:66-133 and object.py:43-65. -/
inductive Call (K P Q : Type _) where
  | setAsm (path : List Nat) (c : Change K)
  | setObj (path : List Nat) (i : Nat) (c : Change K)
  | setSurf (path : List Nat) (i j : Nat) (c : Change K)
  | addObj (path : List Nat) (o : ObjNode K P Q) (t : Tf K)
  | addAsm (path : List Nat) (a : Asm K P Q) (t : Tf K)
  | addSurf (path : List Nat) (i : Nat) (s : SurfNode K P)
  | transformChildren (path : List Nat) (T : Tf K)

/-- The tree after a call. The calls are those of has_frame.py:42-64, assembly.py:66-133 and object.py:43-65. -/
def Call.apply : Call K P Q → Asm K P Q → Asm K P Q
  | .setAsm path c => Asm.modifyAt (Asm.set c) path
  | .setObj path i c => Asm.modifyAt (Asm.modifyObj (ObjNode.set c) i) path
  | .setSurf path i j c => Asm.modifyAt (Asm.modifyObj (fun o => { o with surfs := modifyNth (SurfNode.set c) j o.surfs }) i) path
  | .addObj path o t => Asm.modifyAt (Asm.addObject o t) path
  | .addAsm path a t => Asm.modifyAt (Asm.addAssembly a t) path
  | .addSurf path i s => Asm.modifyAt (Asm.modifyObj (ObjNode.addSurface s) i) path
  | .transformChildren path T => Asm.modifyAt (Asm.transformChildren T) path

/-- The tree after a history of calls. A user's program that calls has_frame.py:42-64, assembly.py:66-133 and object.py:43-65. -/
def runCalls (calls : List (Call K P Q)) (a : Asm K P Q) : Asm K P Q := calls.foldl (fun a c => c.apply a) a

end Tracer
