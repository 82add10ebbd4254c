import Verif.Model.Vec
import Verif.Model.Np
import Mathlib.Logic.Function.Basic

/-!
Components as Python objects that may be in several places.  `Model/Assembly.lean` describes an assembly as a tree; here assemblies, objects, surfaces and
the lists that hold them are found by their addresses, so that a component may be added twice, an assembly may contain itself, and two assemblies
may have the same list.  Simplifications: transforms are values; boundaries are left out; the recursion limit of Python counts the
nested calls of `transform_children` or `get_objects` of assemblies only; nothing is said about the components after a call that raised.
-/

namespace Tracer.Graph

variable {K : Type _}

/-- An `Assembly` (assembly.py:17-34): its transform, and the addresses of the lists `_assemblies` and `_objects`. -/
structure AsmCell (K : Type _) where
  own : Tf K
  subs : Nat
  objs : Nat

/-- An `AssembledObject` (object.py:15-38): its transform, and the address of the list `surfaces`. -/
structure ObjCell (K : Type _) where
  own : Tf K
  surfs : Nat

/-- A `Surface` (has_frame.py:23-34): `_transform` and `_temp_frame`. -/
structure SurfCell (K : Type _) where
  own : Tf K
  temp : Tf K

/-- The components and lists that exist.  The lists hold addresses of assemblies, of objects or of surfaces (assembly.py:28, 32; object.py:26-29; has_frame.py:30-34). -/
structure Heap (K : Type _) where
  asms : Nat → AsmCell K
  objs : Nat → ObjCell K
  surfs : Nat → SurfCell K
  lists : Nat → List Nat

namespace Heap

/-- `get_assemblies()` (assembly.py:43-44) -/
def subsOf (h : Heap K) (a : Nat) : List Nat := h.lists (h.asms a).subs
/-- `get_local_objects()` (assembly.py:36-41) -/
def objsOf (h : Heap K) (a : Nat) : List Nat := h.lists (h.asms a).objs
/-- `AssembledObject.get_surfaces()` (object.py:40-41) -/
def surfsOf (h : Heap K) (o : Nat) : List Nat := h.lists (h.objs o).surfs

/-- `list.append` (assembly.py:77, 91; object.py:47) -/
def append (h : Heap K) (l x : Nat) : Heap K := { h with lists := Function.update h.lists l (h.lists l ++ [x]) }

section
variable [Field K]

/-- `transform_frame(transform)` (has_frame.py:69-74) -/
def transformFrame (T : Tf K) (s : Nat) (h : Heap K) : Heap K :=
  { h with surfs := Function.update h.surfs s { h.surfs s with temp := T * (h.surfs s).own } }

/-- `AssembledObject.transform_children(assembly_transform)` (object.py:61-65) -/
def transformObj (T : Tf K) (o : Nat) (h : Heap K) : Heap K :=
  (h.surfsOf o).foldl (fun h' s => h'.transformFrame (T * (h.objs o).own) s) h

/-- `Assembly.transform_children(assembly_transform)` (assembly.py:123-133): sub-assemblies first, then objects.  `none`: `RuntimeError`, since calls were nested deeper than
the limit. -/
def transformAsm : Nat → Tf K → Nat → Heap K → Option (Heap K)
  | 0, _, _, _ => none
  | n + 1, T, a, h =>
    ((h.subsOf a).foldlM (fun h' b => transformAsm n (T * (h.asms a).own) b h') h).map fun h1 =>
      (h.objsOf a).foldl (fun h' o => h'.transformObj (T * (h.asms a).own) o) h1

/-- `Assembly.set_transform(transform)` (assembly.py:119-121) -/
def setAsm (n a : Nat) (t : Tf K) (h : Heap K) : Option (Heap K) :=
  transformAsm n 1 a { h with asms := Function.update h.asms a { h.asms a with own := t } }

/-- `AssembledObject.set_transform(transform)` (inherited, assembly.py:119-121, with object.py:61-65) -/
def setObj (o : Nat) (t : Tf K) (h : Heap K) : Heap K :=
  transformObj 1 o { h with objs := Function.update h.objs o { h.objs o with own := t } }

/-- `add_object(object, transform)` (assembly.py:66-79) -/
def addObject (n a o : Nat) (t : Tf K) (h : Heap K) : Option (Heap K) :=
  transformAsm n 1 a (setObj o t (h.append (h.asms a).objs o))

/-- `add_assembly(assembly, transform)` (assembly.py:81-93) -/
def addAssembly (n a b : Nat) (t : Tf K) (h : Heap K) : Option (Heap K) :=
  (setAsm n b t (h.append (h.asms a).subs b)).bind (transformAsm n 1 a)

end

/-- A list returned by a method: one that exists already, or a new one (assembly.py:41, 44, 51, 63; object.py:41). -/
inductive Ref where
  | addr (l : Nat)
  | fresh (l : List Nat)
  deriving DecidableEq, Repr

/-- The contents of a returned list (assembly.py:41, 44, 51, 63; object.py:41). -/
def contents (h : Heap K) : Ref → List Nat
  | .addr l => h.lists l
  | .fresh l => l

/-- What the caller's `append` to a returned list does to the components. The lists returned are those of assembly.py:41, 44, 51, 63 and object.py:41. -/
def appendTo (h : Heap K) (r : Ref) (x : Nat) : Heap K :=
  match r with
  | .addr l => h.append l x
  | .fresh _ => h

/-- `reduce(operator.add, lists)` (assembly.py:51, 63): a single list is returned as it is, no list is a `TypeError`. -/
def reduceAdd (h : Heap K) : List Ref → Except Err Ref
  | [] => .error .type
  | [r] => .ok r
  | r :: rs => .ok (.fresh (h.contents r ++ rs.flatMap h.contents))

/-- `get_objects()` (assembly.py:46-52), `none` as above. -/
def getObjects : Nat → Heap K → Nat → Option (Except Err Ref)
  | 0, _, _ => none
  | n + 1, h, a =>
    ((h.subsOf a).mapM fun b => getObjects n h b).map fun rs =>
      match rs.mapM id with
      | .error e => .error e
      | .ok rs => h.reduceAdd (rs ++ [.addr (h.asms a).objs])

/-- `get_surfaces()` (assembly.py:54-64), `none` as above. -/
def getSurfaces (n : Nat) (h : Heap K) (a : Nat) : Option (Except Err Ref) :=
  (getObjects n h a).map fun r =>
    match r with
    | .error e => .error e
    | .ok r => h.reduceAdd ((h.contents r).map fun o => .addr (h.objs o).surfs)

end Heap
end Tracer.Graph
