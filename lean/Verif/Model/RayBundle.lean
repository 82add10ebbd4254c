import Verif.Model.Np
import Mathlib.Data.List.Dedup

/-!
Dictionary view of `ray_bundle.py`: a `RayBundle` is a mutable object with a list of attribute
names and a `__dict__` that maps names to arrays.  Arrays live in a heap, so that views, shared
arrays and in-place assignment can be told apart from copies.
-/

namespace Tracer.Dict

/-- A Python identifier.  Simplification: names that would collide with `RayBundle`'s own
attributes (`check_attr`, `create_property`, dunder names) are assumed not to be used for
properties (ray_bundle.py:78). -/
abbrev Name := List Char

/-- A NumPy array with the rays along its last axis (ray_bundle.py:25-33): `lead` stands for the
shape of the other axes (0 for a 1D array, r for an array of r rows), `cols` has one entry per
ray. -/
structure Arr (V : Type _) where
  lead : Nat
  cols : List V
  deriving DecidableEq, Repr

/-- The arrays that exist; a reference is a position (ray_bundle.py:86-94). -/
abbrev Heap (V : Type _) := List (Arr V)

/-- A `RayBundle` object: `_check_attr` and the value attributes of `__dict__`.  Attribute names
have their leading underscore.  The `get_`/`set_` entries of `__dict__` exist exactly for the
names in `check`, because `_create_property` is the only place that makes either (ray_bundle.py:62, 81-99). -/
structure Obj where
  check : List Name
  ref : Name → Option Nat

variable {V : Type _}

/-- `'_' + propname` (ray_bundle.py:81) -/
def attrOf (p : Name) : Name := '_' :: p

/-- `'vertices'` (ray_bundle.py:55) -/
def vertices : Name := ['v', 'e', 'r', 't', 'i', 'c', 'e', 's']
/-- `'directions'` (ray_bundle.py:56) -/
def directions : Name := ['d', 'i', 'r', 'e', 'c', 't', 'i', 'o', 'n', 's']
/-- `'energy'` (ray_bundle.py:57) -/
def energy : Name := ['e', 'n', 'e', 'r', 'g', 'y']
/-- `'parents'` (ray_bundle.py:58) -/
def parents : Name := ['p', 'a', 'r', 'e', 'n', 't', 's']
/-- `'ref_index'` (ray_bundle.py:59) -/
def refIndex : Name := ['r', 'e', 'f', '_', 'i', 'n', 'd', 'e', 'x']

/-- The keys of `base_vals` (ray_bundle.py:54-59). -/
def baseNames : List Name := [vertices, directions, energy, parents, refIndex]

/-- Allocate a new array (by NumPy, in ray_bundle.py:88, 164, 177, 220). -/
def alloc (h : Heap V) (a : Arr V) : Nat × Heap V := (h.length, h ++ [a])

/-- `self.__dict__[attr] = new_val` (ray_bundle.py:92). -/
def Obj.bind (b : Obj) (attr : Name) (r : Nat) : Obj :=
  { b with ref := fun a => if a = attr then some r else b.ref a }

/-- `_create_property(propname, init_val)` (ray_bundle.py:66-102). -/
def Obj.createProperty (b : Obj) (p : Name) (init : Option Nat) : Obj :=
  let b' : Obj := { b with check := b.check ++ [attrOf p] }
  match init with
  | none => b'
  | some r => b'.bind (attrOf p) r

/-- The loop of `__init__` over `base_vals` (ray_bundle.py:61-64).  The dictionary is given as the
list of its items; the order of a Python dictionary is arbitrary, and theorems quantify over
it. -/
def construct (vals : List (Name × Option Nat)) : Obj :=
  vals.foldl (fun b nv => b.createProperty nv.1 nv.2) ⟨[], fun _ => none⟩

/-- `RayBundle()` (ray_bundle.py:35-64) -/
def emptyObj : Obj := construct (baseNames.map fun n => (n, none))

/-- `has_property(propname)` (ray_bundle.py:104-109) -/
def Obj.hasProperty (b : Obj) (p : Name) : Bool := decide (attrOf p ∈ b.check)

/-- `hasattr(b, attr)` (ray_bundle.py:142,159,214) -/
def Obj.hasAttr (b : Obj) (attr : Name) : Bool := (b.ref attr).isSome

/-- A selector: the full slice `N.s_[:]` or an array of indices (ray_bundle.py:88, 118, 191). -/
inductive Sel where
  | all
  | idx (l : List Nat)
  deriving DecidableEq, Repr

/-- `get_x()` without selector (ray_bundle.py:84-86), where `attr` is `'_x'`: the stored array itself.
Looking up a getter that was not created and a value that was not set are both `KeyError`s. -/
def Obj.get (b : Obj) (attr : Name) : Except Err Nat :=
  if attr ∈ b.check then
    match b.ref attr with
    | none => .error .attribute
    | some r => .ok r
  else .error .attribute

/-- `get_x(selector)` (ray_bundle.py:84-88).  The full slice gives a view of the stored array,
modelled as the same reference; indices give a copy. -/
def Obj.getSel (h : Heap V) (b : Obj) (attr : Name) (s : Sel) : Except Err (Nat × Heap V) :=
  match b.get attr with
  | .error e => .error e
  | .ok r =>
    match h[r]? with
    | none => .error .index
    | some a =>
      match s with
      | .all => .ok (r, h)
      | .idx l =>
        match Np.take a.cols l with
        | .error e => .error e
        | .ok vs => .ok (alloc h ⟨a.lead, vs⟩)

/-- `set_x(new_val)` (ray_bundle.py:90-92): rebinds the attribute. -/
def Obj.set (b : Obj) (attr : Name) (r : Nat) : Except Err Obj :=
  if attr ∈ b.check then .ok (b.bind attr r) else .error .attribute

/-- `arr[..., selector] = new_val` for an array of indices and as many values: the assignments are
made one after the other (ray_bundle.py:94). -/
def assign (cols : List V) : List Nat → List V → Except Err (List V)
  | [], [] => .ok cols
  | i :: sel, v :: vs => if i < cols.length then assign (cols.set i v) sel vs else .error .index
  | _, _ => .error .value

/-- `set_x(new_val, selector)` (ray_bundle.py:90-94): assigns into the stored array in place. -/
def Obj.setSel (h : Heap V) (b : Obj) (attr : Name) (sel : List Nat) (vs : List V) :
    Except Err (Heap V) :=
  match b.get attr with
  | .error e => .error e
  | .ok r =>
    match h[r]? with
    | none => .error .index
    | some a =>
      match assign a.cols sel vs with
      | .error e => .error e
      | .ok cols => .ok (h.set r ⟨a.lead, cols⟩)

/-- `get_num_rays()` (ray_bundle.py:111-116) -/
def Obj.numRays (h : Heap V) (b : Obj) : Except Err Nat :=
  match b.ref (attrOf vertices) with
  | none => .error .attribute
  | some r =>
    match h[r]? with
    | none => .error .index
    | some a => .ok a.cols.length

/-- The arrays behind references (ray_bundle.py:165-166, 221). -/
def deref (h : Heap V) : List Nat → Except Err (List (Arr V)) := Np.take h

/-- `N.hstack(arrays)`: arrays with the same leading shape are joined along the last axis, others
raise `ValueError`, as does an empty list (ray_bundle.py:164, 220). -/
def hstack (l : List (Arr V)) : Except Err (Arr V) :=
  match l with
  | [] => .error .value
  | a :: l =>
    if ∀ b ∈ l, b.lead = a.lead then .ok ⟨a.lead, ((a :: l).map Arr.cols).flatten⟩
    else .error .value

/-- `N.hstack` of stored arrays, into a new array (ray_bundle.py:164, 220). -/
def hstackRefs (h : Heap V) (rs : List Nat) : Except Err (Nat × Heap V) :=
  match deref h rs with
  | .error e => .error e
  | .ok as =>
    match hstack as with
    | .error e => .error e
    | .ok a => .ok (alloc h a)

/-- "Create the property if it's not in the base set" (ray_bundle.py:160-162, 215-217):
`has_property` is called with a name that already has its underscore. -/
def Obj.ensure (b : Obj) (attr : Name) : Obj :=
  if b.hasProperty attr then b else b.createProperty attr.tail none

/-- The values to be joined: `[b.__dict__['get' + attr]() for b in bundles]` (ray_bundle.py:221). -/
def getAll (attr : Name) : List Obj → Except Err (List Nat)
  | [] => .ok []
  | b :: bs =>
    match b.get attr with
    | .error e => .error e
    | .ok r =>
      match getAll attr bs with
      | .error e => .error e
      | .ok rs => .ok (r :: rs)

/-- One round of the loops of `__add__` and `concatenate_rays` (ray_bundle.py:160-167,
215-222), for an attribute that passed their test. -/
def joinAttr (bs : List Obj) (attr : Name) (h : Heap V) (new : Obj) : Except Err (Heap V × Obj) :=
  match getAll attr bs with
  | .error e => .error e
  | .ok rs =>
    match hstackRefs h rs with
    | .error e => .error e
    | .ok (r, h') =>
      match (new.ensure attr).set attr r with
      | .error e => .error e
      | .ok new' => .ok (h', new')

/-- The loop over `_check_attr`, with the test `p` (ray_bundle.py:158-167, 213-222). -/
def joinLoop (p : Name → Bool) (bs : List Obj) : List Name → Heap V → Obj → Except Err (Heap V × Obj)
  | [], h, new => .ok (h, new)
  | attr :: attrs, h, new =>
    if p attr then
      match joinAttr bs attr h new with
      | .error e => .error e
      | .ok (h', new') => joinLoop p bs attrs h' new'
    else joinLoop p bs attrs h new

/-- `a + b` (ray_bundle.py:147-168) -/
def add (h : Heap V) (a b : Obj) : Except Err (Heap V × Obj) :=
  joinLoop (fun attr => a.hasAttr attr && b.hasAttr attr) [a, b] a.check h emptyObj

/-- `RayBundle.empty_bund()` (ray_bundle.py:170-183): vertices and directions share one array. -/
def emptyBund (h : Heap V) : Heap V × Obj :=
  let n := h.length
  (h ++ [⟨3, []⟩, ⟨0, []⟩, ⟨0, []⟩, ⟨0, []⟩],
   ((((emptyObj.bind (attrOf directions) n).bind (attrOf vertices) n).bind (attrOf energy) (n + 1)).bind
     (attrOf parents) (n + 2)).bind (attrOf refIndex) (n + 3))

/-- `concatenate_rays(bundles)` (ray_bundle.py:196-223) -/
def concatenate (h : Heap V) (bs : List Obj) : Except Err (Heap V × Obj) :=
  match bs with
  | [] => .ok (emptyBund h)
  | b :: rest => joinLoop (fun attr => b.hasAttr attr) (b :: rest) b.check h emptyObj

/-- The value given for a property, `none` if it is not given or `None` (ray_bundle.py:101, 142). -/
def lookup (given : List (Name × Nat)) (p : Name) : Option Nat := (given.find? fun x => x.1 = p).map Prod.snd

/-- The keys of `base_vals` in `inherit` (ray_bundle.py:132-139). -/
def inheritKeys (b : Obj) (given : List (Name × Nat)) : List Name :=
  (b.check.map List.tail ++ baseNames ++ given.map Prod.fst).dedup

/-- The loop of `inherit` (ray_bundle.py:141-143). -/
def inheritLoop (b : Obj) (s : Sel) (given : List (Name × Nat)) :
    List Name → Heap V → Except Err (Heap V × List (Name × Option Nat))
  | [], h => .ok (h, [])
  | p :: ps, h =>
    match lookup given p with
    | some r =>
      match inheritLoop b s given ps h with
      | .error e => .error e
      | .ok (h', items) => .ok (h', (p, some r) :: items)
    | none =>
      if b.hasAttr (attrOf p) then
        match b.getSel h (attrOf p) s with
        | .error e => .error e
        | .ok (r, h') =>
          match inheritLoop b s given ps h' with
          | .error e => .error e
          | .ok (h'', items) => .ok (h'', (p, some r) :: items)
      else
        match inheritLoop b s given ps h with
        | .error e => .error e
        | .ok (h', items) => .ok (h', (p, none) :: items)

/-- `b.inherit(selector, given...)` (ray_bundle.py:118-145); the keyword `direction` stands for the
property `directions`.  Simplification: the dictionary is walked in the order of `inheritKeys`. -/
def inherit (h : Heap V) (b : Obj) (s : Sel) (given : List (Name × Nat)) : Except Err (Heap V × Obj) :=
  match inheritLoop b s given (inheritKeys b given) h with
  | .error e => .error e
  | .ok (h', items) => .ok (h', construct items)

/-- `b.delete_rays(selector)` (ray_bundle.py:185-194).  `N.delete` raises `IndexError` for an index
out of range. -/
def deleteRays (h : Heap V) (b : Obj) (sel : List Nat) : Except Err (Heap V × Obj) :=
  match b.numRays h with
  | .error e => .error e
  | .ok n =>
    if ∀ i ∈ sel, i < n then inherit h b (.idx (Np.delete (List.range n) sel)) []
    else .error .index

end Tracer.Dict
