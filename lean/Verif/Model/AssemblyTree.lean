import Mathlib.Data.Nat.Notation

/-! The tree widget of assemblies (qt/assembly_tree.py): which items it shows, and the captions it keeps in the `_tree_tags` of the
components.  Simplifications: of the tags only `caption`; drawing, flags and signals of Qt are left out; each component is in the assembly only once, so that
its place identifies it. -/

namespace Tracer.TreeUI

/-- A component is found from the top assembly by steps to sub-assemblies (`get_assemblies()`), local objects (`get_local_objects()`) and
surfaces (`get_surfaces()`). The lists are read in qt/assembly_tree.py:70, 75, 99, 113. -/
inductive Step where
  | sub (i : Nat)
  | obj (i : Nat)
  | surf (i : Nat)
  deriving DecidableEq, Repr

/-- The steps from the top assembly to the `_asm_item` of an item (qt/assembly_tree.py:10-12). -/
abbrev Path := List Step

/-- A `Surface`, as far as the widget is concerned: `get_tag(surface, 'caption')` (assembly_tree.py:126-137). -/
structure TSurf where
  tag : Option String
  deriving DecidableEq, Repr

/-- An `AssembledObject`. Its caption is a tag (qt/assembly_tree.py:126-137), its surfaces are read in qt/assembly_tree.py:113. -/
structure TObj where
  tag : Option String
  surfs : List TSurf
  deriving DecidableEq, Repr

/-- An `Assembly`. Its caption is a tag (qt/assembly_tree.py:126-137), its parts are read in qt/assembly_tree.py:70, 75. -/
inductive TAsm where
  | mk (tag : Option String) (subs : List TAsm) (objs : List TObj)

/-- `get_tag(assembly, 'caption')` (assembly_tree.py:126-137) -/
def TAsm.tag : TAsm → Option String
  | .mk tag _ _ => tag

/-- `set_tag(assembly, 'caption', text)` (assembly_tree.py:139-151) -/
def TAsm.setTag (text : String) : TAsm → TAsm
  | .mk _ subs objs => .mk (some text) subs objs

/-- A `QTreeWidgetItem`, or, if it has a component, an `AssemblyTreeItem` (assembly_tree.py:3-29): its text, its component and its
children. -/
inductive Item where
  | mk (caption : String) (component : Option Path) (children : List Item)

/-- The caption of a component that is number `i` among its siblings, after the tag has been looked up (assembly_tree.py:82-85, 101-104, 115-118). -/
def captionOf (tag : Option String) (kind : String) (i : Nat) : String :=
  match tag with
  | none => kind ++ toString i
  | some c => c

/-- The loop over the surfaces of an object (assembly_tree.py:112-124), from surface number `i` on: the items, and the surfaces with
their tags. -/
def addSurfs (at_ : Path) (i : Nat) : List TSurf → List Item × List TSurf
  | [] => ([], [])
  | s :: l =>
    let caption := captionOf s.tag "Surface " i
    let rest := addSurfs at_ (i + 1) l
    (.mk caption (some (at_ ++ [.surf i])) [] :: rest.1, ⟨some caption⟩ :: rest.2)

/-- `_add_objects` (assembly_tree.py:94-124), from object number `i` on. -/
def addObjs (at_ : Path) (i : Nat) : List TObj → List Item × List TObj
  | [] => ([], [])
  | o :: l =>
    let caption := captionOf o.tag "Object " i
    let surfs := addSurfs (at_ ++ [.obj i]) 0 o.surfs
    let rest := addObjs at_ (i + 1) l
    (.mk caption (some (at_ ++ [.obj i])) surfs.1 :: rest.1, ⟨some caption, surfs.2⟩ :: rest.2)

mutual
/-- `_add_subassembly` (assembly_tree.py:61-92): the items put under the item of the assembly, and the assembly with the
new tags. -/
def addSub (at_ : Path) : TAsm → List Item × TAsm
  | .mk tag subs objs =>
    let o := addObjs at_ 0 objs
    let s := addSubs at_ 0 subs
    ((if subs.length > 0 then [.mk "Subassemblies" none s.1] else []) ++
      (if objs.length > 0 then [.mk "Optical objects" none o.1] else []), .mk tag s.2 o.2)

/-- The loop over the sub-assemblies (assembly_tree.py:81-92), from number `i` on. -/
def addSubs (at_ : Path) (i : Nat) : List TAsm → List Item × List TAsm
  | [] => ([], [])
  | a :: l =>
    let caption := captionOf a.tag "Assembly " i
    let r := addSub (at_ ++ [.sub i]) a
    let rest := addSubs at_ (i + 1) l
    (.mk caption (some (at_ ++ [.sub i])) r.1 :: rest.1, r.2.setTag caption :: rest.2)
end

/-- `set_assembly(asm)` (assembly_tree.py:45-56): the top item, and the assembly with the new tags. -/
def setAssembly (a : TAsm) : Item × TAsm :=
  let r := addSub [] a
  (.mk "Top assembly" (some []) r.1, r.2)

/-- Replace the `i`-th entry of a list. Stands for the change of `_tree_tags` of a component in place (qt/assembly_tree.py:30). -/
def modify {α : Type} (f : α → α) : Nat → List α → List α
  | _, [] => []
  | 0, a :: l => f a :: l
  | i + 1, a :: l => a :: modify f i l

/-- The same for the tag of a surface of an object, or of the object (qt/assembly_tree.py:30). -/
def TObj.rename (text : String) : Path → TObj → TObj
  | [], o => { o with tag := some text }
  | [.surf i], o => { o with surfs := modify (fun _ => ⟨some text⟩) i o.surfs }
  | _, o => o

/-- `update_caption` of the item whose component is at the path (assembly_tree.py:19-29), when the user has given it the
text: `_tree_tags['caption'] = text`. -/
def TAsm.rename (text : String) : Path → TAsm → TAsm
  | [], .mk _ subs objs => .mk (some text) subs objs
  | .sub i :: p, .mk tag subs objs => .mk tag (modify (TAsm.rename text p) i subs) objs
  | .obj i :: p, .mk tag subs objs => .mk tag subs (modify (TObj.rename text p) i objs)
  | .surf _ :: _, a => a

end Tracer.TreeUI
