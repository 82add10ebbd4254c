import Verif.Model.AssemblyTree

/-! What the tree widget of assemblies is to show. -/

namespace Tracer.TreeUI

/-- The caption tag of the component at a place below an object, if there is such a component. -/
def TObj.tagAt : Path → TObj → Option (Option String)
  | [], o => some o.tag
  | [.surf i], o => o.surfs[i]?.map TSurf.tag
  | _, _ => none

/-- The caption tag of the component at a place below an assembly, if there is such a component: `none` for no component, `some none` for a
component without the tag. -/
def TAsm.tagAt : Path → TAsm → Option (Option String)
  | [], .mk tag _ _ => some tag
  | .sub i :: p, .mk _ subs _ => subs[i]?.bind (TAsm.tagAt p)
  | .obj i :: p, .mk _ _ objs => objs[i]?.bind (TObj.tagAt p)
  | .surf _ :: _, _ => none

/-- What a component is called by default: its kind and its number among its siblings. -/
def Step.defaultCaption : Step → String
  | .sub i => s!"Assembly {i}"
  | .obj i => s!"Object {i}"
  | .surf i => s!"Surface {i}"

/-- The caption an untagged component at the path gets. -/
def defaultCaption (p : Path) : String :=
  match p.getLast? with
  | none => "Top assembly"
  | some s => s.defaultCaption

mutual
/-- The components that have an item in the tree below and including this one, with the texts shown. -/
def Item.shown : Item → List (Path × String)
  | .mk c none ch => shownAll ch
  | .mk c (some p) ch => (p, c) :: shownAll ch

def shownAll : List Item → List (Path × String)
  | [] => []
  | x :: l => x.shown ++ shownAll l
end

mutual
/-- For each component that has an item: the component whose item it is below, and the heading between the two items, if any. -/
def Item.placed (parent : Option Path) (heading : Option String) : Item → List (Path × Option Path × Option String)
  | .mk c none ch => placedAll parent (some c) ch
  | .mk _ (some p) ch => (p, parent, heading) :: placedAll (some p) none ch

def placedAll (parent : Option Path) (heading : Option String) : List Item → List (Path × Option Path × Option String)
  | [] => []
  | x :: l => x.placed parent heading ++ placedAll parent heading l
end

/-- The heading the item of a component is to stand under. -/
def Step.heading : Step → Option String
  | .sub _ => some "Subassemblies"
  | .obj _ => some "Optical objects"
  | .surf _ => none

end Tracer.TreeUI
