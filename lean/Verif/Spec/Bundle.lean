import Verif.Model.RayBundle

/-! What can be observed of a ray bundle. -/

namespace Tracer.Dict

variable {V : Type _}

/-- The array of property `p`, `none` if the property is not set. -/
def column (h : Heap V) (b : Obj) (p : Name) : Option (Arr V) :=
  (b.ref (attrOf p)).bind fun r => h[r]?

/-- A bundle object as the API makes them: only created properties have values, and values are
existing arrays. -/
structure Wf (h : Heap V) (b : Obj) : Prop where
  name : ∀ a ∈ b.check, ∃ p, a = attrOf p
  base : ∀ p ∈ baseNames, attrOf p ∈ b.check
  value : ∀ a r, b.ref a = some r → a ∈ b.check ∧ r < h.length

/-- All set properties have one entry per ray. -/
def Rect (h : Heap V) (b : Obj) (n : Nat) : Prop :=
  ∀ p a, column h b p = some a → a.cols.length = n

/-- No property name of the bundle is another one with an underscore before it. -/
def NoClash (b : Obj) : Prop := ∀ a ∈ b.check, attrOf a ∉ b.check

/-- The entries whose position is not in `sel`, in order. -/
def without {α : Type _} (sel : List Nat) (l : List α) : List α :=
  (l.zipIdx.filter fun x => x.2 ∉ sel).map Prod.fst

/-- The entries at the positions `sel`, in the order of `sel`. -/
def at' {α : Type _} (sel : List Nat) (l : List α) : List α := sel.filterMap fun i => l[i]?

/-- The selected part of an array. -/
def Sel.pick (s : Sel) (a : Arr V) : Arr V :=
  match s with
  | .all => a
  | .idx l => ⟨a.lead, at' l a.cols⟩

end Tracer.Dict
