import Verif.Model.Graph

/-! Specification of components that may be in several places: what is below an assembly, and where. -/

namespace Tracer.Graph.Heap

variable {K : Type _}

/-- Object `o` is below assembly `a`. -/
inductive Below (h : Heap K) : Nat → Nat → Prop where
  | here {a o} : o ∈ h.objsOf a → Below h a o
  | sub {a b o} : b ∈ h.subsOf a → Below h b o → Below h a o

/-- Assemblies can be followed down from `a` for `n` steps. -/
inductive Chain (h : Heap K) : Nat → Nat → Prop where
  | zero (a) : Chain h 0 a
  | succ {n a b} : b ∈ h.subsOf a → Chain h n b → Chain h (n + 1) a

/-- One assembly is directly in another. -/
def Contains (h : Heap K) (a b : Nat) : Prop := b ∈ h.subsOf a

section
variable [Field K]

/-- There is a way down from assembly `a` to surface `s` along which the product of the transforms is `F`. -/
inductive At (h : Heap K) : Nat → Nat → Tf K → Prop where
  | here {a o s} : o ∈ h.objsOf a → s ∈ h.surfsOf o → At h a s ((h.asms a).own * ((h.objs o).own * (h.surfs s).own))
  | sub {a b s F} : b ∈ h.subsOf a → At h b s F → At h a s ((h.asms a).own * F)

end

/-- Two states differ in the frames of surfaces for tracing only. -/
structure Same (h h' : Heap K) : Prop where
  asms : h'.asms = h.asms
  objs : h'.objs = h.objs
  lists : h'.lists = h.lists
  own : ∀ s, (h'.surfs s).own = (h.surfs s).own

end Tracer.Graph.Heap
