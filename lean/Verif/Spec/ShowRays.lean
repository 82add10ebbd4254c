import Verif.Model.Ray
import Verif.Model.Vec

/-! What a drawing of a tree of rays is to show. -/

namespace Tracer

variable {K E : Type _} [Field K]

/-- Every ray but those of the source has its parent in the bundle before. -/
def HasParents (tree : List (Bundle K E)) : Prop :=
  ∀ (k : Nat) l next, tree[k]? = some l → tree[k + 1]? = some next → ∀ c ∈ next, c.parent < l.length

/-- Ray number `i` of bundle number `k` of the tree is `r`. -/
def InTree (tree : List (Bundle K E)) (k i : Nat) (r : Ray K E) : Prop := ∃ l, tree[k]? = some l ∧ l[i]? = some r

/-- From the start of a ray to the start of one of its children. -/
def ToChild (tree : List (Bundle K E)) (p q : V3 K) : Prop :=
  ∃ k i j r c, InTree tree k i r ∧ InTree tree (k + 1) j c ∧ c.parent = i ∧ p = r.vertex ∧ q = c.vertex

/-- From the start of a ray without children along its direction. -/
def ToNowhere (tree : List (Bundle K E)) (len : K) (p q : V3 K) : Prop :=
  ∃ k i r, InTree tree k i r ∧ (∀ j c, InTree tree (k + 1) j c → c.parent ≠ i) ∧
    p = r.vertex ∧ q = r.vertex + len • r.dir

/-- The selector gives one answer per ray. -/
def SelectorOk (sel : Option (Bundle K E → List Bool)) : Prop := ∀ f ∈ sel, ∀ l, (f l).length = l.length

/-- A drawn line: a pair of numbers of points is a connection. -/
def Drawn (points : List (V3 K)) (connections : List (Nat × Nat)) (p q : V3 K) : Prop :=
  ∃ c ∈ connections, points[c.1]? = some p ∧ points[c.2]? = some q

end Tracer
