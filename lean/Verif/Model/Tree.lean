import Verif.Model.Ray

/-! Model of `trace_tree.py`.  A `RayTree` is the list of its bundles `_bunds`. -/

namespace Tracer

variable {K E : Type _}

/-- `RayTree.ordered_parents` (trace_tree.py:27-32). -/
def orderedParents (tree : List (Bundle K E)) : List (List Nat) :=
  tree.tail.map fun bund => bund.map Ray.parent

/-- The ways `RayTree.ray_history` can be called on an instance (trace_tree.py:34). -/
inductive HistoryCall where
  /-- `tree.ray_history()` -/
  | noArgs
  /-- `tree.ray_history(i)` or `tree.ray_history(level=i)` -/
  | one (i : Nat)
  /-- `tree.ray_history(i, level)` -/
  | two (i level : Nat)

/-- `tree.ray_history(...)` as written (trace_tree.py:34-55): the method has no `self` parameter, so
the instance is bound to `ray_index` and the first argument to `level`.
* two arguments: one too many, `TypeError`;
* no argument: `level` is `None`, so line 47 reads the undefined name `self`, `NameError`;
* one argument: line 50 assigns the instance into a float array of length `level`, `IndexError`
  for an empty array and otherwise `TypeError`. -/
def rayHistory (_tree : List (Bundle K E)) : HistoryCall → Except Err (List Nat)
  | .two _ _ => .error .type
  | .noArgs => .error .name
  | .one level => if level = 0 then .error .index else .error .type

/-- The loop of `ray_history` (trace_tree.py:52-55) from `pix` on, `prev` being `parents[pix-1]`. -/
def historyLoop (tree : List (Bundle K E)) (level : Nat) : Nat → Nat → Nat → Except Err (List Nat)
  | 0, _, _ => .ok []
  | n + 1, pix, prev =>
    match tree[level - pix + 1]? with
    | none => .error .index
    | some bund =>
      match bund[prev]? with
      | none => .error .index
      | some r =>
        match historyLoop tree level n (pix + 1) r.parent with
        | .error e => .error e
        | .ok rest => .ok (r.parent :: rest)

/-- The body of `ray_history` (trace_tree.py:46-55) as it would run if the method had its `self`
parameter, and if the array of indices held integers. -/
def rayHistoryBody (tree : List (Bundle K E)) (rayIndex : Nat) (level : Option Nat) :
    Except Err (List Nat) :=
  let level := level.getD tree.length
  if level = 0 then .error .index
  else
    match historyLoop tree level (level - 1) 1 rayIndex with
    | .error e => .error e
    | .ok rest => .ok (rayIndex :: rest)

end Tracer
