/-!
The NumPy indexing idioms used by the package, on lists.

A 1D array is a list, a 2D array is the list of its rows.  Each definition says
which NumPy expression it stands for and where the package uses it.
-/

namespace Tracer

/-- The exceptions the modelled code can raise (raised at e.g. tracer_engine.py:64, has_frame.py:45, 52, geometry_manager.py:26, flat_surface.py:177, 179; the others by Python and NumPy). -/
inductive Err where
  /-- `ValueError` -/
  | value
  /-- `IndexError` -/
  | index
  /-- `AttributeError`, or `KeyError` on an instance's `__dict__` -/
  | attribute
  /-- `TypeError` -/
  | type
  /-- `NameError`, `UnboundLocalError` -/
  | name
  /-- `numpy.linalg.LinAlgError` -/
  | linalg
  /-- `ZeroDivisionError` -/
  | zerodiv
  /-- not an exception of the code: an inf/nan would enter the computation -/
  | nonfinite
  deriving DecidableEq, Repr

namespace Np

/-- `a[m]` for a boolean mask `m` (e.g. tracer_engine.py:129).  Simplification:
stops at the shorter list, NumPy requires equal lengths. -/
def mask {α : Type _} : List Bool → List α → List α
  | true :: m, x :: l => x :: mask m l
  | false :: m, _ :: l => mask m l
  | _, _ => []

/-- `old[m] = vals` for a boolean mask `m` (e.g. tracer_engine.py:59), result
is the new `old`.  Simplification: if `vals` is too short the remaining places
keep their value, NumPy would raise. -/
def scatter {α : Type _} : List Bool → List α → List α → List α
  | true :: m, v :: vals, _ :: old => v :: scatter m vals old
  | true :: m, [], o :: old => o :: scatter m [] old
  | false :: m, vals, o :: old => o :: scatter m vals old
  | _, _, old => old

/-- `N.nonzero(m)[0]` (e.g. tracer_engine.py:133,138,145,173). -/
def nonzero : List Bool → List Nat
  | [] => []
  | true :: m => 0 :: (nonzero m).map (· + 1)
  | false :: m => (nonzero m).map (· + 1)

/-- `a[sel]` for an integer array `sel`; an index out of range is an
`IndexError` (e.g. tracer_engine.py:138, ray_bundle.py:88).  Negative indices
are not modelled: the package never produces them. -/
def take {α : Type _} (l : List α) : List Nat → Except Err (List α)
  | [] => .ok []
  | i :: sel =>
    match l[i]? with
    | none => .error .index
    | some x =>
      match take l sel with
      | .error e => .error e
      | .ok xs => .ok (x :: xs)

/-- `N.delete(l, sel)` for an index array `sel` (ray_bundle.py:191): drop the
positions that occur in `sel`.  `k` is the position of the head of `l`. -/
def deleteFrom {α : Type _} (sel : List Nat) : Nat → List α → List α
  | _, [] => []
  | k, x :: l =>
    if k ∈ sel then deleteFrom sel (k + 1) l else x :: deleteFrom sel (k + 1) l

/-- `N.delete(l, sel)` (ray_bundle.py:191) -/
def delete {α : Type _} (l : List α) (sel : List Nat) : List α := deleteFrom sel 0 l

/-- `N.hstack` of 2D arrays given as lists of `s` rows each
(tracer_engine.py:181). -/
def hstackRows {α : Type _} (s : Nat) (blocks : List (List (List α))) : List (List α) :=
  blocks.foldr (List.zipWith (· ++ ·)) (List.replicate s [])

/-- `N.add.accumulate(l)` (tracer_engine.py:114), `acc` is the running sum. -/
def accumulate : Nat → List Nat → List Nat
  | _, [] => []
  | acc, x :: l => (acc + x) :: accumulate (acc + x) l

/-- `N.repeat(N.arange(k, k + len(reps)), reps)` (tracer_engine.py:115). -/
def repeatArange : Nat → List Nat → List Nat
  | _, [] => []
  | k, r :: reps => List.replicate r k ++ repeatArange (k + 1) reps

end Np
end Tracer
