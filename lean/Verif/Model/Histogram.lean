import Verif.Model.Optics
import Mathlib.Data.Nat.Cast.Defs

/-! `histogram_hits` of collectors (models/homogenized_local_receiver.py:59-83). -/

namespace Tracer

variable {K : Type _} [Field K] [LinearOrder K]

/-- The edges `N.histogram2d` uses along an axis: `N.linspace(-r, r, bins + 1)` (models/homogenized_local_receiver.py:81-82, examples/tower_gui.py:117-118). -/
def binEdges (bins : Nat) (r : K) : List K :=
  (List.range (bins + 1)).map fun i : Nat => -r + (i : K) * ((r - -r) / bins)

/-- The bin of a value in `N.histogram2d`: `N.searchsorted(edges, x, side='right')`, values on the last edge being
moved into the last bin; values before the first and after the last edge are outliers.  Simplification: NumPy
finds values on the last edge after rounding, the model exactly (models/homogenized_local_receiver.py:81-82, examples/tower_gui.py:117-118). -/
def binOf (bins : Nat) (r x : K) : Option Nat :=
  let n := ((binEdges bins r).filter fun e => decide (e ≤ x)).length
  let n := if x = r then n - 1 else n
  if n = 0 then none else if n = bins + 1 then none else some (n - 1)

/-- `N.histogram2d(x, y, bins, range=([-rx, rx], [-ry, ry]), weights=w)` for the list of (x, y, w) (models/homogenized_local_receiver.py:81-82, examples/tower_gui.py:117-118). -/
def histogram2d (bins : Nat) (rx ry : K) (pts : List (K × K × K)) : List (List K) :=
  (List.range bins).map fun i => (List.range bins).map fun j =>
    ((pts.filter fun p => decide (binOf bins rx p.1 = some i) && decide (binOf bins ry p.2.1 = some j)).map
      fun p => p.2.2).sum

/-- `histogram_hits(bins)` (models/homogenized_local_receiver.py:59-83) for a receiver surface in the frame `frame`, with the memory
`acc`: `H, xbins, ybins`.  NumPy refuses a number of bins that is not positive. -/
def histogramHits (frame : Tf K) (sides : K × K) (bins : Nat) (acc : Account K) :
    Except Err (List (List K) × List K × List K) :=
  match acc.getAllHits with
  | .error e => .error e
  | .ok (energy, pts) =>
    match globalToLocal frame pts with
    | .error e => .error e
    | .ok ls =>
      let rngx := sides.1 / 2
      let rngy := sides.2 / 2
      if bins = 0 then .error .value
      else .ok (histogram2d bins rngx rngy (List.zipWith (fun l e => (l.1.x, l.1.y, e)) ls energy),
        binEdges bins rngx, binEdges bins rngy)

end Tracer
