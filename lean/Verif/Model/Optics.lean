import Verif.Model.Surface

/-! Model of `optics.py` (the part without square roots) and of the reflective callables of
`optics_callables.py`. -/

namespace Tracer

variable {K E σ : Type _} [Field K] [LinearOrder K]

/-- `optics.reflections` for one ray (optics.py:39-51). -/
def reflection (d n : V3 K) : V3 K := d - (2 : K) • (V3.dot d n • n)

/-- `Reflective.__call__` for one selected ray (optics_callables.py:24-29): properties that are
not given are inherited from the ray. -/
def reflectOne (absorptivity : K) (h : HitRec K E) : Ray K E :=
  { h.ray with
    vertex := h.point
    dir := reflection h.ray.dir h.normal
    energy := h.ray.energy * (1 - absorptivity)
    parent := h.idx }

/-- `Reflective(absorptivity)` (optics_callables.py:9-30). -/
def reflective (absorptivity : K) : Optics σ K E := fun w _up hits =>
  .ok (hits.map (reflectOne absorptivity), w)

/-- `perfect_mirror` (optics_callables.py:32) -/
def perfectMirror : Optics σ K E := reflective 0

/-- `AbsorberReflector(absorptivity)` (optics_callables.py:80-97): rays with a positive
projection on `up` get zero energy. -/
def absorberReflector (absorptivity : K) : Optics σ K E := fun w up hits =>
  .ok (hits.map fun h =>
    let r := reflectOne absorptivity h
    if 0 < V3.dot h.ray.dir up then { r with energy := 0 } else r, w)

/-- The memory of an `AbsorptionAccountant` (optics_callables.py:51-54): `_absorbed` and `_hits`,
one list per call. -/
structure Account (K : Type _) where
  absorbed : List (List K)
  hits : List (List (V3 K))
  deriving DecidableEq, Repr

/-- `AbsorptionAccountant.reset` (optics_callables.py:51-54) -/
def Account.reset : Account K := ⟨[], []⟩

/-- `AbsorptionAccountant.__call__` (optics_callables.py:56-59) around `opt`, whose `_abs` is
`absorptivity`; `get`/`set` locate this accountant's memory in the world state. -/
def accountant (absorptivity : K) (get : σ → Account K) (set : Account K → σ → σ)
    (opt : Optics σ K E) : Optics σ K E := fun w up hits =>
  let acc := get w
  let acc' : Account K :=
    ⟨acc.absorbed ++ [hits.map fun h => h.ray.energy * absorptivity],
     acc.hits ++ [hits.map HitRec.point]⟩
  opt (set acc' w) up hits

/-- `AbsorptionAccountant.get_all_hits` (optics_callables.py:61-73).  `N.hstack` of an empty list
raises `ValueError`. -/
def Account.getAllHits (a : Account K) : Except Err (List K × List (V3 K)) :=
  if a.absorbed.isEmpty then .ok ([], [])
  else
    let ab := a.absorbed.filter fun l => ! l.isEmpty
    let hs := a.hits.filter fun l => ! l.isEmpty
    if ab.isEmpty || hs.isEmpty then .error .value
    else .ok (ab.flatten, hs.flatten)

/-- `ReflectiveReceiver(absorptivity)` (optics_callables.py:75-78) -/
def reflectiveReceiver (absorptivity : K) (get : σ → Account K) (set : Account K → σ → σ) :
    Optics σ K E := accountant absorptivity get set (reflective absorptivity)

/-- `optics.refr_idx_hartmann` (optics.py:88-97).  Simplification: `c = wavelength` divides by
zero (inf in NumPy). -/
def refrIdxHartmann (wavelength a b c _d _e : K) : K := a + b / (c - wavelength)

end Tracer
