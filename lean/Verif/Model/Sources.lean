import Verif.Model.Spatial
import Verif.Model.Ray
import Mathlib.Analysis.SpecialFunctions.Trigonometric.Inverse

/-!
# Light sources (sources.py), over the reals

Random numbers are inputs: a call that asks for `n` numbers is given a list of `n` draws.
-/

namespace Tracer

open Real

/-- One column of `pillbox_sunshape_directions(num_rays, ang_range)` (sources.py:31-38); `xi1` is the
draw from [0, 2 pi), `xi2` the one from [0, 1). -/
noncomputable def pillboxOne (angRange : ℝ) (xi1 xi2 : ℝ) : V3 ℝ :=
  let theta := arcsin (sin angRange * √xi2)
  let sinTh := sin theta
  ⟨cos xi1 * sinTh, sin xi1 * sinTh, cos theta⟩

/-- `pillbox_sunshape_directions(len(draws), ang_range)` (sources.py:16-38). -/
noncomputable def pillbox (angRange : ℝ) (draws : List (ℝ × ℝ)) : List (V3 ℝ) :=
  draws.map fun d => pillboxOne angRange d.1 d.2

/-- What `solar_disk_bundle` returns: a bundle with vertices and directions, and with an energy if a
flux was given (sources.py:78-82). -/
structure SourceBundle where
  vertices : List (V3 ℝ)
  directions : List (V3 ℝ)
  energy : Option (List ℝ)

/-- `solar_disk_bundle(num_rays, center, direction, radius, ang_range, flux)` (sources.py:40-82).
`dirDraws` are the draws of `pillbox_sunshape_directions`, `posDraws` those of `xi1` and `thetas`
(sources.py:67-68); both have `num_rays` entries.  Simplification: the division of the energy by
`num_rays = 0` does not raise here; `solarDisk` adds that. -/
noncomputable def solarDiskBundle (center direction : V3 ℝ) (radius angRange : ℝ) (flux : Option ℝ)
    (dirDraws posDraws : List (ℝ × ℝ)) : SourceBundle :=
  let rot := rotationToZ direction
  let n := posDraws.length
  { directions := (pillbox angRange dirDraws).map rot.mulVec
    vertices := posDraws.map fun d =>
      let rs := radius * √d.1
      rot.mulVec ⟨rs * cos d.2, rs * sin d.2, 0⟩ + center
    energy := flux.map fun f => List.replicate n (π * radius ^ 2 / n * f * 1) }

/-- `solar_disk_bundle(...)` with its exception: `N.pi*radius**2/num_rays` (sources.py:80) divides Python numbers, which raises
`ZeroDivisionError` if there is a flux and `num_rays` is 0. -/
noncomputable def solarDisk (center direction : V3 ℝ) (radius angRange : ℝ) (flux : Option ℝ)
    (dirDraws posDraws : List (ℝ × ℝ)) : Except Err SourceBundle :=
  if flux.isSome ∧ posDraws.length = 0 then .error .zerodiv
  else .ok (solarDiskBundle center direction radius angRange flux dirDraws posDraws)

/-- The grid of `N.mgrid[-w:w:step]` along one axis: `ceil((stop - start)/step)` points from
`start` on (sources.py:100-101). -/
noncomputable def mgridAxis (start stop step : ℝ) : List ℝ :=
  (List.range ⌈(stop - start) / step⌉₊).map fun (i : Nat) => start + (i : ℝ) * step

/-- `square_bundle(num_rays, center, direction, width)` (sources.py:84-108).  Simplification: the step
is not zero, i.e. `num_rays` and `width` are not zero. -/
noncomputable def squareBundle (numRays : Nat) (center direction : V3 ℝ) (width : ℝ) : SourceBundle :=
  let rot := rotationToZ direction
  let axis := mgridAxis (-width) width (2 * width / √numRays)
  { directions := List.replicate numRays direction
    vertices := axis.flatMap fun x => axis.map fun y => rot.mulVec ⟨x, y, 0⟩ + center
    energy := none }

end Tracer
