import Verif.Model.Scene
import Verif.Model.Sources
import Mathlib.Algebra.Order.Floor.Semiring

/-!
The `mesh` methods of the geometry managers and of `Surface`, over the reals.  A mesh is the list of its rows;
`x`, `y`, `z` of the point in row `i`, column `j` are the components of the point there.  `N.r_[a:b:s]` and
`N.ogrid[a:b:s]` are `mgridAxis`.  Python's scalar division `1./resolution` raises `ZeroDivisionError`.
-/

namespace Tracer

open Real

/-- A mesh: rows of points (surface.py:117-119). -/
abbrev Mesh := List (List (V3 ℝ))

/-- `N.linspace(a, b, n)` (flat_surface.py:208-209, triangular_face.py:94-95) -/
noncomputable def linspace (a b : ℝ) (n : Nat) : List ℝ :=
  (List.range n).map fun (i : Nat) => a + (i : ℝ) * ((b - a) / ((n : ℝ) - 1))

/-- `N.ceil(resolution*half_dim*2)`, at least two (flat_surface.py:206-207) -/
noncomputable def meshPoints (resolution halfDim : ℝ) : Nat := max 2 ⌈resolution * halfDim * 2⌉₊

/-- `RectPlateGM.mesh` (flat_surface.py:194-213) for the dimensions given to the constructor. -/
noncomputable def rectMesh (width height resolution : ℝ) : Mesh :=
  let xs := linspace (-(width / 2)) (width / 2) (meshPoints resolution (width / 2))
  let ys := linspace (-(height / 2)) (height / 2) (meshPoints resolution (height / 2))
  xs.map fun x => ys.map fun y => ⟨x, y, 0⟩

/-- `RoundPlateGM.mesh` (flat_surface.py:241-264) -/
noncomputable def roundMesh (R resolution : ℝ) : Except Err Mesh :=
  if resolution = 0 then .error .zerodiv
  else
    let rEnd := R + 1 / 100 / resolution
    let rs := mgridAxis 0 rEnd (1 / resolution)
    let angs := mgridAxis 0 (2 * π) (1 / (R * resolution))
    .ok (rs.map fun r => angs.map fun t => ⟨r * cos t, r * sin t, 0⟩)

/-- `SphericalGM.mesh` (sphere_surface.py:70-93), also inherited by `CutSphereGM`. -/
noncomputable def sphereMesh (R resolution : ℝ) : Except Err Mesh :=
  if R * resolution = 0 then .error .zerodiv
  else
    let rng := π + 1 / (R * resolution)
    let thetas := mgridAxis 0 rng (1 / (R * resolution))
    let phis := mgridAxis 0 (2 * rng) (1 / (R * resolution))
    .ok (thetas.map fun t => phis.map fun p => ⟨R * sin t * cos p, R * sin t * sin p, R * cos t⟩)

/-- `HemisphereGM.mesh` (sphere_surface.py:119-142) -/
noncomputable def hemisphereMesh (R resolution : ℝ) : Except Err Mesh :=
  if R * resolution = 0 then .error .zerodiv
  else
    let rng := π + 1 / (R * resolution)
    let thetas := mgridAxis (π / 2) rng (1 / (R * resolution))
    let phis := mgridAxis 0 (2 * rng) (1 / (R * resolution))
    .ok (thetas.map fun t => phis.map fun p => ⟨R * sin t * cos p, R * sin t * sin p, R * cos t⟩)

/-- `ParabolicDishGM.mesh` (paraboloid.py:112-137, with the parameters of paraboloid.py:22-23,72-83). -/
noncomputable def dishMesh (diameter focal resolution : ℝ) : Except Err Mesh :=
  let a := 1 / (2 * √focal) ^ 2
  let R := diameter / 2
  if R * resolution = 0 then .error .zerodiv
  else
    let rEnd := R + 1 / 100 / resolution
    let rs := mgridAxis 0 rEnd (1 / resolution)
    let angEnd := 2 * π + 1 / (R * resolution)
    let angs := mgridAxis 0 angEnd (1 / (R * resolution))
    .ok (rs.map fun r => angs.map fun t =>
      let x := r * cos t
      let y := r * sin t
      ⟨x, y, a * x ^ 2 + a * y ^ 2⟩)

/-- `FiniteCylinder.mesh` (cylinder.py:100-122) for the diameter and height given to the constructor. -/
noncomputable def cylinderMesh (diameter height resolution : ℝ) : Except Err Mesh :=
  let R := diameter / 2
  let halfH := height / 2
  if R * resolution = 0 then .error .zerodiv
  else
    let hs := mgridAxis (-halfH) (halfH + 1 / 2 / resolution) (1 / resolution)
    let angEnd := 2 * π + 1 / (R * resolution)
    let angs := mgridAxis 0 angEnd (1 / (R * resolution))
    .ok (hs.map fun h => angs.map fun t => ⟨R * cos t, R * sin t, h⟩)

/-- `TriangularFace.mesh` (triangular_face.py:76-100) for the vertices `a`, `b`. -/
noncomputable def triangleMesh (a b : V3 ℝ) (resolution : Nat) : Except Err Mesh :=
  if resolution < 2 then .error .value
  else
    .ok ((linspace 0 1 resolution).map fun beta => (linspace 0 1 resolution).map fun alpha =>
      (alpha * (1 - beta)) • b + (alpha * beta) • a)

/-- `Surface.mesh` (surface.py:109-126): the geometry manager's mesh in the frame for tracing. -/
noncomputable def surfaceMesh (frame : Tf ℝ) (m : Except Err Mesh) : Except Err Mesh :=
  match m with
  | .error e => .error e
  | .ok m => .ok (meshGlobal frame m)

end Tracer
