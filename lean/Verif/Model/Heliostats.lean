import Verif.Model.Mirrors
import Verif.Model.Sources
import Mathlib.Analysis.SpecialFunctions.Complex.Arg

/-!
Heliostat fields (`models/heliostat_field.py`), over the reals.
-/

namespace Tracer

open Real

variable {E σ : Type _}

/-- `v / N.sqrt(N.sum(v**2))` for one row.  Simplification: a zero row gives NaN in NumPy; theorems assume
it is not zero (models/heliostat_field.py:68, 70). -/
noncomputable def normalizeRow (v : V3 ℝ) : V3 ℝ :=
  let n := √(v.x ^ 2 + v.y ^ 2 + v.z ^ 2)
  ⟨v.x / n, v.y / n, v.z / n⟩

/-- `solar_vector(azimuth, elevation)` (models/heliostat_field.py:84-98) -/
noncomputable def solarVector (azimuth elevation : ℝ) : V3 ℝ :=
  let z := cos elevation
  let c := √(1 - z ^ 2)
  ⟨-sin azimuth * c, -cos azimuth * c, z⟩

/-- `N.arctan2(y, x)`; the sign of a zero `y` is not modelled (models/heliostat_field.py:72). -/
noncomputable def arctan2 (y x : ℝ) : ℝ := Complex.arg ⟨x, y⟩

/-- A `HeliostatField`: the assembly, whose local objects are the heliostats, with the attributes `_pos` and `_th`.
Simplification: `_heliostats` is the assembly's list of objects, as long as no objects are added (models/heliostat_field.py:33-45). -/
structure HelioField (σ E : Type _) where
  pos : List (V3 ℝ)
  aimHeight : ℝ
  asm : SceneAsm σ ℝ E

/-- The heliostats at their initial transforms (models/heliostat_field.py:38-43). -/
noncomputable def initialHeliostats (width height absorpt : ℝ) : List (V3 ℝ) → Except Err (List (SceneObj σ ℝ E))
  | [] => .ok []
  | p :: ps =>
    match rectOneSidedMirror width height absorpt with
    | .error e => .error e
    | .ok m =>
      match initialHeliostats width height absorpt ps with
      | .error e => .error e
      | .ok ms => .ok (m.set (.transform ⟨(rotx π).rot, p⟩) :: ms)

/-- `HeliostatField(positions, width, height, absorpt, aim_height)` (models/heliostat_field.py:21-45). -/
noncomputable def HelioField.new (positions : List (V3 ℝ)) (width height absorpt aimHeight : ℝ) (junk : M3 ℝ) :
    Except Err (HelioField σ E) :=
  match initialHeliostats width height absorpt positions with
  | .error e => .error e
  | .ok hs => .ok ⟨positions, aimHeight, Asm.new hs [] 0 1 junk⟩

/-- `set_aim_height(h)` (models/heliostat_field.py:51-53) -/
def HelioField.setAimHeight (h : ℝ) (f : HelioField σ E) : HelioField σ E := { f with aimHeight := h }

/-- The transform for the heliostat at `pos` (models/heliostat_field.py:65-80). -/
noncomputable def aimTransform (azimuth elevation aimHeight : ℝ) (pos : V3 ℝ) : Tf ℝ :=
  let sunVec := solarVector azimuth elevation
  let towerVec := -pos
  let towerVec := normalizeRow ⟨towerVec.x, towerVec.y, towerVec.z + aimHeight⟩
  let hstat := normalizeRow (sunVec + towerVec)
  let az := arctan2 hstat.y hstat.x
  let elev := arccos hstat.z
  ⟨(rotz az * roty elev).rot, pos⟩

/-- `aim_to_sun(azimuth, elevation)` (models/heliostat_field.py:55-82): `set_transform` on the heliostat of each
position; there are as many of both. -/
noncomputable def HelioField.aimToSun (azimuth elevation : ℝ) (f : HelioField σ E) : HelioField σ E :=
  ⟨f.pos, f.aimHeight, .mk f.asm.own f.asm.subs
    (List.zipWith (fun (o : SceneObj σ ℝ E) p => o.set (.transform (aimTransform azimuth elevation f.aimHeight p)))
      f.asm.objs f.pos)⟩

/-- `l[::2]` (models/heliostat_field.py:119-120) -/
def evens {α : Type _} : List α → List α
  | [] => []
  | [a] => [a]
  | a :: _ :: l => a :: evens l

/-- `l[1::2]` (models/heliostat_field.py:123-124) -/
def odds {α : Type _} : List α → List α
  | [] => []
  | _ :: l => evens l

/-- `radial_stagger(start_ang, end_ang, az_space, rmin, rmax, r_space)` (models/heliostat_field.py:100-129);
`N.r_[a:b:s]` is `mgridAxis`.  Simplification: the spacings are not zero. -/
noncomputable def radialStagger (startAng endAng azSpace rmin rmax rSpace : ℝ) : List (ℝ × ℝ) :=
  let rs := mgridAxis rmin rmax rSpace
  let angs := mgridAxis startAng endAng (azSpace / 2)
  ((evens rs).flatMap fun r => (evens angs).map fun a => (r * cos a, r * sin a)) ++
  ((odds rs).flatMap fun r => (odds angs).map fun a => (r * cos a, r * sin a))

end Tracer
