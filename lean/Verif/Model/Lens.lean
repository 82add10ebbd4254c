import Verif.Model.Mirrors
import Verif.Model.Refraction
import Verif.Model.Boundary

/-! The readymade spherical lens (models/spherical_lens.py). -/

namespace Tracer

open Real

variable {E σ : Type _}

/-- `R in [0, None, N.inf, -N.inf]` (models/spherical_lens.py:43, 60): the radius argument is a number, or
`none` for None and the infinities; the result is the radius of a curved face, `none` for a planar one. -/
noncomputable def curvedRadius : Option ℝ → Option ℝ
  | none => none
  | some R => if R = 0 then none else some R

/-- `flip_side` (models/spherical_lens.py:40) -/
noncomputable def flipSide : M3 ℝ := (rotx π).rot

/-- `sect1` or `sect2`: the plane that cuts a sphere (models/spherical_lens.py:49-53, 67-71). -/
noncomputable def lensSection (diameter R : ℝ) : BoundaryFrame ℝ :=
  let z := √(R ^ 2 - diameter ^ 2 / 4)
  if 0 < R then boundaryPlane ⟨0, 0, z⟩ 1 else boundaryPlane ⟨0, 0, -z⟩ flipSide

/-- The bounding volume of a lens face as `CutSphereGM` uses it: `transform_frame`, then `in_bounds`
(sphere_surface.py:169-175) on one point.  Simplification: a singular frame makes `in_bounds` raise, here
no point is in bounds then. -/
noncomputable def lensBound (diameter R : ℝ) (frame : Tf ℝ) (p : V3 ℝ) : Bool :=
  match ((lensSection diameter R).transformFrame frame).planeInBounds [p] with
  | .ok [b] => b
  | _ => false

/-- A spherical face before it is located (models/spherical_lens.py:49-57, 67-75).  If the sphere is
smaller than the aperture the square root is nan and so is the cutting plane: `Err.nonfinite`. -/
noncomputable def lensFace (diameter R n : ℝ) : Except Err (SceneSurf σ ℝ E) :=
  if R ^ 2 < diameter ^ 2 / 4 then .error .nonfinite
  else
    match (cutSphereGM |R| (some (lensBound diameter R)) : Except Err (Geometry ℝ E)) with
    | .error e => .error e
    | .ok g => .ok (Surface.new g (refractiveHomogenous 1 n) 1)

/-- `set_location` of a surface (has_frame.py:42-50) -/
def SurfNode.setLocation {K P : Type _} (v : V3 K) (s : SurfNode K P) : SurfNode K P :=
  ⟨{ s.own with loc := v }, { s.own with loc := v }, s.data⟩

/-- The front face, its radius and the Z coordinate of its cutting plane (models/spherical_lens.py:42-57).
A planar front stops with `NameError`: `B` is not defined. -/
noncomputable def lensFront (diameter n : ℝ) (R1 : Option ℝ) : Except Err (SceneSurf σ ℝ E × ℝ × ℝ) :=
  match curvedRadius R1 with
  | none =>
    match (roundPlateGM (diameter / 2) : Except Err (Geometry ℝ E)) with
    | .error e => .error e
    | .ok _ => .error .name
  | some R =>
    match lensFace diameter R n with
    | .error e => .error e
    | .ok s => .ok (s, R, (lensSection diameter R).own.loc.z)

/-- The back face (models/spherical_lens.py:59-75); `none` instead of radius and cutting plane if it is
planar. -/
noncomputable def lensBack (diameter n : ℝ) (R2 : Option ℝ) : Except Err (SceneSurf σ ℝ E × Option (ℝ × ℝ)) :=
  match curvedRadius R2 with
  | none =>
    match (roundPlateGM (diameter / 2) : Except Err (Geometry ℝ E)) with
    | .error e => .error e
    | .ok g => .ok (Surface.new g (refractiveHomogenous 1 n) ⟨flipSide, 0⟩, none)
  | some R =>
    match lensFace diameter R n with
    | .error e => .error e
    | .ok s => .ok (s, some (R, (lensSection diameter R).own.loc.z))

/-- `opt_power` (models/spherical_lens.py:85); dividing by an infinite `R2` gives 0. -/
noncomputable def lensPower (depth n R1 : ℝ) (R2 : Option ℝ) : ℝ :=
  match R2 with
  | none => (n - 1) * (1 / R1)
  | some R2 => (n - 1) * (1 / R1 - 1 / R2 + depth * (n - 1) / R1 / R2 / n)

/-- `SphericalLens(diameter, depth, R1, R2, refr_idx, transform)` (models/spherical_lens.py:20-116): the object
and what `focal_length()` returns (models/spherical_lens.py:118-123).  The numbers are taken to be
Python floats, whose division by zero raises. -/
noncomputable def sphericalLens (diameter depth : ℝ) (R1 R2 : Option ℝ) (n : ℝ) (transform : Tf ℝ) :
    Except Err (SceneObj σ ℝ E × ℝ) :=
  match lensFront (E := E) (σ := σ) diameter n R1 with
  | .error e => .error e
  | .ok (front, R1, sect1) =>
    match lensBack (E := E) (σ := σ) diameter n R2 with
    | .error e => .error e
    | .ok (back, b) =>
      let power := lensPower depth n R1 (b.map Prod.fst)
      if n = 0 ∨ power = 0 then .error .zerodiv
      else
        let f := 1 / power
        let pd := f * depth * (n - 1) / n / R1
        let (back, cylLoc, cylHeight) : SceneSurf σ ℝ E × ℝ × ℝ :=
          match b with
          | none => (back, 0, 0)
          | some (R2, sect2) =>
            let locb := pd - R2
            (back.setLocation ⟨0, 0, locb⟩, 0 + (locb + sect2) / 2, 0 - (locb + sect2))
        let locf := pd + depth - R1
        let front := front.setLocation ⟨0, 0, locf⟩
        let cylLoc := cylLoc + (locf + sect1) / 2
        let cylHeight := cylHeight + (locf + sect1)
        let surfs : List (SceneSurf σ ℝ E) :=
          if 0 < cylHeight then
            [front, back, Surface.new (finiteCylinderGM diameter cylHeight) (refractiveHomogenous n 1)
              ⟨1, ⟨0, 0, cylLoc⟩⟩]
          else [front, back]
        .ok (ObjNode.new surfs transform (Obj.defaultOwn, Obj.defaultNext surfs.length), f)

end Tracer
