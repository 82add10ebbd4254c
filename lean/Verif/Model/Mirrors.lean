import Verif.Model.Scene
import Verif.Model.Flat
import Verif.Model.Optics
import Verif.Model.Quadric
import Verif.Model.Spatial

/-!
Readymade components (`tracer/models`): one-sided mirrors and receivers, the homogenizer, collectors
with a homogenized receiver.
-/

namespace Tracer

open Real

section
variable {K E σ : Type _} [Field K] [LinearOrder K]

/-- `rect_one_sided_mirror(width, height, absorptivity)` (models/one_sided_mirror.py:31-49). -/
def rectOneSidedMirror (width height absorptivity : K) : Except Err (SceneObj σ K E) :=
  match (rectPlateGM width height : Except Err (Geometry K E)) with
  | .error e => .error e
  | .ok g =>
    .ok (ObjNode.new [Surface.new g (absorberReflector absorptivity) 1] 1 (Obj.defaultOwn, Obj.skipNext 1))

/-- `one_sided_receiver(width, height, absorptivity)` (models/one_sided_mirror.py:51-73): the object and
its front surface; `get`, `set` locate the receiver's memory. -/
def oneSidedReceiver (width height absorptivity : K) (get : σ → Account K) (set : Account K → σ → σ) :
    Except Err (SceneSurf σ K E × SceneObj σ K E) :=
  match (rectPlateGM width height : Except Err (Geometry K E)) with
  | .error e => .error e
  | .ok g =>
    let front : SceneSurf σ K E := Surface.new g (reflectiveReceiver absorptivity get set) 1
    let back : SceneSurf σ K E := Surface.new g (reflective 1) ⟨1, ⟨0, 0, -(1 / 10 ^ 10)⟩⟩
    .ok (front, ObjNode.new [front, back] 1 (Obj.defaultOwn, Obj.skipNext 2))

end

variable {E σ : Type _}

/-- `rect_homogenizer(aperture_xdim, aperture_ydim, height, opt_eff)` (models/homogenizer.py:11-43);
`junk` is the uninitialised rotation of the new assembly (`Asm.new`). -/
noncomputable def rectHomogenizer (xdim ydim height optEff : ℝ) (junk : M3 ℝ) : Except Err (SceneAsm σ ℝ E) := do
  let abs := 1 - optEff
  let wallXp ← rectOneSidedMirror height ydim abs
  let wallXp := wallXp.set (.transform (translate (xdim / 2) 0 (height / 2) * roty (-π / 2)))
  let wallXn ← rectOneSidedMirror height ydim abs
  let wallXn := wallXn.set (.transform (translate (-xdim / 2) 0 (height / 2) * roty (π / 2)))
  let wallYp ← rectOneSidedMirror xdim height abs
  let wallYp := wallYp.set (.transform (translate 0 (ydim / 2) (height / 2) * rotx (π / 2)))
  let wallYn ← rectOneSidedMirror xdim height abs
  let wallYn := wallYn.set (.transform (translate 0 (-ydim / 2) (height / 2) * rotx (-π / 2)))
  return Asm.new [wallXp, wallXn, wallYp, wallYn] [] 0 1 junk

/-- `HomogenizedLocalReceiver(main_reflector, receiver_pos, receiver_dims, homogenizer_depth,
homog_opt_eff)` (models/homogenized_local_receiver.py:14-48).  Simplification: the receiver and the
homogenizer share one array for their transforms here (`Model/Frames.lean` treats such sharing);
the model gives each its own. -/
noncomputable def homogenizedLocalReceiver (reflector : SceneSurf σ ℝ E) (receiverPos : ℝ) (sides : ℝ × ℝ)
    (depth optEff : ℝ) (get : σ → Account ℝ) (set : Account ℝ → σ → σ) (junk : M3 ℝ) :
    Except Err (SceneAsm σ ℝ E) :=
  match oneSidedReceiver (E := E) sides.1 sides.2 1 get set with
  | .error e => .error e
  | .ok (_, recObj) =>
    let receiverFrame := translate 0 0 receiverPos * rotx π
    let recObj := recObj.set (.transform receiverFrame)
    match rectHomogenizer sides.1 sides.2 depth optEff junk with
    | .error e => .error e
    | .ok hom =>
      let hom := hom.set (.transform receiverFrame)
      let refl : SceneObj σ ℝ E := ObjNode.new [reflector] 1 (Obj.defaultOwn, Obj.defaultNext 1)
      .ok (Asm.new [recObj, refl] [hom] 0 1 junk)

/-- `MiniDish(diameter, focal_length, dish_opt_eff, receiver_pos, receiver_side, homogenizer_depth,
homog_opt_eff, receiver_aspect)` (models/tau_minidish.py:22-47). -/
noncomputable def miniDish (diameter focal dishEff receiverPos side depth homogEff aspect : ℝ)
    (get : σ → Account ℝ) (set : Account ℝ → σ → σ) (junk : M3 ℝ) : Except Err (SceneAsm σ ℝ E) :=
  homogenizedLocalReceiver (Surface.new (parabolicDishGM diameter focal) (reflective (1 - dishEff)) 1)
    receiverPos (side, side * aspect) depth homogEff get set junk

/-- `PETAL(...)` (models/PETAL_dish.py:14-41). -/
noncomputable def petal (diameter focal dishEff receiverPos side depth homogEff aspect : ℝ)
    (get : σ → Account ℝ) (set : Account ℝ → σ → σ) (junk : M3 ℝ) : Except Err (SceneAsm σ ℝ E) :=
  homogenizedLocalReceiver (Surface.new (hexagonalDishGM diameter focal) (reflective (1 - dishEff)) 1)
    receiverPos (side, side * aspect) depth homogEff get set junk

/-- `get_external_dimensions()` of a `MiniDish` and of a `PETAL`, as the constructors leave them
(models/tau_minidish.py:45-56, models/PETAL_dish.py:39-50). -/
def externalDimensions (diameter receiverPos : ℝ) : ℝ × ℝ := (diameter, receiverPos)

/-- `standard_minidish_measures(diameter, concentration, virt_sources)`
(models/tau_minidish.py:59-79): `f, W, H`.  Python's `/` of scalars raises `ZeroDivisionError`, `math.sqrt`
raises `ValueError` for negative numbers. -/
noncomputable def standardMinidishMeasures (diameter concentration virtSources : ℝ) : Except Err (ℝ × ℝ × ℝ) :=
  let f := diameter / 4 / (√2 - 1)
  if concentration = 0 then .error .zerodiv
  else if π / concentration < 0 then .error .value
  else
    let W := diameter / 2 * √(π / concentration)
    let n := virtSources + 1
    if diameter - n * W = 0 then .error .zerodiv
    else
      let H := n * W * f / (diameter - n * W)
      .ok (f, W, H)

/-- `standard_minidish(diameter, concentration, virt_sources, dish_opt_eff, homog_opt_eff)`
(models/tau_minidish.py:81-103). -/
noncomputable def standardMinidish (diameter concentration virtSources dishEff homogEff : ℝ)
    (get : σ → Account ℝ) (set : Account ℝ → σ → σ) (junk : M3 ℝ) :
    Except Err (SceneAsm σ ℝ E × ℝ × ℝ × ℝ) :=
  match standardMinidishMeasures diameter concentration virtSources with
  | .error e => .error e
  | .ok (f, W, H) =>
    match miniDish diameter f dishEff (f + H) W H homogEff 1 get set junk with
    | .error e => .error e
    | .ok dish => .ok (dish, f, W, H)

end Tracer
