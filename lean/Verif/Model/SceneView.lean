import Verif.Model.Np
import Mathlib.Algebra.Field.Defs

/-!
`TracerScene` (mayavi_ui/scene_view.py:17-214), which keeps meshes of an assembly's surfaces and the paths of rays on a MayaVi
scene.  What is on the scene is a list of drawings with handles.  Assumed of MayaVi: `mlab.mesh` and `show_rays` add a drawing
and return its handle, `handle.remove()` takes it away if it is still there, `clf()` takes everything away.
-/

namespace Tracer.View

variable {A I S M L K : Type _} [DecidableEq I]

/-- What the scene's methods ask of the objects they are given, at one moment: the surfaces of an assembly
(`get_surfaces()`), by identity; what `mlab.mesh(*surf.mesh(...))` draws for a surface; the lines that
`TracerEngine(asm).ray_tracer(source, iters, min_energy)` and `show_rays` draw.  Any of them can raise.  `look` stands for
`surf.mesh` with the colour, opacity and resolution chosen in mayavi_ui/scene_view.py:193-213, `run` for
mayavi_ui/scene_view.py:152-156.  Simplification: the arguments `colour`, `resolution`, `opacity` of `show_assembly` are part
of `look`, and `escaping` and `ray_selector` of `run`. -/
structure Outside (A I S M L K : Type _) where
  surfaces : A → Except Err (List I)
  look : I → Except Err M
  run : A → S → Nat → K → Except Err L

/-- A `TracerScene` (mayavi_ui/scene_view.py:17-49): `_asm`, `_meshes` (by surface; the surface and its mesh's handle or
`None`), `_source`, `_num_trace_iters`, `_min_energy`, `_lines`; and of the MayaVi scene the meshes and lines on it, with
handles, and `disable_render`.  Simplification: the order of a dictionary's items is that of insertion. -/
structure Scene (A I S M L K : Type _) where
  asm : A
  meshes : List (I × Option Nat)
  drawn : List (Nat × I × M)
  source : Option S
  iters : Nat
  minEnergy : K
  lines : Option Nat
  rays : List (Nat × L)
  next : Nat
  frozen : Bool

/-- `mesh.remove()` for a handle (mayavi_ui/scene_view.py:60, 87, 148, 209). -/
def erase {α : Type _} (h : Nat) (d : List (Nat × α)) : List (Nat × α) := d.filter fun x => decide (x.1 ≠ h)

/-- `if mesh is not None: mesh.remove()` (mayavi_ui/scene_view.py:59-60, 147-148, 208-209) -/
def eraseOpt {α : Type _} : Option Nat → List (Nat × α) → List (Nat × α)
  | none, d => d
  | some h, d => erase h d

/-- The loop of `show_assembly` (mayavi_ui/scene_view.py:188-214) over the items still to come: the items, the drawings, the
next handle, and the exception that ended it.  `upd` is the argument `update`. -/
def showLoop (look : I → Except Err M) (upd : Option (List I)) :
    List (I × Option Nat) → List (Nat × I × M) → Nat → List (I × Option Nat) × List (Nat × I × M) × Nat × Option Err
  | [], d, n => ([], d, n, none)
  | (i, h) :: rest, d, n =>
    if (upd.map fun u => decide (i ∉ u)) = some true then
      let r := showLoop look upd rest d n
      ((i, h) :: r.1, r.2)
    else
      let d := eraseOpt h d
      match look i with
      | .error e => ((i, h) :: rest, d, n, some e)
      | .ok m =>
        let r := showLoop look upd rest (d ++ [(n, i, m)]) (n + 1)
        ((i, some n) :: r.1, r.2)

namespace Scene

/-- `show_assembly(update=upd)` (mayavi_ui/scene_view.py:172-214) -/
def showAssembly (w : Outside A I S M L K) (upd : Option (List I)) (s : Scene A I S M L K) :
    Scene A I S M L K × Option Err :=
  let r := showLoop w.look upd s.meshes s.drawn s.next
  ({ s with meshes := r.1, drawn := r.2.1, next := r.2.2.1 }, r.2.2.2)

/-- The keys of `dict((id(s), (s, None)) for s in l)` (mayavi_ui/scene_view.py:71), each once. -/
def keysOf : List I → List I
  | [] => []
  | i :: l => i :: (keysOf l).filter fun j => decide (j ≠ i)

/-- `set_assembly(asm)` (mayavi_ui/scene_view.py:63-72) -/
def setAssembly (w : Outside A I S M L K) (a : A) (s : Scene A I S M L K) : Scene A I S M L K × Option Err :=
  let s := { s with asm := a }
  match w.surfaces a with
  | .error e => (s, some e)
  | .ok l => { s with meshes := (keysOf l).map fun i => (i, none) }.showAssembly w none

/-- The loop that removes surfaces (mayavi_ui/scene_view.py:84-88) over the items still to come: items kept, drawings, and
the exception that ended it.  `None` has no `remove`. -/
def removeLoop (ids : List I) :
    List (I × Option Nat) → List (Nat × I × M) → List (I × Option Nat) × List (Nat × I × M) × Option Err
  | [], d => ([], d, none)
  | (i, h) :: rest, d =>
    if i ∈ ids then
      let r := removeLoop ids rest d
      ((i, h) :: r.1, r.2)
    else
      match h with
      | none => ((i, none) :: rest, d, some .attribute)
      | some h => removeLoop ids rest (erase h d)

/-- The surfaces not seen before (mayavi_ui/scene_view.py:90-95), given the keys of `_meshes`. -/
def newSurfs : List I → List I → List I
  | _, [] => []
  | keys, i :: l => if i ∈ keys then newSurfs keys l else i :: newSurfs (keys ++ [i]) l

/-- `update_surfaces()` (mayavi_ui/scene_view.py:74-96) -/
def updateSurfaces (w : Outside A I S M L K) (s : Scene A I S M L K) : Scene A I S M L K × Option Err :=
  match w.surfaces s.asm with
  | .error e => (s, some e)
  | .ok ids =>
    match removeLoop ids s.meshes s.drawn with
    | (meshes, drawn, some e) => ({ s with meshes := meshes, drawn := drawn }, some e)
    | (meshes, drawn, none) =>
      let new := newSurfs (meshes.map Prod.fst) ids
      { s with meshes := meshes ++ new.map (fun i => (i, none)), drawn := drawn }.showAssembly w (some new)

/-- `clear_scene()` (mayavi_ui/scene_view.py:51-61) -/
def clear (s : Scene A I S M L K) : Scene A I S M L K :=
  { s with meshes := s.meshes.map fun x => (x.1, none), drawn := [], lines := none, rays := [] }

/-- `plot_ray_trace()` (mayavi_ui/scene_view.py:134-158) -/
def plotRayTrace (w : Outside A I S M L K) (s : Scene A I S M L K) : Scene A I S M L K × Option Err :=
  match s.source with
  | none => (s, none)
  | some src =>
    let s := { s with rays := eraseOpt s.lines s.rays, lines := none, frozen := true }
    match w.run s.asm src s.iters s.minEnergy with
    | .error e => (s, some e)
    | .ok l => ({ s with lines := some s.next, rays := s.rays ++ [(s.next, l)], next := s.next + 1, frozen := false }, none)

/-- `set_source(source)` (mayavi_ui/scene_view.py:98-106) -/
def setSource (w : Outside A I S M L K) (src : Option S) (s : Scene A I S M L K) : Scene A I S M L K × Option Err :=
  { s with source := src }.plotRayTrace w

/-- `set_trace_control(**kwds)` (mayavi_ui/scene_view.py:123-132) -/
def setTraceControl (iters : Option Nat) (minEnergy : Option K) (s : Scene A I S M L K) : Scene A I S M L K :=
  { s with iters := iters.getD s.iters, minEnergy := minEnergy.getD s.minEnergy }

/-- `TracerScene(assembly, source)` (mayavi_ui/scene_view.py:20-49), on an empty MayaVi scene.  If it raises there is no
object. -/
def new [Field K] (w : Outside A I S M L K) (a : A) (src : Option S) : Except Err (Scene A I S M L K) :=
  match setAssembly w a ⟨a, [], [], none, 200000000, 5 / 100, none, [], 0, false⟩ with
  | (_, some e) => .error e
  | (s, none) =>
    match { s with source := src }.plotRayTrace w with
    | (_, some e) => .error e
    | (s, none) => .ok s

end Scene

/-- A call on a scene, or a change outside of it: surfaces are added, moved, removed, recoloured, bundles changed (mayavi_ui/scene_view.py:51-214). -/
inductive Op (A I S M L K : Type _) where
  | outside (w : Outside A I S M L K)
  | setAssembly (a : A)
  | showAssembly (upd : Option (List I))
  | updateSurfaces
  | clear
  | setSource (src : Option S)
  | plotRayTrace
  | setTraceControl (iters : Option Nat) (minEnergy : Option K)

/-- The state after a call, whether it raises or not (mayavi_ui/scene_view.py:51-214). -/
def Op.run : Op A I S M L K → Outside A I S M L K × Scene A I S M L K → Outside A I S M L K × Scene A I S M L K
  | .outside w, (_, s) => (w, s)
  | .setAssembly a, (w, s) => (w, (s.setAssembly w a).1)
  | .showAssembly upd, (w, s) => (w, (s.showAssembly w upd).1)
  | .updateSurfaces, (w, s) => (w, (s.updateSurfaces w).1)
  | .clear, (w, s) => (w, s.clear)
  | .setSource src, (w, s) => (w, (s.setSource w src).1)
  | .plotRayTrace, (w, s) => (w, (s.plotRayTrace w).1)
  | .setTraceControl it e, (w, s) => (w, s.setTraceControl it e)

/-- A history of calls. The calls are those of mayavi_ui/scene_view.py:51-214. -/
def runOps (ops : List (Op A I S M L K)) (x : Outside A I S M L K × Scene A I S M L K) :
    Outside A I S M L K × Scene A I S M L K := ops.foldl (fun x op => op.run x) x

end Tracer.View
