import Verif.Model.Mirrors
import Verif.Model.Tree
import Verif.Model.RayBundle
import Verif.Model.Engine
import Mathlib.Algebra.Order.Field.Rat
import Mathlib.Data.Rat.Init

/-!
Unit tests of the repository (`/repo/tests`) run on the model over the rationals, and checked by the
kernel.  They are tests of the model against the expectations recorded in the repository, not proofs of
properties.  Where a test divides its directions by √3 or √2 the replay leaves the division out: hit
points, parents and energies do not depend on it, and the parameters scale.
-/

namespace Tracer.Replay

/-- The corners' rays of several tests, heading down. -/
def down : Bundle ℚ Unit :=
  [⟨⟨0, 0, 1⟩, ⟨1, 1, -1⟩, 100, 0, none, ()⟩, ⟨⟨1, -1, 1⟩, ⟨-1, 1, -1⟩, 200, 1, none, ()⟩,
   ⟨⟨1, 1, 1⟩, ⟨-1, -1, -1⟩, 300, 2, none, ()⟩, ⟨⟨-1, 1, 1⟩, ⟨1, -1, -1⟩, 400, 3, none, ()⟩]

/-- `correct_pts` -/
def cornerPts : List (V3 ℚ) := [⟨1, 1, 0⟩, ⟨0, 0, 0⟩, ⟨0, 0, 0⟩, ⟨0, 0, 0⟩]

/-- A flat mirror at the origin. -/
def plane (opt : Optics (Account ℚ) ℚ Unit) : List (Obj (Account ℚ) ℚ Unit) :=
  (Asm.new [ObjNode.new [Surface.new flatGM opt 1] 1 (Obj.defaultOwn, Obj.defaultNext 1)] [] 0 1 1 :
    SceneAsm (Account ℚ) ℚ Unit).scene

/-- tests/test_tracer_engine.py: TestTraceProtocol1.test_ray_tracer -/
example : (rayTracer (plane perfectMirror) Account.reset down 1 (1 / 20) true).toOption.map TraceResult.vertices =
    some cornerPts := by decide +kernel

/-- tests/test_flat_geometry_manager.py: TestFlatGeomManagerInterface.test_find_intersections, test_get_normals and
TestFlatGeomTranslated.test_find_intersections -/
example : (flatGM (K := ℚ) (E := Unit)).find 1 down = [((1 : ℚ) : WithTop ℚ), ((1 : ℚ) : WithTop ℚ), ((1 : ℚ) : WithTop ℚ), ((1 : ℚ) : WithTop ℚ)] ∧
    (down.map fun r => (flatGM (K := ℚ) (E := Unit)).normal 1 (r.at 1) r.dir) = List.replicate 4 ⟨0, 0, 1⟩ ∧
    (flatGM (K := ℚ) (E := Unit)).find ⟨1, ⟨1, 0, 0⟩⟩ down =
      [((1 : ℚ) : WithTop ℚ), ((1 : ℚ) : WithTop ℚ), ((1 : ℚ) : WithTop ℚ), ((1 : ℚ) : WithTop ℚ)] := by decide +kernel

/-- tests/test_flat_geometry_manager.py: TestBacksideNormals -/
example : ([⟨1, 1, 1⟩, ⟨-1, 1, 1⟩, ⟨-1, -1, 1⟩, ⟨1, -1, 1⟩] : List (V3 ℚ)).map (fun d => flatNormal 1 0 d) =
    List.replicate 4 ⟨0, 0, -1⟩ := by decide +kernel

/-- tests/test_opt_callable.py: TestReflective.test_with_absorptivity -/
example : (rayTracer (plane (reflective (1 / 10))) Account.reset down 1 0 true).toOption.map
      (fun r => (r.vertices, r.directions, r.tree.tail.map fun l => l.map fun q => (q.energy, q.parent))) =
    some (cornerPts, [⟨1, 1, 1⟩, ⟨-1, 1, 1⟩, ⟨-1, -1, 1⟩, ⟨1, -1, 1⟩], [[(90, 0), (180, 1), (270, 2), (360, 3)]]) := by
  decide +kernel

/-- tests/test_opt_callable.py: TestReflective.test_receiver, two rounds -/
example : ((rayTracer (plane (reflectiveReceiver 1 id fun a _ => a)) Account.reset down 1 0 true).toOption.map
      fun r => (r.tree.tail.map fun l => l.map Ray.energy, r.world.getAllHits.toOption)) =
      some ([[0, 0, 0, 0]], some ([100, 200, 300, 400], cornerPts)) ∧
    ((rayTracer (plane (reflectiveReceiver 1 id fun a _ => a)) Account.reset down 1 0 true).toOption.bind fun r =>
      (rayTracer (plane (reflectiveReceiver 1 id fun a _ => a)) r.world down 1 0 true).toOption.bind fun r' =>
        r'.world.getAllHits.toOption) =
      some ([100, 200, 300, 400, 100, 200, 300, 400], cornerPts ++ cornerPts) := by
  decide +kernel

/-- tests/test_opt_callable.py: TestAbsorberReflector.test_up_down -/
example : (rayTracer (plane (absorberReflector 0)) Account.reset
      ((down ++ down.map fun r : Ray ℚ Unit => { r with vertex := ⟨r.vertex.x, r.vertex.y, -1⟩, dir := ⟨r.dir.x, r.dir.y, 1⟩ }).map
        fun r : Ray ℚ Unit => { r with energy := 100 }) 1 (-1) true).toOption.map
      (fun r => r.tree.tail.map fun l => l.map Ray.energy) =
    some [[100, 100, 100, 100, 0, 0, 0, 0]] := by decide +kernel

/-- The rays of tests/test_rect_plate.py and tests/test_round_plate.py. -/
def fourDown : Bundle ℚ Unit :=
  [⟨⟨0, 0, 1⟩, ⟨0, 0, -1⟩, 1, 0, none, ()⟩, ⟨⟨1 / 2, 0, 1⟩, ⟨0, 0, -1⟩, 1, 1, none, ()⟩,
   ⟨⟨2, 0, 1⟩, ⟨0, 0, -1⟩, 1, 2, none, ()⟩, ⟨⟨-2, 0, 1⟩, ⟨0, 0, -1⟩, 1, 3, none, ()⟩]

/-- tests/test_rect_plate.py: test_selection; tests/test_round_plate.py: test_selection -/
example : ((rectPlateGM (1 : ℚ) (1 / 4)).toOption.map fun g => (g.find 1 fourDown).map fun t => decide (t = ⊤)) =
      some [false, false, true, true] ∧
    ((roundPlateGM (1 : ℚ)).toOption.map fun g => (g.find 1 fourDown).map fun t => decide (t = ⊤)) =
      some [false, false, true, true] := by decide +kernel

/-- tests/test_rect_plate.py: test_value_error; tests/test_round_plate.py: test_value_error -/
example : (match (rectPlateGM (-1 : ℚ) 7 : Except Err (Geometry ℚ Unit)) with | .error .value => true | _ => false) = true ∧
    (match (rectPlateGM (1 : ℚ) (-7) : Except Err (Geometry ℚ Unit)) with | .error .value => true | _ => false) = true ∧
    (match (roundPlateGM (-1 : ℚ) : Except Err (Geometry ℚ Unit)) with | .error .value => true | _ => false) = true := by
  decide +kernel

/-- tests/test_triangular_face.py: test_default_frame -/
example : (((triangularFace ⟨4, 2, 0⟩ ⟨-4, 2, 0⟩ : Geometry ℚ Unit).find 1
      [⟨⟨-1, -11, 10⟩, ⟨0, 10, -10⟩, 1, 0, none, ()⟩, ⟨⟨-1, -10, 10⟩, ⟨0, 10, -10⟩, 1, 0, none, ()⟩,
       ⟨⟨-1, -9, 10⟩, ⟨0, 10, -10⟩, 1, 0, none, ()⟩, ⟨⟨1, -11, 10⟩, ⟨0, 10, -10⟩, 1, 0, none, ()⟩,
       ⟨⟨1, -10, 10⟩, ⟨0, 10, -10⟩, 1, 0, none, ()⟩, ⟨⟨1, -9, 10⟩, ⟨0, 10, -10⟩, 1, 0, none, ()⟩]).map
      fun t => decide (t ≠ ⊤)) = [false, false, true, false, false, true] := by decide +kernel

/-- tests/test_tracer_tree.py: TestLowEnergyParenting -/
example : (do
      let g ← (rectPlateGM (1 : ℚ) 1 : Except Err (Geometry ℚ Unit))
      let asm : SceneAsm Unit ℚ Unit := Asm.new [ObjNode.new [Surface.new g (reflective 1) ⟨1, ⟨1 / 2, 0, 1⟩⟩,
        Surface.new g (reflective 0) ⟨1, ⟨-1 / 2, 0, 1⟩⟩] 1 (Obj.defaultOwn, Obj.defaultNext 2)] [] 0 1 1
      let r ← rayTracer asm.scene () [⟨⟨1 / 2, 0, 0⟩, ⟨0, 0, 1⟩, 1, 0, none, ()⟩, ⟨⟨1 / 4, 0, 0⟩, ⟨0, 0, 1⟩, 1, 0, none, ()⟩,
        ⟨⟨-1 / 4, 0, 0⟩, ⟨0, 0, 1⟩, 1, 0, none, ()⟩, ⟨⟨-1 / 2, 0, 0⟩, ⟨0, 0, 1⟩, 1, 0, none, ()⟩] 300 (1 / 20) true
      return orderedParents r.tree : Except Err (List (List Nat))).toOption = some [[2, 3, 0, 1]] := by decide +kernel

/-- tests/models/test_one_sided_mirror.py: TestRectOneSided.test_regular -/
example : (do
      let m ← (rectOneSidedMirror (3 / 2) (3 / 2) (9 / 10) : Except Err (SceneObj Unit ℚ Unit))
      let asm : SceneAsm Unit ℚ Unit := Asm.new [m] [] 0 1 1
      let r ← rayTracer asm.scene () (([((0 : ℚ), (1 : ℚ)), (1 / 2, 1), (2, 1), (-2, 1), (0, -1), (1 / 2, -1), (2, -1), (-2, -1)]).map
        fun p => ⟨⟨p.1, 0, p.2⟩, ⟨0, 0, -p.2⟩, 1000, 0, some 1, ()⟩) 1 (1 / 20) true
      return (r.tree.tail.map fun l => (l.map Ray.energy, (l.filter fun q => decide (0 < q.energy)).map Ray.vertex)) :
        Except Err (List (List ℚ × List (V3 ℚ)))).toOption =
    some [([100, 100, 0, 0], [⟨0, 0, 0⟩, ⟨1 / 2, 0, 0⟩])] := by decide +kernel

/-! tests/test_ray_bundle.py, on bundles as dictionaries.  A column of the array stands for itself. -/

open Dict

/-- The values of an attribute. -/
def column (r : Except Err (Heap ℕ × Dict.Obj)) (p : Name) : Option (List ℕ) :=
  r.toOption.bind fun (h, b) => (b.ref (attrOf p)).bind fun i => (h[i]?).map Arr.cols

/-- TestInheritance.test_inherit_empty_from_empty -/
example : (inherit ([] : Heap ℕ) emptyObj .all []).toOption.isSome = true := by decide +kernel

/-- A bundle of four rays with the given columns. -/
def bundle4 (extra : List (Name × Option Nat)) : Dict.Obj :=
  construct ([(vertices, some 0), (directions, some 1), (energy, none), (parents, some 2), (refIndex, none)] ++ extra)

/-- Positions 1, directions 0, parents 0..3, and arrays to be given. -/
def heap4 : Heap ℕ := [⟨3, [1, 1, 1, 1]⟩, ⟨3, [0, 0, 0, 0]⟩, ⟨0, [0, 1, 2, 3]⟩, ⟨3, [1, 1]⟩, ⟨3, [7, 7, 7, 7]⟩]

/-- TestInheritance.test_inherit_part_from_full -/
example : column (inherit heap4 (bundle4 []) (.idx [0, 1]) [(directions, 3)]) vertices = some [1, 1] ∧
    column (inherit heap4 (bundle4 []) (.idx [0, 1]) [(directions, 3)]) directions = some [1, 1] := by decide +kernel

/-- TestInheritance.test_delete_rays -/
example : column (deleteRays heap4 (bundle4 []) [0]) vertices = some [1, 1, 1] ∧
    column (deleteRays heap4 (bundle4 []) [0]) directions = some [0, 0, 0] ∧
    column (deleteRays heap4 (bundle4 []) [0]) parents = some [1, 2, 3] := by decide +kernel

/-- TestInheritance.test_extra_property -/
example : column (inherit heap4 (bundle4 [(['w'], some 2)]) .all []) ['w'] = some [0, 1, 2, 3] := by decide +kernel

/-- TestConcatenate.test_concat and test_extra_prop -/
example : column (concatenate heap4 [bundle4 [(['w'], some 0)], construct [(vertices, some 4), (directions, some 4),
      (energy, none), (parents, some 2), (refIndex, none), (['w'], some 4)]]) vertices = some [1, 1, 1, 1, 7, 7, 7, 7] ∧
    column (concatenate heap4 [bundle4 [(['w'], some 0)], construct [(vertices, some 4), (directions, some 4),
      (energy, none), (parents, some 2), (refIndex, none), (['w'], some 4)]]) ['w'] = some [1, 1, 1, 1, 7, 7, 7, 7] := by
  decide +kernel

/-! ### tests/test_objects.py: TestNestedAssemblies

With a rotation about X whose sine and cosine are 4/5 and 3/5 in place of an eighth of a circle. -/

/-- `self.eighth_circle_trans` -/
def turn : Tf ℚ := ⟨⟨⟨1, 0, 0⟩, ⟨0, 3 / 5, 4 / 5⟩, ⟨0, -4 / 5, 3 / 5⟩⟩, ⟨0, 1, 0⟩⟩

/-- `self.assembly` of `setUp` -/
def nested : Asm ℚ Unit Unit :=
  Asm.addAssembly (Asm.addObject (ObjNode.new [⟨1, 1, ()⟩] 1 ()) turn (Asm.new [] [] 0 1 1)) turn (Asm.new [] [] 0 1 1)

/-- The transforms the tests look at: the surface's own and temporary one, the object's, and the sub-assembly's. -/
def transforms (a : Asm ℚ Unit Unit) : List (List (Tf ℚ × Tf ℚ)) × List (Tf ℚ) × List (Tf ℚ) :=
  (a.getObjects.map fun o => o.surfs.map fun s => (s.own, s.temp), a.getObjects.map ObjNode.own, a.subs.map Asm.own)

/-- test_initial_transforms -/
example : transforms nested = ([[(1, turn * turn)]], [turn], [turn]) := by decide +kernel

/-- test_retransform_object -/
example : transforms (runCalls [.setObj [0] 0 (.transform 1), .transformChildren [] 1] nested) = ([[(1, turn)]], [1], [turn]) := by decide +kernel

/-- test_retransform_subassembly -/
example : transforms (runCalls [.setAsm [0] (.transform 1), .transformChildren [] 1] nested) = ([[(1, turn)]], [turn], [1]) := by decide +kernel

end Tracer.Replay
