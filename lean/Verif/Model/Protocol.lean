import Verif.Model.Flat
import Verif.Model.Quadric

/-!
Surfaces and geometry managers as Python objects whose attributes come and go during a trace, and the
engine working on such objects.

The other modules describe a geometry manager by the values it computes.  Here the methods act on the
instance's attributes: reading an attribute that is not there is an `AttributeError`, and so is deleting it.
A method returns its result, or the exception it raised, together with the attributes afterwards.
-/

namespace Tracer

variable {K E σ : Type _}

/-- `_backside` (flat_surface.py:54, 68): first a mask over the registered rays, after `select_rays` the
positions among the selected rays. -/
inductive Backside where
  | mask (m : List Bool)
  | pos (p : List Nat)

/-- The attributes of a geometry manager that change during a trace; `none` is an attribute that does not
exist.  An entry `none` of `glob` or `vertices` is a point that is inf, nan or uninitialised memory.
Simplification: of `_local` only the existence is kept, since its value is consumed within the method that
sets it (geometry_manager.py:21-22, flat_surface.py:53-54, 67-76, quadric.py:90, 138-144). -/
structure Attrs (K E : Type _) where
  /-- `_working_frame` -/
  workingFrame : Option (Tf K) := none
  /-- `_working_bundle` -/
  workingBundle : Option (Bundle K E) := none
  /-- `_params` -/
  params : Option (List (WithTop K)) := none
  /-- `_backside` -/
  backside : Option Backside := none
  /-- `_idxs` -/
  idxs : Option (List Nat) := none
  /-- `_global` -/
  glob : Option (List (Option (V3 K))) := none
  /-- `_local` -/
  loc : Option Unit := none
  /-- `_vertices` -/
  vertices : Option (List (Option (V3 K))) := none
  /-- `_norm` -/
  norm : Option (List (V3 K)) := none

/-- The methods of a geometry manager (geometry_manager.py:8-62) as the engine and the optics callables use
them. -/
structure GM (K E : Type _) where
  /-- `find_intersections(frame, ray_bundle)` -/
  find : Tf K → Bundle K E → Attrs K E → Except Err (List (WithTop K)) × Attrs K E
  /-- `select_rays(idxs)` -/
  select : List Nat → Attrs K E → Except Err Unit × Attrs K E
  /-- `get_normals()` -/
  normals : Attrs K E → Except Err (List (V3 K))
  /-- `get_intersection_points_global()` -/
  points : Attrs K E → Except Err (List (V3 K))
  /-- `done()` -/
  done : Attrs K E → Except Err Unit × Attrs K E

/-- `up()` (geometry_manager.py:28-33) -/
def Attrs.up (a : Attrs K E) : Except Err (V3 K) :=
  match a.workingFrame with
  | none => .error .attribute
  | some f => .ok f.rot.c3

/-- `GeometryManager.done` (geometry_manager.py:35-42) -/
def Attrs.baseDone (a : Attrs K E) : Except Err Unit × Attrs K E :=
  if a.workingFrame.isSome then
    let a := { a with workingFrame := none }
    match a.workingBundle with
    | none => (.error .attribute, a)
    | some _ => (.ok (), { a with workingBundle := none })
  else (.ok (), a)

/-- `self._backside[idxs]` followed by `N.nonzero` (flat_surface.py:68, 162). -/
def Backside.select (b : Backside) (idxs : List Nat) : Except Err (List Nat) :=
  match b with
  | .mask m =>
    match Np.take m idxs with
    | .error e => .error e
    | .ok l => .ok (Np.nonzero l)
  | .pos p =>
    match Np.take p idxs with
    | .error e => .error e
    | .ok l => .ok (Np.nonzero (l.map fun i => decide (i ≠ 0)))

/-- Points that are to be used must be numbers (they are read in optics_callables.py through flat_surface.py:94, quadric.py:143, 160). -/
def allPoints : List (Option (V3 K)) → Except Err (List (V3 K))
  | [] => .ok []
  | none :: _ => .error .nonfinite
  | some p :: l =>
    match allPoints l with
    | .error e => .error e
    | .ok ps => .ok (p :: ps)

section
variable [Field K] [LinearOrder K]

/-- `norms[:,self._backside] *= -1` on `n` copies of the normal (flat_surface.py:83-84). -/
def Backside.flip (b : Backside) (n : Nat) (c : V3 K) : Except Err (List (V3 K)) :=
  match b with
  | .mask m => if m.length = n then .ok (m.map fun x => if x then -c else c) else .error .index
  | .pos p =>
    if p.all (fun i => decide (i < n)) then
      .ok ((List.range n).map fun i => if p.contains i then -c else c)
    else .error .index

/-- The point of a ray at a parameter, `v + p[None,:]*d` (flat_surface.py:76, 142). -/
def pointAt (r : Ray K E) (p : WithTop K) : Option (V3 K) :=
  match p with
  | none => none
  | some t => some (r.at t)

/-! ### flat_surface.py -/

/-- `FlatGeometryManager.find_intersections` (flat_surface.py:16-56). -/
def flatFindA (frame : Tf K) (rays : Bundle K E) (a : Attrs K E) : Except Err (List (WithTop K)) × Attrs K E :=
  let params := rays.map fun r => flatParam frame r.vertex r.dir
  (.ok params, { a with
    workingFrame := some frame, workingBundle := some rays, params := some params,
    backside := some (.mask (rays.map fun r => decide (0 < V3.dot r.dir frame.rot.c3))) })

/-- `FlatGeometryManager.select_rays` (flat_surface.py:58-76). -/
def flatSelectA (idxs : List Nat) (a : Attrs K E) : Except Err Unit × Attrs K E :=
  let a := { a with idxs := some idxs }
  match a.backside with
  | none => (.error .attribute, a)
  | some bs =>
    match bs.select idxs with
    | .error e => (.error e, a)
    | .ok pos =>
      let a := { a with backside := some (.pos pos) }
      match a.workingBundle with
      | none => (.error .attribute, a)
      | some rays =>
        match Np.take rays idxs with
        | .error e => (.error e, a)
        | .ok sel =>
          match a.params with
          | none => (.error .attribute, a)
          | some params =>
            match Np.take params idxs with
            | .error e => (.error e, a)
            | .ok p => (.ok (), { a with params := none, glob := some (List.zipWith pointAt sel p) })

/-- `FlatGeometryManager.get_normals` (flat_surface.py:78-85). -/
def flatNormalsA (a : Attrs K E) : Except Err (List (V3 K)) :=
  match a.workingFrame, a.idxs, a.backside with
  | some f, some idxs, some bs => bs.flip idxs.length f.rot.c3
  | _, _, _ => .error .attribute

/-- `FlatGeometryManager.get_intersection_points_global` (flat_surface.py:87-94). -/
def flatPointsA (a : Attrs K E) : Except Err (List (V3 K)) :=
  match a.glob with
  | none => .error .attribute
  | some g => allPoints g

/-- `FlatGeometryManager.done` (flat_surface.py:96-105). -/
def flatDoneA (a : Attrs K E) : Except Err Unit × Attrs K E :=
  match a.baseDone with
  | (.error e, a) => (.error e, a)
  | (.ok _, a) => (.ok (), { a with glob := none, idxs := none })

/-- `FlatGeometryManager` (flat_surface.py:11-105). -/
def flatObj : GM K E := ⟨flatFindA, flatSelectA, flatNormalsA, flatPointsA, flatDoneA⟩

/-- `FiniteFlatGM.find_intersections` (flat_surface.py:115-150) and the trimming of its subclasses.
`keepLocal` says that the subclass does not delete `_local` (triangular_face.py:35-74).
Simplification: `numpy.linalg.inv` raises for a singular frame, which no rigid frame is. -/
def finiteFindA (outside : Tf K → V3 K → Bool) (keepLocal : Bool) (frame : Tf K) (rays : Bundle K E)
    (a : Attrs K E) : Except Err (List (WithTop K)) × Attrs K E :=
  match flatFindA frame rays a with
  | (.error e, a) => (.error e, a)
  | (.ok prms, a) =>
    match a.workingBundle, a.params with
    | some rays, some p =>
      let glob := List.zipWith pointAt rays p
      let prms := List.zipWith (fun t g =>
        match g with
        | none => t
        | some x => if outside frame x then ⊤ else t) prms glob
      (.ok prms, { a with params := none, glob := some glob, loc := if keepLocal then some () else none })
    | _, _ => (.error .attribute, a)

/-- `FiniteFlatGM.select_rays` (flat_surface.py:152-163). -/
def finiteSelectA (idxs : List Nat) (a : Attrs K E) : Except Err Unit × Attrs K E :=
  let a := { a with idxs := some idxs }
  match a.backside with
  | none => (.error .attribute, a)
  | some bs =>
    match bs.select idxs with
    | .error e => (.error e, a)
    | .ok pos =>
      let a := { a with backside := some (.pos pos) }
      match a.glob with
      | none => (.error .attribute, a)
      | some g =>
        match Np.take g idxs with
        | .error e => (.error e, a)
        | .ok g => (.ok (), { a with glob := some g })

/-- `RectPlateGM`, `RoundPlateGM` (flat_surface.py:165-264) with `keepLocal := false` and `TriangularFace`
(triangular_face.py) with `keepLocal := true`. -/
def finiteFlatObj (outside : Tf K → V3 K → Bool) (keepLocal : Bool) : GM K E :=
  ⟨finiteFindA outside keepLocal, finiteSelectA, flatNormalsA, flatPointsA, flatDoneA⟩

/-! ### quadric.py -/

/-- `QuadricGM.find_intersections` (quadric.py:31-92) for the parameters and the points it computes. -/
def quadricFindA (find : Tf K → Bundle K E → List (WithTop K))
    (verts : Tf K → Bundle K E → List (Option (V3 K))) (frame : Tf K) (rays : Bundle K E) (a : Attrs K E) :
    Except Err (List (WithTop K)) × Attrs K E :=
  (.ok (find frame rays), { a with
    workingFrame := some frame, workingBundle := some rays, vertices := some (verts frame rays) })

/-- `QuadricGM.select_rays` (quadric.py:128-144); every subclass' `_normals` reads the working frame
(sphere_surface.py:44, paraboloid.py:34, cylinder.py:46). -/
def quadricSelectA (normal : Tf K → V3 K → V3 K → V3 K) (idxs : List Nat) (a : Attrs K E) :
    Except Err Unit × Attrs K E :=
  let a := { a with idxs := some idxs }
  match a.vertices with
  | none => (.error .attribute, a)
  | some vs =>
    match Np.take vs idxs with
    | .error e => (.error e, a)
    | .ok sel =>
      let a := { a with vertices := some sel }
      match a.workingBundle with
      | none => (.error .attribute, a)
      | some rays =>
        match Np.take rays idxs with
        | .error e => (.error e, a)
        | .ok rs =>
          match a.workingFrame with
          | none => (.error .attribute, a)
          | some f =>
            match allPoints sel with
            | .error e => (.error e, a)
            | .ok ps => (.ok (), { a with norm := some (List.zipWith (fun p r => normal f p r.dir) ps rs) })

/-- `QuadricGM.get_normals` (quadric.py:146-151). -/
def quadricNormalsA (a : Attrs K E) : Except Err (List (V3 K)) :=
  match a.norm with
  | none => .error .attribute
  | some n => .ok n

/-- `QuadricGM.get_intersection_points_global` (quadric.py:153-160). -/
def quadricPointsA (a : Attrs K E) : Except Err (List (V3 K)) :=
  match a.vertices with
  | none => .error .attribute
  | some v => allPoints v

/-- `QuadricGM.done` (quadric.py:162-172). -/
def quadricDoneA (a : Attrs K E) : Except Err Unit × Attrs K E :=
  let a := { a with vertices := none }
  if a.idxs.isSome then
    match a.norm with
    | none => (.error .attribute, a)
    | some _ => Attrs.baseDone { a with norm := none, idxs := none }
  else a.baseDone

/-- A subclass of `QuadricGM` (quadric.py:31-172). -/
def quadricObj (find : Tf K → Bundle K E → List (WithTop K))
    (verts : Tf K → Bundle K E → List (Option (V3 K))) (normal : Tf K → V3 K → V3 K → V3 K) : GM K E :=
  ⟨quadricFindA find verts, quadricSelectA normal, quadricNormalsA, quadricPointsA, quadricDoneA⟩

end

/-- `N.choose(select, inters_coords)` for one column (quadric.py:87). -/
def Cand.choosePoint (b : Bool) (c : Cand) : V3 ℝ := if b then c.p1 else c.p0

/-- The array `vertices` of `QuadricGM.find_intersections` (quadric.py:54, 62-64, 83-90). -/
noncomputable def quadricVerts (abc : V3 ℝ → V3 ℝ → ℝ × ℝ × ℝ) (select : List Cand → List (Option Bool))
    (rays : Bundle ℝ E) : List (Option (V3 ℝ)) :=
  let cands := rays.map fun r => candidate (abc r.vertex r.dir) r.vertex r.dir
  let anyInters := cands.map Option.isSome
  let hits := cands.filterMap id
  let sel := select hits
  let notMissed := sel.map Option.isSome
  let anyInters' := Np.scatter anyInters notMissed anyInters
  let idx := sel.filterMap id
  let chosen := List.zipWith Cand.choosePoint idx (Np.mask notMissed hits)
  Np.scatter anyInters' (chosen.map fun p : V3 ℝ => some p) (List.replicate rays.length none)

/-- A subclass of `QuadricGM` with its `get_ABC`, `_select_coords` and `_normals` (quadric.py:31-172). -/
noncomputable def quadricClass (abc : Tf ℝ → V3 ℝ → V3 ℝ → ℝ × ℝ × ℝ)
    (select : Tf ℝ → List Cand → List (Option Bool)) (normal : Tf ℝ → V3 ℝ → V3 ℝ → V3 ℝ) : GM ℝ E :=
  quadricObj (fun frame rays => quadricFind (abc frame) (select frame) rays)
    (fun frame rays => quadricVerts (abc frame) (select frame) rays) normal

/-! ### surface.py -/

/-- The attributes of a `Surface` that change during a trace, with those of its geometry manager.
Simplification: every surface has a geometry manager of its own (`Model/Shared.lean` does without) (surface.py:58, 70). -/
structure SurfAttrs (K E : Type _) where
  /-- the attributes of `_geom` -/
  geom : Attrs K E := {}
  /-- `_current_bundle` -/
  currentBundle : Option (Bundle K E) := none
  /-- `_selected` -/
  selected : Option (List Nat) := none

/-- A `Surface` (surface.py:10-42): geometry manager, optics callable and `_temp_frame`. -/
structure SurfObj (σ K E : Type _) where
  gm : GM K E
  opt : Optics σ K E
  frame : Tf K

/-- `Surface.register_incoming` (surface.py:44-59). -/
def SurfObj.register (s : SurfObj σ K E) (rays : Bundle K E) (a : SurfAttrs K E) :
    Except Err (List (WithTop K)) × SurfAttrs K E :=
  let a := { a with currentBundle := some rays }
  let r := s.gm.find s.frame rays a.geom
  (r.1, { a with geom := r.2 })

/-- `Surface.select_rays` (surface.py:61-71). -/
def SurfObj.select (s : SurfObj σ K E) (idxs : List Nat) (a : SurfAttrs K E) :
    Except Err Unit × SurfAttrs K E :=
  let a := { a with selected := some idxs }
  let r := s.gm.select idxs a.geom
  (r.1, { a with geom := r.2 })

/-- The data of the selected rays as an optics callable reads them (surface.py:83). -/
def zipRecs : List Nat → List (Ray K E) → List (V3 K) → List (V3 K) → List (HitRec K E)
  | i :: is, r :: rs, p :: ps, n :: ns => ⟨i, r, p, n⟩ :: zipRecs is rs ps ns
  | _, _, _, _ => []

/-- `Surface.get_outgoing` (surface.py:73-83).  Simplification: the callable is given all the data it may
ask for; one that asks for less cannot raise more. -/
def SurfObj.outgoing (s : SurfObj σ K E) (w : σ) (a : SurfAttrs K E) : Except Err (Bundle K E × σ) :=
  match a.currentBundle, a.selected with
  | some rays, some sel =>
    match Np.take rays sel, s.gm.points a.geom, s.gm.normals a.geom, a.geom.up with
    | .ok rs, .ok ps, .ok ns, .ok up => s.opt w up (zipRecs sel rs ps ns)
    | .error e, _, _, _ => .error e
    | _, .error e, _, _ => .error e
    | _, _, .error e, _ => .error e
    | _, _, _, .error e => .error e
  | _, _ => .error .attribute

/-- `Surface.done` (surface.py:85-93). -/
def SurfObj.done (s : SurfObj σ K E) (a : SurfAttrs K E) : Except Err Unit × SurfAttrs K E :=
  let r := s.gm.done a.geom
  (r.1, { a with currentBundle := none, geom := r.2 })

/-! ### tracer_engine.py -/

/-- An `AssembledObject` (object.py:40-98), see `Obj`. -/
structure TracedObj (σ K E : Type _) where
  surfs : List (SurfObj σ K E)
  own : Bundle K E → Nat → List Bool
  next : Bundle K E → Nat → List (List Bool)

section
variable [Field K] [LinearOrder K]

/-- The loop of `intersect_ray` (tracer_engine.py:49-60). -/
def registerAll (b : Bundle K E) :
    List (SurfObj σ K E) → List (List Bool) → List (SurfAttrs K E) →
    Except Err (List (List (WithTop K))) × List (SurfAttrs K E)
  | s :: surfs, owned :: owneds, a :: as =>
    if owned.any id then
      let inRays := if owned.any (! ·) then Np.mask owned b else b
      match s.register inRays a with
      | (.error e, a) => (.error e, a :: as)
      | (.ok prms, a) =>
        let r := registerAll b surfs owneds as
        (r.1.map fun rows => Np.scatter owned prms (List.replicate b.length 0) :: rows, a :: r.2)
    else
      let r := registerAll b surfs owneds as
      (r.1.map fun rows => List.replicate b.length 0 :: rows, a :: r.2)
  | _, _, as => (.ok [], as)

/-- `TracerEngine.intersect_ray` (tracer_engine.py:29-77). -/
def intersectRayA (b : Bundle K E) (surfs : List (SurfObj σ K E)) (surfOwn : List Nat)
    (rayOwn : List (Option Nat)) (relev : List (List Bool)) (as : List (SurfAttrs K E)) :
    Except Err (List (List Bool) × List (List Bool)) × List (SurfAttrs K E) :=
  let owned := List.zipWith (ownedMask rayOwn) surfOwn relev
  match registerAll b surfs owned as with
  | (.error e, as) => (.error e, as)
  | (.ok stack, as) =>
    if stack.any fun row => row.any fun p => decide (p < ((-negTol : K) : WithTop K)) then
      (.error .value, as)
    else if surfs.isEmpty && ! b.isEmpty then (.error .value, as)
    else (.ok (frontMask b.length (dropSelfHits stack), owned), as)

/-- The numbers of surfaces of the objects (tracer_engine.py:113). -/
def perObjA (objs : List (TracedObj σ K E)) : List Nat := objs.map fun o => o.surfs.length

/-- tracer_engine.py:148-163: ownership and relevancy of the rays leaving a surface. -/
def policyA (objs : List (TracedObj σ K E)) (surfIdx : Nat) (newOutg newRecord : Bundle K E) (weak : List Bool) :
    Except Err (Contribution K E) :=
  let ownership := Np.repeatArange 0 (perObjA objs)
  match ownership[surfIdx]? with
  | none => .error .index
  | some objIdx =>
    match (0 :: Np.accumulate 0 (perObjA objs))[objIdx]?, objs[objIdx]? with
    | some before, some obj =>
      let relIdx := surfIdx - before
      let own := (obj.own newOutg relIdx).map fun o => if o then some objIdx else none
      let relev := Np.scatter (ownership.map (· == objIdx)) (obj.next newOutg relIdx)
        (List.replicate ownership.length (List.replicate newOutg.length true))
      .ok ⟨newOutg, newRecord, weak, own, relev⟩
    | _, _ => .error .index

/-- Body of the loop over surfaces for a surface that was hit (tracer_engine.py:133-164). -/
def contributeA (objs : List (TracedObj σ K E)) (minE : K) (w : σ) (surfIdx : Nat) (s : SurfObj σ K E)
    (front owned : List Bool) (a : SurfAttrs K E) : Except Err (Contribution K E × σ) × SurfAttrs K E :=
  let inters := Np.mask owned front
  match s.select (Np.nonzero inters) a with
  | (.error e, a) => (.error e, a)
  | (.ok _, a) =>
    match s.outgoing w a with
    | .error e => (.error e, a)
    | .ok (raw, w') =>
      match fixParents owned raw with
      | .error e => (.error e, a)
      | .ok newRecord =>
        let weak := newRecord.map fun r => decide (r.energy ≤ minE)
        let newOutg := if weak.any id then Np.delete newRecord (Np.nonzero weak) else newRecord
        match s.done a with
        | (.error e, a) => (.error e, a)
        | (.ok _, a) => ((policyA objs surfIdx newOutg newRecord weak).map fun c => (c, w'), a)

/-- The loop over surfaces (tracer_engine.py:128-164). -/
def surfLoopA (objs : List (TracedObj σ K E)) (minE : K) :
    σ → Nat → List (SurfObj σ K E) → List (List Bool) → List (List Bool) → List (SurfAttrs K E) →
    Except Err (List (Contribution K E) × σ) × List (SurfAttrs K E)
  | w, k, s :: surfs, front :: fronts, owned :: owneds, a :: as =>
    if (Np.mask owned front).any id then
      match contributeA objs minE w k s front owned a with
      | (.error e, a) => (.error e, a :: as)
      | (.ok (c, w'), a) =>
        let r := surfLoopA objs minE w' (k + 1) surfs fronts owneds as
        (r.1.map fun cw => (c :: cw.1, cw.2), a :: r.2)
    else
      match s.done a with
      | (.error e, a) => (.error e, a :: as)
      | (.ok _, a) =>
        let r := surfLoopA objs minE w (k + 1) surfs fronts owneds as
        (r.1, a :: r.2)
  | w, _, _, _, _, as => (.ok ([], w), as)

/-- One iteration (tracer_engine.py:120-181), see `iterate`. -/
def iterateA (objs : List (TracedObj σ K E)) (surfs : List (SurfObj σ K E)) (minE : K)
    (st : TraceState σ K E) (as : List (SurfAttrs K E)) :
    Except Err (TraceState σ K E × Bundle K E × Bundle K E) × List (SurfAttrs K E) :=
  match intersectRayA st.bund surfs (Np.repeatArange 0 (perObjA objs)) st.rayOwn st.relev as with
  | (.error e, as) => (.error e, as)
  | (.ok (front, owned), as) =>
    match surfLoopA objs minE st.world 0 surfs front owned as with
    | (.error e, as) => (.error e, as)
    | (.ok (cs, w), as) =>
      let bund := cs.flatMap Contribution.outg
      let record := cs.flatMap Contribution.record
      let weak := cs.flatMap Contribution.weak
      match Np.take record (Np.nonzero weak) with
      | .error e => (.error e, as)
      | .ok weakRays =>
        (.ok (⟨bund, cs.flatMap Contribution.own,
              Np.hstackRows surfs.length (cs.map Contribution.relev), w⟩,
             record, bund ++ weakRays), as)

/-- The iteration loop (tracer_engine.py:119-181), see `traceLoop`. -/
def traceLoopA (objs : List (TracedObj σ K E)) (surfs : List (SurfObj σ K E)) (minE : K) (keepTree : Bool) :
    Nat → TraceState σ K E → List (Bundle K E) → Option (Bundle K E) → List (SurfAttrs K E) →
    Except Err (TraceState σ K E × List (Bundle K E) × Option (Bundle K E)) × List (SurfAttrs K E)
  | 0, st, tree, last, as => (.ok (st, tree, last), as)
  | reps + 1, st, tree, _, as =>
    match iterateA objs surfs minE st as with
    | (.error e, as) => (.error e, as)
    | (.ok (st', generated, recorded), as) =>
      let tree' := if keepTree && ! generated.isEmpty then tree ++ [recorded] else tree
      if st'.bund.isEmpty then (.ok (st', tree', some generated), as)
      else traceLoopA objs surfs minE keepTree reps st' tree' (some generated) as

/-- `TracerEngine.ray_tracer` (tracer_engine.py:79-188), see `rayTracer`. -/
def rayTracerA (objs : List (TracedObj σ K E)) (w : σ) (b : Bundle K E) (reps : Nat) (minE : K)
    (keepTree : Bool) (as : List (SurfAttrs K E)) : Except Err (TraceResult σ K E) × List (SurfAttrs K E) :=
  if objs.isEmpty then (.error .type, as)
  else
    let surfs := objs.flatMap TracedObj.surfs
    let init : TraceState σ K E := ⟨b, List.replicate b.length none,
      List.replicate surfs.length (List.replicate b.length true), w⟩
    match traceLoopA objs surfs minE keepTree reps init (if keepTree then [b] else []) none as with
    | (.error e, as) => (.error e, as)
    | (.ok (st, tree, last), as) =>
      if keepTree then
        (.ok ⟨st.bund.map Ray.vertex, st.bund.map Ray.dir, tree, st.world⟩, as)
      else
        match last with
        | none => (.error .name, as)
        | some record =>
          (.ok ⟨st.bund.map Ray.vertex, st.bund.map Ray.dir, tree ++ [record], st.world⟩, as)

end
end Tracer
