import Verif.Model.Protocol

/-!
The engine on surfaces that may be shared.  `Model/Protocol.lean` gives every surface its own attributes.  In Python an assembly may list the
same surface twice (an object added to two assemblies, or twice to one), and two surfaces may be given the same geometry manager;
then their attributes are the same.  Here the attributes live in a memory, and each place in the list of surfaces has two addresses: that of the
surface and that of its geometry manager.
-/

namespace Tracer

variable {K E σ : Type _}

/-- The attributes that exist: `_current_bundle` and `_selected` of each surface (surface.py:58, 70), and those of each geometry manager. -/
structure Mem (K E : Type _) where
  surf : Nat → Option (Bundle K E) × Option (List Nat)
  geom : Nat → Attrs K E

/-- The attributes of the surface at a place (surface.py:58, 70, and `_geom`, surface.py:27). -/
def Mem.read (m : Mem K E) (at_ : Nat × Nat) : SurfAttrs K E := ⟨m.geom at_.2, (m.surf at_.1).1, (m.surf at_.1).2⟩

/-- The memory after a method of the surface at a place has changed its attributes (surface.py:58, 70, and `_geom`, surface.py:27). -/
def Mem.write (m : Mem K E) (at_ : Nat × Nat) (a : SurfAttrs K E) : Mem K E :=
  ⟨Function.update m.surf at_.1 (a.currentBundle, a.selected), Function.update m.geom at_.2 a.geom⟩

section
variable [Field K] [LinearOrder K]

/-- The loop of `intersect_ray` (tracer_engine.py:49-60), see `registerAll`. -/
def registerAllS (b : Bundle K E) :
    List (SurfObj σ K E) → List (List Bool) → List (Nat × Nat) → Mem K E →
    Except Err (List (List (WithTop K))) × Mem K E
  | s :: surfs, owned :: owneds, id :: ids, m =>
    if owned.any _root_.id then
      let inRays := if owned.any (! ·) then Np.mask owned b else b
      match s.register inRays (m.read id) with
      | (.error e, a) => (.error e, m.write id a)
      | (.ok prms, a) =>
        let r := registerAllS b surfs owneds ids (m.write id a)
        (r.1.map fun rows => Np.scatter owned prms (List.replicate b.length 0) :: rows, r.2)
    else
      let r := registerAllS b surfs owneds ids m
      (r.1.map fun rows => List.replicate b.length 0 :: rows, r.2)
  | _, _, _, m => (.ok [], m)

/-- `TracerEngine.intersect_ray` (tracer_engine.py:29-77), see `intersectRayA`. -/
def intersectRayS (b : Bundle K E) (surfs : List (SurfObj σ K E)) (surfOwn : List Nat)
    (rayOwn : List (Option Nat)) (relev : List (List Bool)) (ids : List (Nat × Nat)) (m : Mem K E) :
    Except Err (List (List Bool) × List (List Bool)) × Mem K E :=
  let owned := List.zipWith (ownedMask rayOwn) surfOwn relev
  match registerAllS b surfs owned ids m with
  | (.error e, m) => (.error e, m)
  | (.ok stack, m) =>
    if stack.any fun row => row.any fun p => decide (p < ((-negTol : K) : WithTop K)) then
      (.error .value, m)
    else if surfs.isEmpty && ! b.isEmpty then (.error .value, m)
    else (.ok (frontMask b.length (dropSelfHits stack), owned), m)

/-- The loop over surfaces (tracer_engine.py:128-164), see `surfLoopA`; the body is `contributeA`. -/
def surfLoopS (objs : List (TracedObj σ K E)) (minE : K) :
    σ → Nat → List (SurfObj σ K E) → List (List Bool) → List (List Bool) → List (Nat × Nat) → Mem K E →
    Except Err (List (Contribution K E) × σ) × Mem K E
  | w, k, s :: surfs, front :: fronts, owned :: owneds, id :: ids, m =>
    if (Np.mask owned front).any _root_.id then
      match contributeA objs minE w k s front owned (m.read id) with
      | (.error e, a) => (.error e, m.write id a)
      | (.ok (c, w'), a) =>
        let r := surfLoopS objs minE w' (k + 1) surfs fronts owneds ids (m.write id a)
        (r.1.map fun cw => (c :: cw.1, cw.2), r.2)
    else
      match s.done (m.read id) with
      | (.error e, a) => (.error e, m.write id a)
      | (.ok _, a) => surfLoopS objs minE w (k + 1) surfs fronts owneds ids (m.write id a)
  | w, _, _, _, _, _, m => (.ok ([], w), m)

/-- One iteration (tracer_engine.py:120-181), see `iterateA`. -/
def iterateS (objs : List (TracedObj σ K E)) (surfs : List (SurfObj σ K E)) (minE : K)
    (st : TraceState σ K E) (ids : List (Nat × Nat)) (m : Mem K E) :
    Except Err (TraceState σ K E × Bundle K E × Bundle K E) × Mem K E :=
  match intersectRayS st.bund surfs (Np.repeatArange 0 (perObjA objs)) st.rayOwn st.relev ids m with
  | (.error e, m) => (.error e, m)
  | (.ok (front, owned), m) =>
    match surfLoopS objs minE st.world 0 surfs front owned ids m with
    | (.error e, m) => (.error e, m)
    | (.ok (cs, w), m) =>
      let bund := cs.flatMap Contribution.outg
      let record := cs.flatMap Contribution.record
      let weak := cs.flatMap Contribution.weak
      match Np.take record (Np.nonzero weak) with
      | .error e => (.error e, m)
      | .ok weakRays =>
        (.ok (⟨bund, cs.flatMap Contribution.own,
              Np.hstackRows surfs.length (cs.map Contribution.relev), w⟩,
             record, bund ++ weakRays), m)

/-- The iteration loop (tracer_engine.py:119-181), see `traceLoopA`. -/
def traceLoopS (objs : List (TracedObj σ K E)) (surfs : List (SurfObj σ K E)) (minE : K) (keepTree : Bool) (ids : List (Nat × Nat)) :
    Nat → TraceState σ K E → List (Bundle K E) → Option (Bundle K E) → Mem K E →
    Except Err (TraceState σ K E × List (Bundle K E) × Option (Bundle K E)) × Mem K E
  | 0, st, tree, last, m => (.ok (st, tree, last), m)
  | reps + 1, st, tree, _, m =>
    match iterateS objs surfs minE st ids m with
    | (.error e, m) => (.error e, m)
    | (.ok (st', generated, recorded), m) =>
      let tree' := if keepTree && ! generated.isEmpty then tree ++ [recorded] else tree
      if st'.bund.isEmpty then (.ok (st', tree', some generated), m)
      else traceLoopS objs surfs minE keepTree ids reps st' tree' (some generated) m

/-- `TracerEngine.ray_tracer` (tracer_engine.py:79-188), see `rayTracerA`; `ids` are the addresses of the surfaces `get_surfaces()` lists. -/
def rayTracerS (objs : List (TracedObj σ K E)) (w : σ) (b : Bundle K E) (reps : Nat) (minE : K)
    (keepTree : Bool) (ids : List (Nat × Nat)) (m : Mem K E) : Except Err (TraceResult σ K E) × Mem K E :=
  if objs.isEmpty then (.error .type, m)
  else
    let surfs := objs.flatMap TracedObj.surfs
    let init : TraceState σ K E := ⟨b, List.replicate b.length none,
      List.replicate surfs.length (List.replicate b.length true), w⟩
    match traceLoopS objs surfs minE keepTree ids reps init (if keepTree then [b] else []) none m with
    | (.error e, m) => (.error e, m)
    | (.ok (st, tree, last), m) =>
      if keepTree then
        (.ok ⟨st.bund.map Ray.vertex, st.bund.map Ray.dir, tree, st.world⟩, m)
      else
        match last with
        | none => (.error .name, m)
        | some record =>
          (.ok ⟨st.bund.map Ray.vertex, st.bund.map Ray.dir, tree ++ [record], st.world⟩, m)

end
end Tracer
