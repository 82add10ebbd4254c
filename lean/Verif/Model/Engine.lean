import Verif.Model.Ray
import Mathlib.Order.WithBot

/-!
Model of `tracer_engine.py`, `trace_tree.py` and of what the engine asks from
assemblies, objects and surfaces.
-/

namespace Tracer

variable {K E σ : Type _}

/-- What the engine uses of a `Surface` (surface.py:44-93).

`register` is `register_incoming`; the world state does not influence it.
`outgoing w rays idxs` is `select_rays(idxs)` followed by `get_outgoing()`, when
`rays` is the registered bundle; `w` is the mutable state of the optics managers
(e.g. the receivers' hit lists), shared by all surfaces, and random draws.
`done()` only releases memory (surface.py:85-93) and is the identity here; the
attribute life-cycle is modelled in `Model/Protocol.lean`. -/
structure Surf (σ K E : Type _) where
  register : Bundle K E → List (WithTop K)
  outgoing : σ → Bundle K E → List Nat → Except Err (Bundle K E × σ)

/-- What the engine uses of an `AssembledObject` (object.py:40-98).
`own rays k` is `own_rays(rays, k)`, `next rays k` is
`surfaces_for_next_iteration(rays, k)`, one row per surface of the object. -/
structure Obj (σ K E : Type _) where
  surfs : List (Surf σ K E)
  own : Bundle K E → Nat → List Bool
  next : Bundle K E → Nat → List (List Bool)

/-- The default `own_rays` (object.py:67-81). -/
def Obj.defaultOwn (rays : Bundle K E) (_k : Nat) : List Bool :=
  List.replicate rays.length false

/-- The default `surfaces_for_next_iteration` for an object of `s` surfaces
(object.py:83-98). -/
def Obj.defaultNext (s : Nat) (rays : Bundle K E) (_k : Nat) : List (List Bool) :=
  List.replicate s (List.replicate rays.length true)

/-- `surfaces_for_next_iteration` of the one-sided mirror and receiver
(models/one_sided_mirror.py:13-28). -/
def Obj.skipNext (s : Nat) (rays : Bundle K E) (_k : Nat) : List (List Bool) :=
  List.replicate s (List.replicate rays.length false)

/-! ### Bookkeeping arrays (tracer_engine.py:108-117) -/

/-- `surfaces = self._asm.get_surfaces()` (tracer_engine.py:109, assembly.py:63-64):
`reduce` raises `TypeError` if there is no object. -/
def getSurfaces (objs : List (Obj σ K E)) : Except Err (List (Surf σ K E)) :=
  if objs.isEmpty then .error .type else .ok (objs.flatMap Obj.surfs)

/-- `surfs_per_obj` (tracer_engine.py:113) -/
def surfsPerObj (objs : List (Obj σ K E)) : List Nat := objs.map fun o => o.surfs.length

/-- `surfs_until_obj` (tracer_engine.py:114) -/
def surfsUntilObj (objs : List (Obj σ K E)) : List Nat := 0 :: Np.accumulate 0 (surfsPerObj objs)

/-- `surf_ownership` (tracer_engine.py:115) -/
def surfOwnership (objs : List (Obj σ K E)) : List Nat := Np.repeatArange 0 (surfsPerObj objs)

/-! ### intersect_ray (tracer_engine.py:29-77) -/

section
variable [Field K] [LinearOrder K]

/-- 1e-16 (tracer_engine.py:63) -/
def negTol : K := 1 / 10 ^ 16
/-- 1e-10 (tracer_engine.py:68) -/
def selfTol : K := 1 / 10 ^ 10
/-- 1e-6 (tracer_engine.py:69) -/
def dropTol : K := 1 / 10 ^ 6

/-- `owned_rays[surf_num]` (tracer_engine.py:51-52).  Ray ownership -1 is `none`. -/
def ownedMask (rayOwn : List (Option Nat)) (surfOwn : Nat) (relev : List Bool) : List Bool :=
  List.zipWith (fun o r => (o == none || o == some surfOwn) && r) rayOwn relev

/-- `stack[surf_num]` after the loop (tracer_engine.py:46, 53-60). -/
def stackRow (b : Bundle K E) (s : Surf σ K E) (owned : List Bool) : List (WithTop K) :=
  if owned.any id then
    let inRays := if owned.any (! ·) then Np.mask owned b else b
    Np.scatter owned (s.register inRays) (List.replicate b.length 0)
  else List.replicate b.length 0

/-- tracer_engine.py:68-70 -/
def dropSelfHits (stack : List (List (WithTop K))) : List (List (WithTop K)) :=
  if stack.any fun row => row.any fun p => decide (p ≤ ((selfTol : K) : WithTop K)) then
    stack.map fun row => row.map fun p => if p ≤ ((dropTol : K) : WithTop K) then ⊤ else p
  else stack

/-- `stack.min(axis=0)` (tracer_engine.py:75), `n` is the number of columns. -/
def colMin (n : Nat) (stack : List (List (WithTop K))) : List (WithTop K) :=
  stack.foldr (List.zipWith min) (List.replicate n ⊤)

/-- `(stack == stack.min(axis=0)) & ~N.isinf(stack)` (tracer_engine.py:75) -/
def frontMask (n : Nat) (stack : List (List (WithTop K))) : List (List Bool) :=
  stack.map fun row => List.zipWith (fun p m => decide (p = m) && decide (p ≠ ⊤)) row (colMin n stack)

/-- `TracerEngine.intersect_ray` (tracer_engine.py:29-77): the pair of masks
(hit in front, tested), one row per surface.  With rays but without surfaces,
`stack.min(axis=0)` raises `ValueError`. -/
def intersectRay (b : Bundle K E) (surfs : List (Surf σ K E)) (surfOwn : List Nat)
    (rayOwn : List (Option Nat)) (relev : List (List Bool)) :
    Except Err (List (List Bool) × List (List Bool)) :=
  let owned := List.zipWith (ownedMask rayOwn) surfOwn relev
  let stack := List.zipWith (stackRow b) surfs owned
  if stack.any fun row => row.any fun p => decide (p < ((-negTol : K) : WithTop K)) then
    .error .value
  else if surfs.isEmpty && ! b.isEmpty then .error .value
  else .ok (frontMask b.length (dropSelfHits stack), owned)

/-! ### ray_tracer (tracer_engine.py:79-188) -/

/-- What one surface contributes to an iteration: an element of `outg`, `record`,
`weak_ray_pos`, `out_ray_own` and `new_surfs_relevancy` (tracer_engine.py:122-126). -/
structure Contribution (K E : Type _) where
  outg : Bundle K E
  record : Bundle K E
  weak : List Bool
  own : List (Option Nat)
  relev : List (List Bool)

/-- `new_outg.set_parents(N.nonzero(owned_rays[surf_idx])[0][new_outg.get_parents()])`
(tracer_engine.py:138-139) -/
def fixParents (owned : List Bool) (rays : Bundle K E) : Except Err (Bundle K E) :=
  match Np.take (Np.nonzero owned) (rays.map Ray.parent) with
  | .error e => .error e
  | .ok ps => .ok (List.zipWith (fun r p => { r with parent := p }) rays ps)

/-- Body of the loop over surfaces for a surface that was hit
(tracer_engine.py:133-164).  `minE` is `min_energy`. -/
def contribute (objs : List (Obj σ K E)) (minE : K) (b : Bundle K E) (w : σ)
    (surfIdx : Nat) (s : Surf σ K E) (front owned : List Bool) :
    Except Err (Contribution K E × σ) :=
  let inters := Np.mask owned front
  let inRays := if owned.any (! ·) then Np.mask owned b else b
  match s.outgoing w inRays (Np.nonzero inters) with
  | .error e => .error e
  | .ok (raw, w') =>
    match fixParents owned raw with
    | .error e => .error e
    | .ok newRecord =>
      let weak := newRecord.map fun r => decide (r.energy ≤ minE)
      let newOutg := if weak.any id then Np.delete newRecord (Np.nonzero weak) else newRecord
      match (surfOwnership objs)[surfIdx]? with
      | none => .error .index
      | some objIdx =>
        match (surfsUntilObj objs)[objIdx]?, objs[objIdx]? with
        | some before, some obj =>
          let relIdx := surfIdx - before
          let own := (obj.own newOutg relIdx).map fun o => if o then some objIdx else none
          let relev := Np.scatter ((surfOwnership objs).map (· == objIdx))
            (obj.next newOutg relIdx)
            (List.replicate (surfOwnership objs).length (List.replicate newOutg.length true))
          .ok (⟨newOutg, newRecord, weak, own, relev⟩, w')
        | _, _ => .error .index

/-- The loop over surfaces (tracer_engine.py:128-164), from surface number `k` on. -/
def surfLoop (objs : List (Obj σ K E)) (minE : K) (b : Bundle K E) :
    σ → Nat → List (Surf σ K E) → List (List Bool) → List (List Bool) →
    Except Err (List (Contribution K E) × σ)
  | w, k, s :: surfs, front :: fronts, owned :: owneds =>
    if (Np.mask owned front).any id then
      match contribute objs minE b w k s front owned with
      | .error e => .error e
      | .ok (c, w') =>
        match surfLoop objs minE b w' (k + 1) surfs fronts owneds with
        | .error e => .error e
        | .ok (cs, w'') => .ok (c :: cs, w'')
    else surfLoop objs minE b w (k + 1) surfs fronts owneds
  | w, _, _, _, _ => .ok ([], w)

/-- The variables of `ray_tracer` that live across iterations (tracer_engine.py:103-104, 116-117, 166, 180-181). -/
structure TraceState (σ K E : Type _) where
  /-- `bund` -/
  bund : Bundle K E
  /-- `ray_ownership` -/
  rayOwn : List (Option Nat)
  /-- `surfs_relevancy` -/
  relev : List (List Bool)
  /-- state of the optics managers -/
  world : σ

/-- One iteration (tracer_engine.py:120-181): the new state, the rays generated
in generation order (`concatenate_rays(record)`), and the bundle to be
recorded in the tree, strong rays first (tracer_engine.py:166-174). -/
def iterate (objs : List (Obj σ K E)) (surfs : List (Surf σ K E)) (minE : K)
    (st : TraceState σ K E) :
    Except Err (TraceState σ K E × Bundle K E × Bundle K E) :=
  match intersectRay st.bund surfs (surfOwnership objs) st.rayOwn st.relev with
  | .error e => .error e
  | .ok (front, owned) =>
    match surfLoop objs minE st.bund st.world 0 surfs front owned with
    | .error e => .error e
    | .ok (cs, w) =>
      let bund := cs.flatMap Contribution.outg
      let record := cs.flatMap Contribution.record
      let weak := cs.flatMap Contribution.weak
      match Np.take record (Np.nonzero weak) with
      | .error e => .error e
      | .ok weakRays =>
        .ok (⟨bund, cs.flatMap Contribution.own,
              Np.hstackRows surfs.length (cs.map Contribution.relev), w⟩,
             record, bund ++ weakRays)

/-- The iteration loop (tracer_engine.py:119-181) with `reps` iterations left.
`tree` is the list of recorded bundles, `last` the unsorted record of the last
iteration (`none` before the first one: the variable `record` is unbound).
Bundles without rays are not recorded (tracer_engine.py:171). -/
def traceLoop (objs : List (Obj σ K E)) (surfs : List (Surf σ K E)) (minE : K) (keepTree : Bool) :
    Nat → TraceState σ K E → List (Bundle K E) → Option (Bundle K E) →
    Except Err (TraceState σ K E × List (Bundle K E) × Option (Bundle K E))
  | 0, st, tree, last => .ok (st, tree, last)
  | reps + 1, st, tree, _ =>
    match iterate objs surfs minE st with
    | .error e => .error e
    | .ok (st', generated, recorded) =>
      let tree' := if keepTree && ! generated.isEmpty then tree ++ [recorded] else tree
      if st'.bund.isEmpty then .ok (st', tree', some generated)
      else traceLoop objs surfs minE keepTree reps st' tree' (some generated)

/-- Result of `ray_tracer`: the returned arrays, `engine.tree`, and the state of
the optics managers afterwards (tracer_engine.py:103, 188). -/
structure TraceResult (σ K E : Type _) where
  vertices : List (V3 K)
  directions : List (V3 K)
  tree : List (Bundle K E)
  world : σ

/-- The state before the first iteration (tracer_engine.py:104, 116-117). -/
def initState (objs : List (Obj σ K E)) (b : Bundle K E) (w : σ) : TraceState σ K E :=
  ⟨b, List.replicate b.length none,
   List.replicate (objs.flatMap Obj.surfs).length (List.replicate b.length true), w⟩

/-- `TracerEngine.ray_tracer` (tracer_engine.py:79-188), for `objs` the result of
`asm.get_objects()`.  `keepTree` is the argument `tree`. -/
def rayTracer (objs : List (Obj σ K E)) (w : σ) (b : Bundle K E) (reps : Nat) (minE : K)
    (keepTree : Bool) : Except Err (TraceResult σ K E) :=
  match getSurfaces objs with
  | .error e => .error e
  | .ok surfs =>
    match traceLoop objs surfs minE keepTree reps (initState objs b w)
        (if keepTree then [b] else []) none with
    | .error e => .error e
    | .ok (st, tree, last) =>
      if keepTree then
        .ok ⟨st.bund.map Ray.vertex, st.bund.map Ray.dir, tree, st.world⟩
      else
        match last with
        | none => .error .name
        | some record =>
          .ok ⟨st.bund.map Ray.vertex, st.bund.map Ray.dir, tree ++ [record], st.world⟩

end
end Tracer
