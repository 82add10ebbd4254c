import Verif.Spec.Generation

/-!
Specification of a trace through objects that claim rays or restrict which of their surfaces are asked about them: a recursion
over single rays, each of which remembers the surface it left.  No masks, no ownership or relevancy arrays, no parent indices.
-/

namespace Tracer

variable {K E σ : Type _}

/-- A surface of a scene: number of the object, number of the surface in the object, and the surface. -/
structure Site (σ K E : Type _) where
  obj : Nat
  num : Nat
  surf : Surf σ K E

/-- All surfaces of a scene. -/
def sites (objs : List (Obj σ K E)) : List (Site σ K E) :=
  objs.zipIdx.flatMap fun x => x.1.surfs.zipIdx.map fun y => ⟨x.2, y.2, y.1⟩

/-- What an object decides about one ray: `claims j r`, it keeps to itself the ray `r` that left its surface `j`;
`asks j i r`, its surface `i` is to be asked about that ray. -/
structure Policy (K E : Type _) where
  claims : Nat → Ray K E → Bool
  asks : Nat → Nat → Ray K E → Bool

/-- The object decides about rays one by one (object.py:67-98 documents the shapes). -/
def Obj.Decides (o : Obj σ K E) (pol : Policy K E) : Prop :=
  (∀ rays j, o.own rays j = rays.map (pol.claims j)) ∧
  ∀ rays j, o.next rays j = (List.range o.surfs.length).map fun i => rays.map (pol.asks j i)

/-- Object number `o` of the scene decides as `pol o` says. -/
def AllDecide (objs : List (Obj σ K E)) (pol : Nat → Policy K E) : Prop :=
  ∀ (o : Nat) (obj : Obj σ K E), objs[o]? = some obj → obj.Decides (pol o)

/-- The decisions do not depend on the ray's parent index. -/
def Policy.Blind (pol : Policy K E) : Prop :=
  ∀ j r, pol.claims j r.strip = pol.claims j r ∧ ∀ i, pol.asks j i r.strip = pol.asks j i r

/-- The decisions of the default policies: nothing is claimed, every surface is asked. -/
def Policy.free : Policy K E := ⟨fun _ _ => false, fun _ _ _ => true⟩

/-- The decisions of the one-sided models: nothing is claimed, the surfaces of the object itself are not asked. -/
def Policy.skip : Policy K E := ⟨fun _ _ => false, fun _ _ _ => false⟩

/-- A ray on its way, with the object and surface it left (none for the source). -/
structure Going (K E : Type _) where
  ray : Ray K E
  left : Option (Nat × Nat)

/-- ... without the parent index. -/
def Going.strip (g : Going K E) : Going K E := ⟨g.ray.strip, g.left⟩

/-- The surface may be met by the ray: it belongs to the object that claims the ray, if one does, and, if it belongs to the object
the ray left, that object asks it. -/
def Going.MayMeet (pol : Nat → Policy K E) (g : Going K E) (x : Site σ K E) : Prop :=
  ∀ o j, g.left = some (o, j) →
    ((pol o).claims j g.ray = true → x.obj = o) ∧ (x.obj = o → (pol o).asks j x.num g.ray = true)

section
variable [Field K] [LinearOrder K]

open Classical in
/-- The parameter up to which hits are discarded for rays that set out together: 1e-6 if some surface may not be met by some of
them, or meets one that may meet it at a parameter of at most 1e-10; otherwise 1e-10. -/
noncomputable def goingCut (per : Surf σ K E → Ray K E → WithTop K) (pol : Nat → Policy K E)
    (xs : List (Site σ K E)) (gs : List (Going K E)) : K :=
  if ∃ x ∈ xs, ∃ g ∈ gs, ¬ g.MayMeet pol x ∨ per x.surf g.ray ≤ ((selfTol : K) : WithTop K) then dropTol else selfTol

/-- The surface is (one of) the nearest of those the ray may meet, beyond the parameter `cut`. -/
def Going.Meets (cut : K) (per : Surf σ K E → Ray K E → WithTop K) (pol : Nat → Policy K E)
    (xs : List (Site σ K E)) (g : Going K E) (x : Site σ K E) : Prop :=
  g.MayMeet pol x ∧ ∃ t : K, per x.surf g.ray = (t : WithTop K) ∧ cut < t ∧
    ∀ y ∈ xs, g.MayMeet pol y → ∀ t' : K, per y.surf g.ray = (t' : WithTop K) → cut < t' → t ≤ t'

open Classical in
/-- What becomes of one ray. -/
noncomputable def Going.children (cut : K) (per : Surf σ K E → Ray K E → WithTop K)
    (out : Surf σ K E → Ray K E → Bundle K E) (pol : Nat → Policy K E)
    (xs : List (Site σ K E)) (g : Going K E) : List (Going K E) :=
  xs.flatMap fun x => if g.Meets cut per pol xs x then
    (out x.surf g.ray).map fun r => ⟨r, some (x.obj, x.num)⟩ else []

/-- What becomes of rays that set out together. -/
noncomputable def nextGoing (per : Surf σ K E → Ray K E → WithTop K)
    (out : Surf σ K E → Ray K E → Bundle K E) (pol : Nat → Policy K E)
    (xs : List (Site σ K E)) (gs : List (Going K E)) : List (Going K E) :=
  gs.flatMap (Going.children (goingCut per pol xs gs) per out pol xs)

/-- The rays of generation `k` that are traced on: all of the source, later those above the energy threshold. -/
def setOut (minE : K) (k : Nat) (gs : List (Going K E)) : List (Going K E) :=
  if k = 0 then gs else gs.filter fun g => decide (minE < g.ray.energy)

/-- The `k`-th generation of rays. -/
noncomputable def goingGeneration (per : Surf σ K E → Ray K E → WithTop K)
    (out : Surf σ K E → Ray K E → Bundle K E) (pol : Nat → Policy K E)
    (xs : List (Site σ K E)) (minE : K) (b : Bundle K E) : Nat → List (Going K E)
  | 0 => b.map fun r => ⟨r, none⟩
  | k + 1 => nextGoing per out pol xs (setOut minE k (goingGeneration per out pol xs minE b k))

open Classical in
/-- The rays, of those that set out together, that go on to the surface, with the parameters at which they meet it. -/
noncomputable def goingHits (per : Surf σ K E → Ray K E → WithTop K) (pol : Nat → Policy K E)
    (xs : List (Site σ K E)) (gs : List (Going K E)) (x : Site σ K E) : List (Ray K E × K) :=
  gs.flatMap fun g => if g.Meets (goingCut per pol xs gs) per pol xs x then
    (match per x.surf g.ray with
     | some t => [(g.ray, t)]
     | none => []) else []

/-- The rays of a trace of at most `reps` iterations that go on to the surface, with the parameters at which they meet it. -/
noncomputable def traceHits (per : Surf σ K E → Ray K E → WithTop K)
    (out : Surf σ K E → Ray K E → Bundle K E) (pol : Nat → Policy K E)
    (xs : List (Site σ K E)) (minE : K) (b : Bundle K E) (reps : Nat) (x : Site σ K E) : List (Ray K E × K) :=
  (List.range reps).flatMap fun k => goingHits per pol xs (setOut minE k (goingGeneration per out pol xs minE b k)) x

/-- What becomes of the ray does not depend on the rays it sets out with: some surface may not be met by it, or meets it at a
parameter of at most 1e-10, or no surface it may meet does so in the window (1e-10, 1e-6]. -/
def Going.Settled (per : Surf σ K E → Ray K E → WithTop K) (pol : Nat → Policy K E)
    (xs : List (Site σ K E)) (g : Going K E) : Prop :=
  (∃ x ∈ xs, ¬ g.MayMeet pol x ∨ per x.surf g.ray ≤ ((selfTol : K) : WithTop K)) ∨
  ∀ x ∈ xs, ∀ t : K, per x.surf g.ray = (t : WithTop K) → t ≤ selfTol ∨ dropTol < t

/-- An object with the policies of `AssembledObject` (object.py:67-98) or those of the one-sided models
(models/one_sided_mirror.py:13-28). -/
def Obj.Plain (o : Obj σ K E) : Prop :=
  o.own = Obj.defaultOwn ∧ (o.next = Obj.defaultNext o.surfs.length ∨ o.next = Obj.skipNext o.surfs.length)

open Classical in
/-- The decisions of the objects of a scene of plain objects. -/
noncomputable def plainPolicy (objs : List (Obj σ K E)) (o : Nat) : Policy K E :=
  if ∃ obj, objs[o]? = some obj ∧ obj.next = Obj.skipNext obj.surfs.length then Policy.skip else Policy.free

end
end Tracer
