import Verif.Spec.Trace

/-!
Where the energy of a trace goes: the leaves of a ray tree, and what receivers write down.
-/

namespace Tracer

variable {K E σ : Type _}

/-- The rays of a bundle that are nobody's parent in the next bundle. -/
def childless (lvl next : Bundle K E) : Bundle K E :=
  (lvl.zipIdx.filter fun x => ! next.any fun r => r.parent == x.2).map Prod.fst

/-- The rays of a tree that have no children: those that escape, that are too weak to be traced
further, and those of the last bundle. -/
def treeLeaves : List (Bundle K E) → Bundle K E
  | [] => []
  | [lvl] => lvl
  | lvl :: next :: rest => childless lvl next ++ treeLeaves (next :: rest)

/-- The energy a bundle carries. -/
def totalEnergy [Zero K] [Add K] (b : Bundle K E) : K := (b.map Ray.energy).sum

/-- `absorbed` is the energy written down so far, in some state of the world.  The surface loses no
energy: what it adds to `absorbed` and what the outgoing rays carry sums to what the selected rays
brought. -/
def Surf.Balanced [Field K] [LinearOrder K] (absorbed : σ → K) (s : Surf σ K E) : Prop :=
  ∀ w rays sel out w', s.outgoing w rays sel = .ok (out, w') →
    absorbed w' + totalEnergy out = absorbed w + totalEnergy (sel.filterMap fun i => rays[i]?)

/-- `log` is what has been written down so far, in some state of the world.  In each call the surface
appends, for every selected ray in turn, the entries `e p t` for the ray `p` hitting it at parameter
`t`. -/
def Surf.Logs {α : Type _} [Field K] [LinearOrder K] (log : σ → List α) (e : Ray K E → K → List α)
    (s : Surf σ K E) : Prop :=
  ∀ w rays sel out w', s.outgoing w rays sel = .ok (out, w') →
    log w' = log w ++ sel.flatMap fun i =>
      match rays[i]?, (s.register rays)[i]? with
      | some p, some (some t) => e p t
      | _, _ => []

section
variable [Field K] [LinearOrder K]

/-- The surface is (one of) the nearest the ray meets beyond the parameter `cut`. -/
def NearestBeyond (cut : K) (per : Surf σ K E → Ray K E → WithTop K) (surfs : List (Surf σ K E))
    (s : Surf σ K E) (p : Ray K E) (t : K) : Prop :=
  per s p = (t : WithTop K) ∧ cut < t ∧
    ∀ s' ∈ surfs, ∀ t' : K, per s' p = (t' : WithTop K) → cut < t' → t ≤ t'

open Classical in
/-- The parameter at which the ray hits the surface, if that is one of the nearest. -/
noncomputable def nearestParam (cut : K) (per : Surf σ K E → Ray K E → WithTop K)
    (surfs : List (Surf σ K E)) (s : Surf σ K E) (p : Ray K E) : Option K :=
  match per s p with
  | none => none
  | some t => if NearestBeyond cut per surfs s p t then some t else none

/-- The rays of one traced bundle that hit the surface, with the parameters at which they do, in the
order of the bundle. -/
noncomputable def hitsIn (per : Surf σ K E → Ray K E → WithTop K) (surfs : List (Surf σ K E))
    (s : Surf σ K E) (rays : Bundle K E) : List (Ray K E × K) :=
  rays.filterMap fun p => (nearestParam (cutoff per surfs rays) per surfs s p).map fun t => (p, t)

/-- The rays of the first `reps` bundles of a tree that hit the surface, in the order of the trace. -/
noncomputable def hitsOn (per : Surf σ K E → Ray K E → WithTop K) (surfs : List (Surf σ K E))
    (minE : K) (reps : Nat) (tree : List (Bundle K E)) (s : Surf σ K E) : List (Ray K E × K) :=
  (tree.take reps).zipIdx.flatMap fun x => hitsIn per surfs s (propagated minE x.2 x.1)

end
end Tracer
