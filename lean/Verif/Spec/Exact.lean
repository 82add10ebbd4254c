import Verif.Spec.Generation
import Verif.Spec.Balance

/-!
Specification of a trace as a recursion over generations of rays, with the engine's own rule for discarding self-hits: the
parameter up to which hits are discarded is 1e-6 if some ray of the generation meets some surface at a parameter of at most
1e-10, and 1e-10 otherwise (`cutoff`).  No indices, masks, ownership or order.
-/

namespace Tracer

variable {K E σ : Type _} [Field K] [LinearOrder K]

open Classical in
/-- The children of a ray: those made by the surfaces that are nearest among the hits beyond the parameter `cut`. -/
noncomputable def childrenBeyond (cut : K) (per : Surf σ K E → Ray K E → WithTop K)
    (out : Surf σ K E → Ray K E → Bundle K E) (surfs : List (Surf σ K E)) (p : Ray K E) : Bundle K E :=
  surfs.flatMap fun s => if ∃ t, NearestBeyond cut per surfs s p t then out s p else []

/-- The next generation of rays that set out together. -/
noncomputable def nextRays (per : Surf σ K E → Ray K E → WithTop K)
    (out : Surf σ K E → Ray K E → Bundle K E) (surfs : List (Surf σ K E)) (rays : Bundle K E) : Bundle K E :=
  rays.flatMap (childrenBeyond (cutoff per surfs rays) per out surfs)

/-- The `k`-th generation of rays: the source, then what those of the previous generation above the energy threshold (all of
them, if that is the source) become. -/
noncomputable def exactGeneration (per : Surf σ K E → Ray K E → WithTop K)
    (out : Surf σ K E → Ray K E → Bundle K E) (surfs : List (Surf σ K E)) (minE : K)
    (b : Bundle K E) : Nat → Bundle K E
  | 0 => b
  | k + 1 => nextRays per out surfs (propagated minE k (exactGeneration per out surfs minE b k))

end Tracer
