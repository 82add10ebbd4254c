import Verif.Spec.Balance

/-! Rays that meet several surfaces at the same place. -/

namespace Tracer

variable {K E σ : Type _} [Field K] [LinearOrder K]

/-- How many surfaces are nearest to the ray, among those it meets beyond the parameter `cut`. -/
noncomputable def timesHit (cut : K) (per : Surf σ K E → Ray K E → WithTop K) (surfs : List (Surf σ K E))
    (p : Ray K E) : Nat :=
  surfs.countP fun s => (nearestParam cut per surfs s p).isSome

/-- For each ray of a traced bundle, the energy it would have to carry again for each nearest surface after the
first. -/
noncomputable def duplicates (per : Surf σ K E → Ray K E → WithTop K) (surfs : List (Surf σ K E)) (rays : Bundle K E) :
    List K :=
  rays.map fun p => ((timesHit (cutoff per surfs rays) per surfs p - 1 : Nat) : K) * p.energy

/-- The surface gives each ray it is told was hit exactly one child. -/
def Surf.OneChild (s : Surf σ K E) : Prop :=
  ∀ w rays sel out w', s.outgoing w rays sel = .ok (out, w') → out.map Ray.parent = sel

end Tracer
