import Verif.Spec.Catalogue
import Verif.Spec.Variation
import Verif.Spec.Generation
import Verif.Model.Engine

/-! Paths of light from one point to another, by way of flat surfaces. -/

namespace Tracer

variable {E σ : Type _}

/-- The callables of the package that draw no random numbers and do not add energy, for refracting surfaces between the media `n1` and
`n2`. -/
inductive PassiveOptics (n1 n2 : ℝ) : Optics σ ℝ E → Prop
  | mirror (absorptivity : ℝ) : 0 ≤ absorptivity → absorptivity ≤ 1 → PassiveOptics n1 n2 (reflective absorptivity)
  | oneSided (absorptivity : ℝ) : 0 ≤ absorptivity → absorptivity ≤ 1 → PassiveOptics n1 n2 (absorberReflector absorptivity)
  | refractive : PassiveOptics n1 n2 (refractiveHomogenous n1 n2)
  | receiver (absorptivity : ℝ) (get set) (opt) : PassiveOptics n1 n2 opt → PassiveOptics n1 n2 (accountant absorptivity get set opt)

/-- A flat surface of the package that reflects or refracts. -/
def FlatFace (n1 n2 : ℝ) (s : Surf σ ℝ E) : Prop :=
  ∃ g opt F, s = mkSurf g opt F ∧ FlatGeometry g ∧ PassiveOptics n1 n2 opt ∧ F.Rigid

/-- The ray flies freely over the length `l`: from the surface `a`, if it starts at one, to the surface `z`, if it ends at one.  No
other surface is in the way, and the flight is longer than the engine's tolerance. -/
structure FreeFlight (surfs : List (Surf σ ℝ E)) (a : Option (Surf σ ℝ E)) (r : Ray ℝ E) (l : ℝ) (z : Option (Surf σ ℝ E)) : Prop where
  long : 1 / 10 ^ 6 < l
  start : ∀ s, a = some s → s ∈ surfs ∧ s.single r = ((0 : ℝ) : WithTop ℝ)
  stop : ∀ s, z = some s → s ∈ surfs ∧ s.single r = (l : WithTop ℝ)
  free : ∀ s ∈ surfs, ∀ t : ℝ, s.single r = (t : WithTop ℝ) → t ≤ l → (a = some s ∧ t = 0) ∨ (z = some s ∧ t = l)

/-- A path of light: free flights from surface to surface, of rays each of which is one of those the surface makes of the one before. -/
inductive LightPath (surfs : List (Surf σ ℝ E)) (w : σ) :
    Option (Surf σ ℝ E) → Ray ℝ E → List (Surf σ ℝ E) → Ray ℝ E → ℝ → Option (Surf σ ℝ E) → Prop
  | straight {a r l z} : FreeFlight surfs a r l z → LightPath surfs w a r [] r l z
  | turn {a r t s q path r' l z} : FreeFlight surfs a r t (some s) → q ∈ s.alone w r → LightPath surfs w (some s) q path r' l z →
      LightPath surfs w a r (s :: path) r' l z

end Tracer
