import Verif.Spec.Catalogue

/-! The surfaces of the package that bend light by a law and not at random. -/

namespace Tracer

variable {E σ : Type _}

/-- The callables of the package that draw no random numbers, for refracting surfaces between the media `n1` and `n2`. -/
inductive SpecularOptics (n1 n2 : ℝ) : Optics σ ℝ E → Prop
  | mirror (absorptivity : ℝ) : SpecularOptics n1 n2 (reflective absorptivity)
  | oneSided (absorptivity : ℝ) : SpecularOptics n1 n2 (absorberReflector absorptivity)
  | refractive : SpecularOptics n1 n2 (refractiveHomogenous n1 n2)
  | receiver (absorptivity : ℝ) (get set) (opt) :
      SpecularOptics n1 n2 opt → SpecularOptics n1 n2 (accountant absorptivity get set opt)

/-- A flat or curved surface of the package that reflects or refracts; each surface may border its own two media. -/
def SpecularSurf (s : Surf σ ℝ E) : Prop :=
  ∃ g opt frame n1 n2, s = mkSurf g opt frame ∧ PlainGeometry g ∧ SpecularOptics n1 n2 opt

end Tracer
