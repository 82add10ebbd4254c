import Verif.Spec.Media

/-! Callables of the package that do not create energy. -/

namespace Tracer

variable {E σ : Type _}

/-- The callables of the package that do not refract, with an absorptivity between 0 and 1. -/
inductive PhysicalOpaque : Optics σ ℝ E → Prop
  | mirror (absorptivity : ℝ) : 0 ≤ absorptivity → absorptivity ≤ 1 → PhysicalOpaque (reflective absorptivity)
  | oneSided (absorptivity : ℝ) : 0 ≤ absorptivity → absorptivity ≤ 1 → PhysicalOpaque (absorberReflector absorptivity)
  | diffuse (absorptivity : ℝ) (draw) : 0 ≤ absorptivity → absorptivity ≤ 1 → FairDraw draw →
      PhysicalOpaque (lambertian absorptivity draw)
  | receiver (absorptivity : ℝ) (get set) (opt) : PhysicalOpaque opt → PhysicalOpaque (accountant absorptivity get set opt)

/-- The callables of the package, with an absorptivity between 0 and 1 and media of refractive indices in `M`. -/
inductive PhysicalOptics (M : ℝ → Prop) : Optics σ ℝ E → Prop
  | solid (opt) : PhysicalOpaque opt → PhysicalOptics M opt
  | refractive (a b : ℝ) : M a → M b → PhysicalOptics M (refractiveHomogenous a b)
  | receiver (absorptivity : ℝ) (get set) (opt) :
      PhysicalOptics M opt → PhysicalOptics M (accountant absorptivity get set opt)

/-- No two surfaces (by number) answer the same parameter for ray `j` of the bundle. -/
def TieFree {K : Type _} (surfs : List (Surf σ K E)) (rays : Bundle K E) (j : Nat) : Prop :=
  ∀ (k k' : Nat) s s' (t : K), surfs[k]? = some s → surfs[k']? = some s' →
    (s.register rays)[j]? = some (t : WithTop K) → (s'.register rays)[j]? = some (t : WithTop K) → k = k'

/-- No two surfaces (by number) answer the same parameter for the ray, whatever rays they are asked about together with it. -/
def NeverTie {K : Type _} (surfs : List (Surf σ K E)) (p : Ray K E) : Prop :=
  ∀ (k k' : Nat) s s' (t : K) (rays rays' : Bundle K E) (i i' : Nat), surfs[k]? = some s → surfs[k']? = some s' →
    rays[i]? = some p → rays'[i']? = some p →
    (s.register rays)[i]? = some (t : WithTop K) → (s'.register rays')[i']? = some (t : WithTop K) → k = k'

end Tracer
