import Verif.Spec.EnergyLibrary
import Verif.Props.Balance
import Mathlib.Algebra.BigOperators.Group.Finset.Basic

/-! What receivers have written down in all, and the callables that take part in it. -/

namespace Tracer

variable {K E σ τ : Type _}

/-- `absorbed` is the energy written down so far, in some state of the world.  When rays of non-negative energy that satisfy `Q` are
selected, what the surface adds to `absorbed` and what the outgoing rays carry sum to no more than what the selected rays brought. -/
def Surf.Creditable [Field K] [LinearOrder K] (absorbed : σ → K) (Q : Ray K E → Prop) (s : Surf σ K E) : Prop :=
  ∀ w rays sel out w', (∀ p ∈ rays, 0 ≤ p.energy ∧ Q p) → s.outgoing w rays sel = .ok (out, w') →
    absorbed w' + totalEnergy out ≤ absorbed w + totalEnergy (sel.filterMap fun i => rays[i]?)

/-- The opaque classes of the package, by the constructor argument they share: `Reflective`, `AbsorberReflector` and
`LambertianReflector`.  The world holds the receivers' memories and whatever the random generator needs; the generator leaves the
memories alone. -/
inductive OpaqueClass : (ℝ → Optics (Receivers ℝ × τ) ℝ E) → Prop
  | mirror : OpaqueClass reflective
  | oneSided : OpaqueClass absorberReflector
  | diffuse (draw) : FairDraw draw → (∀ k w, (draw k w).2.1 = w.1) → OpaqueClass fun a => lambertian a draw

/-- The callables of a scene: opaque ones with an absorptivity between 0 and 1, refracting ones between media in `M`, and receivers,
`AbsorptionAccountant(class, absorptivity)`, each of which writes to a numbered memory. -/
inductive TallyOptics (M : ℝ → Prop) : Optics (Receivers ℝ × τ) ℝ E → Prop
  | solid (cls) (a : ℝ) : OpaqueClass cls → 0 ≤ a → a ≤ 1 → TallyOptics M (cls a)
  | refractive (a b : ℝ) : M a → M b → a ≠ b → TallyOptics M (refractiveHomogenous a b)
  | receiver (i : Nat) (cls) (a : ℝ) : OpaqueClass cls → 0 ≤ a → a ≤ 1 →
      TallyOptics M (accountant a (fun w => w.1 i) (fun acc w => (Function.update w.1 i acc, w.2)) (cls a))

/-- The energy that the receivers with numbers in `S` have written down in all. -/
def reported [AddCommMonoid K] (S : Finset Nat) (w : Receivers K) : K := ∑ i ∈ S, (w i).absorbed.flatten.sum

end Tracer
