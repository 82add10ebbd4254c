import Verif.Model.Scene
import Verif.Spec.Law

/-! When nothing can go wrong in a trace. -/

namespace Tracer

variable {K E σ : Type _} [Field K] [LinearOrder K]

/-- No intersection behind the start of a ray is reported. -/
def Geometry.Forward (g : Geometry K E) (frame : Tf K) : Prop :=
  ∀ rays, ∀ p ∈ g.find frame rays, (0 : WithTop K) ≤ p

/-- The callable answers whenever it is given at least one hit, all by rays that satisfy `Q` and at unit
normals. -/
def Optics.Safe (opt : Optics σ K E) (Q : Ray K E → Prop) : Prop :=
  ∀ w up hits, hits ≠ [] → (∀ h ∈ hits, Q h.ray ∧ h.normal.IsUnit) → ∃ out w', opt w up hits = .ok (out, w')

end Tracer
