import Verif.Spec.Exact
import Verif.Model.Flat
import Verif.Model.Optics

/-! Specification vocabulary for comparing traces: surfaces a ray does not reach, and flat mirrors. -/

namespace Tracer

variable {K E σ : Type _} [Field K] [LinearOrder K]

/-- The ray does not reach the surface `e`: it misses it, or meets it behind one of `surfs`. -/
def Unreached (per : Surf σ K E → Ray K E → WithTop K) (surfs : List (Surf σ K E)) (e : Surf σ K E) (p : Ray K E) : Prop :=
  per e p = ⊤ ∨ ∃ t : K, per e p = (t : WithTop K) ∧
    ∃ s ∈ surfs, ∃ t0 : K, per s p = (t0 : WithTop K) ∧ dropTol < t0 ∧ t0 < t

/-- The flat geometry managers of the package. -/
inductive FlatGeometry : Geometry K E → Prop
  | flat : FlatGeometry flatGM
  | rect (width height : K) (g) : rectPlateGM width height = .ok g → FlatGeometry g
  | round (R : K) (g) : roundPlateGM R = .ok g → FlatGeometry g
  | triangle (a b : V3 K) : FlatGeometry (triangularFace a b)

/-- The mirrors of the package: `Reflective`, `AbsorberReflector`, and receivers around them. -/
inductive MirrorOptics : Optics σ K E → Prop
  | mirror (absorptivity : K) : MirrorOptics (reflective absorptivity)
  | oneSided (absorptivity : K) : MirrorOptics (absorberReflector absorptivity)
  | receiver (absorptivity : K) (get set) (opt) : MirrorOptics opt → MirrorOptics (accountant absorptivity get set opt)

/-- A flat mirror, placed with a normal of unit length. -/
def FlatMirror (s : Surf σ K E) : Prop :=
  ∃ g opt frame, s = mkSurf g opt frame ∧ FlatGeometry g ∧ MirrorOptics opt ∧ V3.dot frame.rot.c3 frame.rot.c3 = 1

end Tracer
