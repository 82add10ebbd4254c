import Verif.Model.Scene
import Verif.Model.Refraction
import Verif.Model.Quadric
import Verif.Spec.Law
import Verif.Spec.Rigid
import Verif.Spec.Variation

/-! The geometry managers, callables and policies the package offers, and scenes built of them. -/

namespace Tracer

variable {E σ : Type _}

/-- A random generator that returns as many pairs as asked, the second number of each in [0, 1). -/
def FairDraw (draw : Nat → σ → List (ℝ × ℝ) × σ) : Prop :=
  ∀ n w, (draw n w).1.length = n ∧ ∀ d ∈ (draw n w).1, 0 ≤ d.2 ∧ d.2 < 1

/-- The geometry managers of the package, except hemispheres and cut spheres. -/
inductive PlainGeometry : Geometry ℝ E → Prop
  | flat : PlainGeometry flatGM
  | rect (width height : ℝ) (g) : rectPlateGM width height = .ok g → PlainGeometry g
  | round (R : ℝ) (g) : roundPlateGM R = .ok g → PlainGeometry g
  | triangle (a b : V3 ℝ) : PlainGeometry (triangularFace a b)
  | sphere (R : ℝ) (g) : sphereGM R = .ok g → PlainGeometry g
  | paraboloid (a b : ℝ) : a ≠ 0 → b ≠ 0 → PlainGeometry (paraboloidGM a b)
  | dish (diameter focal : ℝ) : 0 < diameter → 0 < focal → PlainGeometry (parabolicDishGM diameter focal)
  | hexagonal (diameter focal : ℝ) : 0 < diameter → 0 < focal → PlainGeometry (hexagonalDishGM diameter focal)
  | cylinder (diameter : ℝ) : 0 < diameter → PlainGeometry (infiniteCylinderGM diameter)
  | finiteCylinder (diameter height : ℝ) : 0 < diameter → PlainGeometry (finiteCylinderGM diameter height)

/-- A mirror of the package, flat or curved. -/
def PlainMirror (s : Surf σ ℝ E) : Prop :=
  ∃ g opt frame, s = mkSurf g opt frame ∧ PlainGeometry g ∧ MirrorOptics opt

/-- All geometry managers of the package. -/
inductive LibraryGeometry : Geometry ℝ E → Prop
  | plain (g) : PlainGeometry g → LibraryGeometry g
  | hemisphere (R : ℝ) (g) : hemisphereGM R = .ok g → LibraryGeometry g
  | cutSphere (R : ℝ) (bound) (g) : cutSphereGM R bound = .ok g → LibraryGeometry g

/-- The callables of the package, for refracting surfaces between the media `n1` and `n2`.  The constructors `oneSided`, `diffuse`
and `receiver` also give `ReflectiveReceiver` and `LambertianReceiver`. -/
inductive LibraryOptics (n1 n2 : ℝ) : Optics σ ℝ E → Prop
  | mirror (absorptivity : ℝ) : LibraryOptics n1 n2 (reflective absorptivity)
  | oneSided (absorptivity : ℝ) : LibraryOptics n1 n2 (absorberReflector absorptivity)
  | refractive : LibraryOptics n1 n2 (refractiveHomogenous n1 n2)
  | diffuse (absorptivity : ℝ) (draw) : FairDraw draw → LibraryOptics n1 n2 (lambertian absorptivity draw)
  | receiver (absorptivity : ℝ) (get set) (opt) :
      LibraryOptics n1 n2 opt → LibraryOptics n1 n2 (accountant absorptivity get set opt)

/-- The callables of the package that do not refract. -/
inductive OpaqueOptics : Optics σ ℝ E → Prop
  | mirror (absorptivity : ℝ) : OpaqueOptics (reflective absorptivity)
  | oneSided (absorptivity : ℝ) : OpaqueOptics (absorberReflector absorptivity)
  | diffuse (absorptivity : ℝ) (draw) : FairDraw draw → OpaqueOptics (lambertian absorptivity draw)
  | receiver (absorptivity : ℝ) (get set) (opt) : OpaqueOptics opt → OpaqueOptics (accountant absorptivity get set opt)

/-- How a child `r` of a hit `h` follows by the law of a callable of the package. -/
inductive LibraryLaw (n1 n2 : ℝ) : Optics σ ℝ E → V3 ℝ → HitRec ℝ E → Ray ℝ E → Prop
  | mirror (absorptivity : ℝ) (up h r) : MirrorLaw absorptivity up h r → LibraryLaw n1 n2 (reflective absorptivity) up h r
  | oneSided (absorptivity : ℝ) (up h r) :
      OneSidedLaw absorptivity up h r → LibraryLaw n1 n2 (absorberReflector absorptivity) up h r
  | refractive (up h r) : RefractionLaw n1 n2 up h r → LibraryLaw n1 n2 (refractiveHomogenous n1 n2) up h r
  | diffuse (absorptivity : ℝ) (draw) (up h r) :
      DiffuseLaw absorptivity up h r → LibraryLaw n1 n2 (lambertian absorptivity draw) up h r
  | receiver (absorptivity : ℝ) (get set) (opt) (up h r) :
      LibraryLaw n1 n2 opt up h r → LibraryLaw n1 n2 (accountant absorptivity get set opt) up h r

/-- A scene built of the package's components: at least one surface, surfaces placed rigidly, and objects with the default policies
or those of one-sided mirrors. -/
structure LibraryScene (n1 n2 : ℝ) (a : SceneAsm σ ℝ E) : Prop where
  nonempty : ∃ o ∈ a.getObjects, o.surfs ≠ []
  rigid : ∀ o ∈ a.getObjects, ∀ s ∈ o.surfs, s.temp.Rigid
  geometry : ∀ o ∈ a.getObjects, ∀ s ∈ o.surfs, LibraryGeometry s.data.1
  optics : ∀ o ∈ a.getObjects, ∀ s ∈ o.surfs, LibraryOptics n1 n2 s.data.2
  policies : ∀ o ∈ a.getObjects, o.data = (Obj.defaultOwn, Obj.defaultNext o.surfs.length) ∨
    o.data = (Obj.defaultOwn, Obj.skipNext o.surfs.length)

/-- Rays of unit direction in one of the two media. -/
def LegalRay (n1 n2 : ℝ) (r : Ray ℝ E) : Prop := r.dir.IsUnit ∧ (r.ref = some n1 ∨ r.ref = some n2)

end Tracer
