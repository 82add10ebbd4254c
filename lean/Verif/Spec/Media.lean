import Verif.Spec.Catalogue

/-! Scenes with any number of media. -/

namespace Tracer

variable {E σ : Type _}

/-- The callables of the package; the refracting ones are between two different media, of refractive indices in `M`. -/
inductive MediaOptics (M : ℝ → Prop) : Optics σ ℝ E → Prop
  | mirror (absorptivity : ℝ) : MediaOptics M (reflective absorptivity)
  | oneSided (absorptivity : ℝ) : MediaOptics M (absorberReflector absorptivity)
  | refractive (a b : ℝ) : M a → M b → a ≠ b → MediaOptics M (refractiveHomogenous a b)
  | diffuse (absorptivity : ℝ) (draw) : FairDraw draw → MediaOptics M (lambertian absorptivity draw)
  | receiver (absorptivity : ℝ) (get set) (opt) : MediaOptics M opt → MediaOptics M (accountant absorptivity get set opt)

/-- Law of a refracting surface made for the media `a` and `b`, for a ray of unit direction in any medium: the child is either
reflected and stays in its medium, or refracted by Snell's law, from `a` into `b` and from any other medium into `a`. -/
structure BorderLaw (a b : ℝ) (_up : V3 ℝ) (h : HitRec ℝ E) (r : Ray ℝ E) : Prop where
  dir : h.normal.IsUnit → h.ray.dir.IsUnit → ∀ n, h.ray.ref = some n → 0 < n →
    (Mirrored h.ray.dir h.normal r.dir ∧ r.ref = some n) ∨
    (n = a ∧ r.ref = some b ∧ Snell a b h.ray.dir h.normal r.dir) ∨
    (n ≠ a ∧ r.ref = some a ∧ Snell n a h.ray.dir h.normal r.dir)
  extra : r.extra = h.ray.extra

/-- How a child `r` of a hit `h` follows by the law of a callable of the package. -/
inductive MediaLaw (M : ℝ → Prop) : Optics σ ℝ E → V3 ℝ → HitRec ℝ E → Ray ℝ E → Prop
  | mirror (absorptivity : ℝ) (up h r) : MirrorLaw absorptivity up h r → MediaLaw M (reflective absorptivity) up h r
  | oneSided (absorptivity : ℝ) (up h r) : OneSidedLaw absorptivity up h r → MediaLaw M (absorberReflector absorptivity) up h r
  | refractive (a b : ℝ) (up h r) : M a → M b → BorderLaw a b up h r → MediaLaw M (refractiveHomogenous a b) up h r
  | diffuse (absorptivity : ℝ) (draw) (up h r) :
      DiffuseLaw absorptivity up h r → MediaLaw M (lambertian absorptivity draw) up h r
  | receiver (absorptivity : ℝ) (get set) (opt) (up h r) :
      MediaLaw M opt up h r → MediaLaw M (accountant absorptivity get set opt) up h r

/-- A scene built of the package's components, with media of refractive indices in `M`. -/
structure MediaScene (M : ℝ → Prop) (a : SceneAsm σ ℝ E) : Prop where
  media : ∀ n, M n → 0 < n
  nonempty : ∃ o ∈ a.getObjects, o.surfs ≠ []
  rigid : ∀ o ∈ a.getObjects, ∀ s ∈ o.surfs, s.temp.Rigid
  geometry : ∀ o ∈ a.getObjects, ∀ s ∈ o.surfs, LibraryGeometry s.data.1
  optics : ∀ o ∈ a.getObjects, ∀ s ∈ o.surfs, MediaOptics M s.data.2
  policies : ∀ o ∈ a.getObjects, o.data = (Obj.defaultOwn, Obj.defaultNext o.surfs.length) ∨
    o.data = (Obj.defaultOwn, Obj.skipNext o.surfs.length)

/-- Rays of unit direction in one of the media. -/
def MediaRay (M : ℝ → Prop) (r : Ray ℝ E) : Prop := r.dir.IsUnit ∧ ∃ n, M n ∧ r.ref = some n

end Tracer
