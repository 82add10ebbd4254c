import Verif.Model.Surface
import Verif.Spec.Generation

/-! Contracts of geometry managers and optics callables. -/

namespace Tracer

variable {K E σ : Type _} [Field K] [LinearOrder K]

/-- `find_intersections` treats rays one by one. -/
def Geometry.PerRay (g : Geometry K E) (f : Tf K → V3 K → V3 K → WithTop K) : Prop :=
  ∀ frame rays, g.find frame rays = rays.map fun r => f frame r.vertex r.dir

/-- One parameter per ray. -/
def Geometry.LengthOk (g : Geometry K E) : Prop :=
  ∀ frame rays, (g.find frame rays).length = rays.length

/-- Every child names a hit ray as parent and starts at that hit point. -/
def Optics.AtHit (opt : Optics σ K E) : Prop :=
  ∀ w up hits out w', opt w up hits = .ok (out, w') →
    ∀ r ∈ out, ∃ h ∈ hits, r.parent = h.idx ∧ r.vertex = h.point

/-- Every hit ray gets a child. -/
def Optics.Total (opt : Optics σ K E) : Prop :=
  ∀ w up hits out w', opt w up hits = .ok (out, w') → ∀ h ∈ hits, ∃ r ∈ out, r.parent = h.idx

/-- The callable never raises. -/
def Optics.NoFail (opt : Optics σ K E) : Prop :=
  ∀ w up hits, hits ≠ [] → ∃ out w', opt w up hits = .ok (out, w')

/-- The children of each hit ray carry together at most its energy, and no negative energy. -/
def Optics.EnergyOk (opt : Optics σ K E) : Prop :=
  ∀ w up hits out w', (hits.map HitRec.idx).Nodup → (∀ h ∈ hits, 0 ≤ h.ray.energy) →
    opt w up hits = .ok (out, w') →
    (∀ r ∈ out, 0 ≤ r.energy) ∧
    ∀ h ∈ hits, ((out.filter fun r => r.parent == h.idx).map Ray.energy).sum ≤ h.ray.energy

/-- The callable answers hit rays one by one: `f up h` are the children of the hit `h`.  The hit's
index only appears as the children's parent, and the ray's own parent index does not matter. -/
structure Optics.PerHit (opt : Optics σ K E) (f : V3 K → HitRec K E → Bundle K E) : Prop where
  perm : ∀ w up hits out w', opt w up hits = .ok (out, w') → out.Perm (hits.flatMap (f up))
  idx : ∀ up h i, f up { h with idx := i } = (f up h).map fun q => { q with parent := i }
  blind : ∀ up h, (f up { h with ray := h.ray.strip }).map Ray.strip = (f up h).map Ray.strip

end Tracer
