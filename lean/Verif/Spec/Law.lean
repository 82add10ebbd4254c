import Verif.Model.Scene
import Verif.Spec.Optics
import Verif.Spec.Surface
import Verif.Spec.Trace

/-! How a recorded ray follows from its parent and the surface its parent hits. -/

namespace Tracer

variable {K E σ : Type _} [Field K] [LinearOrder K]

/-- Whenever the callable answers, every child starts at the hit of its parent and satisfies the law.  The law is given the
surface's `up` direction, the hit and the child. -/
def Optics.Obeys (opt : Optics σ K E) (law : V3 K → HitRec K E → Ray K E → Prop) : Prop :=
  ∀ w up hits out w', opt w up hits = .ok (out, w') →
    ∀ r ∈ out, ∃ h ∈ hits, r.parent = h.idx ∧ r.vertex = h.point ∧ law up h r

/-- The law does not mention the numbers of rays. -/
def NumberFree (law : V3 K → HitRec K E → Ray K E → Prop) : Prop :=
  ∀ up h r (i j : Nat), law up h r → law up { h with idx := i } { r with parent := j }

/-- Law of a mirror: the law of reflection, and a fixed loss of energy. -/
structure MirrorLaw (absorptivity : K) (_up : V3 K) (h : HitRec K E) (r : Ray K E) : Prop where
  dir : h.normal.IsUnit → Mirrored h.ray.dir h.normal r.dir
  energy : r.energy = h.ray.energy * (1 - absorptivity)
  ref : r.ref = h.ray.ref
  extra : r.extra = h.ray.extra

/-- Law of a one-sided mirror: light from behind (along `up`) is absorbed. -/
structure OneSidedLaw (absorptivity : K) (up : V3 K) (h : HitRec K E) (r : Ray K E) : Prop where
  dir : h.normal.IsUnit → Mirrored h.ray.dir h.normal r.dir
  front : V3.dot h.ray.dir up ≤ 0 → r.energy = h.ray.energy * (1 - absorptivity)
  back : 0 < V3.dot h.ray.dir up → r.energy = 0
  ref : r.ref = h.ray.ref
  extra : r.extra = h.ray.extra

/-- Law of a refracting surface between the media `a` and `b`, for a ray of unit direction in one of them: the child is
either reflected and stays in its medium or refracted into the other medium by Snell's law. -/
structure RefractionLaw (a b : ℝ) (_up : V3 ℝ) (h : HitRec ℝ E) (r : Ray ℝ E) : Prop where
  dir : h.normal.IsUnit → h.ray.dir.IsUnit → h.ray.ref = some a ∨ h.ray.ref = some b →
    (Mirrored h.ray.dir h.normal r.dir ∧ r.ref = h.ray.ref) ∨
    (h.ray.ref = some a ∧ r.ref = some b ∧ Snell a b h.ray.dir h.normal r.dir) ∨
    (h.ray.ref = some b ∧ r.ref = some a ∧ Snell b a h.ray.dir h.normal r.dir)
  extra : r.extra = h.ray.extra

/-- Law of a diffuse reflector: the child leaves on the side the light came from. -/
structure DiffuseLaw (absorptivity : ℝ) (_up : V3 ℝ) (h : HitRec ℝ E) (r : Ray ℝ E) : Prop where
  dir : h.normal.IsUnit → r.dir.IsUnit ∧ 0 < V3.dot r.dir h.normal
  energy : r.energy = h.ray.energy * (1 - absorptivity)
  ref : r.ref = h.ray.ref
  extra : r.extra = h.ray.extra

/-- The normal reported for a ray that hits the surface is a unit vector. -/
def Geometry.UnitNormals (g : Geometry K E) (frame : Tf K) : Prop :=
  ∀ (rays : Bundle K E) (i : Nat) (r : Ray K E) (t : K), rays[i]? = some r → r.dir.IsUnit →
    (g.find frame rays)[i]? = some (t : WithTop K) → (g.normal frame (r.at t) r.dir).IsUnit

/-- A relation between a hit and its child that carries a property from the hit ray to the child, at unit
normals. -/
def Carries (law : V3 K → HitRec K E → Ray K E → Prop) (Q : Ray K E → Prop) : Prop :=
  ∀ up h r, law up h r → h.normal.IsUnit → Q h.ray → Q r

end Tracer
