import Verif.Spec.Geometry
import Verif.Spec.Assembly
import Verif.Model.Scene
import Verif.Model.Optics

/-! Traces moved by a rigid transform. -/

namespace Tracer

variable {K E σ : Type _} [Field K] [LinearOrder K]

/-- What a callable sees of a hit, moved. -/
def HitRec.move (M : Tf K) (h : HitRec K E) : HitRec K E :=
  ⟨h.idx, h.ray.move M, M.point h.point, M.dir h.normal⟩

/-- A receiver's memory, moved: the absorbed energies are the same, the hit points move. -/
def Account.move (M : Tf K) (a : Account K) : Account K := ⟨a.absorbed, a.hits.map (List.map M.point)⟩

/-- Given hits and an up direction that are all moved, the callable emits the moved rays; `ψ` is what the motion does to the
state of the optics managers. -/
def Optics.MovesWith (M : Tf K) (ψ : σ → σ) (opt : Optics σ K E) : Prop :=
  ∀ w up hits, opt (ψ w) (M.dir up) (hits.map (HitRec.move M)) =
    (opt w up hits).map fun p => (p.1.map (Ray.move M), ψ p.2)

/-- The object's policies do not depend on where the rays are. -/
def Policies.IgnoreMotion (M : Tf K) (p : Policies K E) : Prop :=
  (∀ rays k, p.1 (rays.map (Ray.move M)) k = p.1 rays k) ∧ ∀ rays k, p.2 (rays.map (Ray.move M)) k = p.2 rays k

/-- The result of a trace, moved. -/
def TraceResult.move (M : Tf K) (ψ : σ → σ) (r : TraceResult σ K E) : TraceResult σ K E :=
  ⟨r.vertices.map M.point, r.directions.map M.dir, r.tree.map (List.map (Ray.move M)), ψ r.world⟩

end Tracer
