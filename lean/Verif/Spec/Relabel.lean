import Verif.Model.Scene
import Verif.Model.Optics

/-! Traces of the same light with other energies or other user-defined properties. -/

namespace Tracer

variable {K E σ σ' : Type _} [Field K] [LinearOrder K]

/-- The parameters depend on nothing but the rays' start points and directions. -/
def Geometry.LightOnly (g : Geometry K E) : Prop :=
  ∀ frame (rays rays' : Bundle K E), rays.map Ray.vertex = rays'.map Ray.vertex → rays.map Ray.dir = rays'.map Ray.dir →
    g.find frame rays = g.find frame rays'

/-- A hit of the relabelled ray. -/
def HitRec.relabel (f : Ray K E → Ray K E) (h : HitRec K E) : HitRec K E := { h with ray := f h.ray }

/-- Given hits of relabelled rays, `opt'` emits the relabelled rays of `opt`, or raises the same exception; `ψ` relates
the states of the optics managers. -/
def Optics.Respects (f : Ray K E → Ray K E) (ψ : σ → σ') (opt : Optics σ K E) (opt' : Optics σ' K E) : Prop :=
  ∀ w up hits, opt' (ψ w) up (hits.map (HitRec.relabel f)) = (opt w up hits).map fun p => (p.1.map f, ψ p.2)

/-- The object's policies do not see the relabelling. -/
def Policies.Ignore (f : Ray K E → Ray K E) (p : Policies K E) : Prop :=
  (∀ rays k, p.1 (rays.map f) k = p.1 rays k) ∧ ∀ rays k, p.2 (rays.map f) k = p.2 rays k

/-- `f` changes neither the light nor the refractive index, and commutes with giving a ray a new place, direction, parent
and refractive index and a given share of its energy. -/
structure Relabelling (f : Ray K E → Ray K E) : Prop where
  vertex : ∀ r, (f r).vertex = r.vertex
  dir : ∀ r, (f r).dir = r.dir
  ref : ∀ r, (f r).ref = r.ref
  child : ∀ (r : Ray K E) (v d : V3 K) (share : K) (parent : Nat) (n : Option K),
    f ⟨v, d, r.energy * share, parent, n, r.extra⟩ = ⟨v, d, (f r).energy * share, parent, n, (f r).extra⟩

/-- The ray with its energy multiplied by `c`. -/
def Ray.scale (c : K) (r : Ray K E) : Ray K E := { r with energy := c * r.energy }

/-- The ray with its user-defined properties replaced. -/
def Ray.retag (φ : E → E) (r : Ray K E) : Ray K E := { r with extra := φ r.extra }

/-- A receiver's memory with all energies multiplied by `c`. -/
def Account.scale (c : K) (a : Account K) : Account K := ⟨a.absorbed.map (List.map (c * ·)), a.hits⟩

/-- The result of a trace of the same light with relabelled rays. -/
def TraceResult.relabel (f : Ray K E → Ray K E) (ψ : σ → σ') (r : TraceResult σ K E) : TraceResult σ' K E :=
  ⟨r.vertices, r.directions, r.tree.map (List.map f), ψ r.world⟩

/-- The same surface, once observed by accountants and once without: `forget` drops the accountants' memories from the state. -/
inductive Unobserved (forget : σ → σ') : Surf σ K E → Surf σ' K E → Prop
  | plain (g : Geometry K E) (frame : Tf K) (opt : Optics σ K E) (opt' : Optics σ' K E)
      (same : Optics.Respects id forget opt opt') : Unobserved forget (mkSurf g opt frame) (mkSurf g opt' frame)
  | receiver (g : Geometry K E) (frame : Tf K) (opt : Optics σ K E) (opt' : Optics σ' K E)
      (absorptivity : K) (get : σ → Account K) (set : Account K → σ → σ)
      (memory : ∀ acc w, forget (set acc w) = forget w) (same : Optics.Respects id forget opt opt') :
      Unobserved forget (mkSurf g (accountant absorptivity get set opt) frame) (mkSurf g opt' frame)

/-- Objects that differ at most in being observed. -/
structure Obj.Unobserved (forget : σ → σ') (o : Obj σ K E) (o' : Obj σ' K E) : Prop where
  surfs : List.Forall₂ (Tracer.Unobserved forget) o.surfs o'.surfs
  own : o'.own = o.own
  next : o'.next = o.next

end Tracer
