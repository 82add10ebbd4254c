import Verif.Model.Engine

/-! Two scenes that do the same to rays that correspond to each other. -/

namespace Tracer

variable {K E E' σ σ' : Type _} [Field K] [LinearOrder K]

/-- The correspondence `f` of rays respects what the engine itself looks at: parents, and whether the energy is above
the limit. -/
structure RayMap (f : Ray K E → Ray K E') (minE minE' : K) : Prop where
  parent : ∀ r, (f r).parent = r.parent
  setParent : ∀ (r : Ray K E) (p : Nat), f { r with parent := p } = { f r with parent := p }
  energy : ∀ r, (f r).energy ≤ minE' ↔ r.energy ≤ minE

/-- `s'` answers for corresponding rays as `s` does, and its rays correspond; `ψ` relates the states of the
optics managers. -/
structure Surf.Simulates (f : Ray K E → Ray K E') (ψ : σ → σ') (s : Surf σ K E) (s' : Surf σ' K E') : Prop where
  register : ∀ rays, s'.register (rays.map f) = s.register rays
  outgoing : ∀ w rays sel, s'.outgoing (ψ w) (rays.map f) sel =
    (s.outgoing w rays sel).map fun p => (p.1.map f, ψ p.2)

/-- The same for all surfaces of two objects, and equal policies. -/
structure Obj.Simulates (f : Ray K E → Ray K E') (ψ : σ → σ') (o : Obj σ K E) (o' : Obj σ' K E') : Prop where
  surfs : List.Forall₂ (Surf.Simulates f ψ) o.surfs o'.surfs
  own : ∀ rays k, o'.own (rays.map f) k = o.own rays k
  next : ∀ rays k, o'.next (rays.map f) k = o.next rays k

end Tracer
