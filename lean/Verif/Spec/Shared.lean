import Verif.Model.Shared
import Verif.Spec.Protocol

/-! Specification of scenes with shared surfaces and geometry managers. -/

namespace Tracer

variable {K E σ : Type _}

/-- No surface is listed twice, and no two listed surfaces have the same geometry manager. -/
def Unshared (ids : List (Nat × Nat)) : Prop := (ids.map Prod.fst).Nodup ∧ (ids.map Prod.snd).Nodup

/-- The frame goes together with the bundle: when there is no working frame there is no working bundle. -/
def Attrs.Paired (a : Attrs K E) : Prop := a.workingFrame = none → a.workingBundle = none

/-- After `done()` rays can be selected again only after registering anew. -/
structure GM.Once (m : GM K E) : Prop where
  find : ∀ frame rays a, a.Paired → (m.find frame rays a).2.Paired
  select : ∀ idxs a, a.Paired → (m.select idxs a).2.Paired
  done : ∀ a, a.Paired → (m.done a).2.Paired
  again : ∀ idxs a, a.Paired → (m.done a).1 = .ok () → ∃ e, (m.select idxs (m.done a).2).1 = .error e

/-- The geometry managers of the listed surfaces are those at their addresses, so surfaces with the same address have the same one. -/
def ManagersAt (gms : Nat → GM K E) (surfs : List (SurfObj σ K E)) (ids : List (Nat × Nat)) : Prop :=
  List.Forall₂ (fun s id => s.gm = gms id.2) surfs ids

end Tracer
