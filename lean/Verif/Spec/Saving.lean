import Verif.Spec.Going
import Verif.Spec.Surface
import Verif.Spec.Variation

/-!
Policies that only save work: what an object claims for itself or leaves out of the next iteration could not have been met anyway.
-/

namespace Tracer

variable {K E σ : Type _}

/-- The same object with the default policies of `AssembledObject` (object.py:67-98): no ray is claimed, no surface left out. -/
def Obj.asked (o : Obj σ K E) : Obj σ K E := ⟨o.surfs, Obj.defaultOwn, Obj.defaultNext o.surfs.length⟩

/-- The numbers of the selected rays are nothing but names: if the rays with the numbers `sel` in `rays'` have the numbers `f i`
in `rays`, the surface does the same, and the children's parents are renamed with them. -/
def Surf.NumberBlind (s : Surf σ K E) : Prop :=
  ∀ (w : σ) (rays rays' : Bundle K E) (sel : List Nat) (f : Nat → Nat), (∀ i ∈ sel, rays'[i]? = rays[f i]?) →
    s.outgoing w rays (sel.map f) =
      (s.outgoing w rays' sel).map fun x => (x.1.map fun r => { r with parent := f r.parent }, x.2)

/-- The same for an optics callable. -/
def Optics.NumberBlind [Field K] [LinearOrder K] (opt : Optics σ K E) : Prop :=
  ∀ (w : σ) (up : V3 K) (hits : List (HitRec K E)) (f : Nat → Nat),
    opt w up (hits.map fun h => { h with idx := f h.idx }) =
      (opt w up hits).map fun x => (x.1.map fun r => { r with parent := f r.parent }, x.2)

section
variable [Field K] [LinearOrder K]

/-- Leaving out the surface `y` makes no difference for the ray `q`: the ray does not meet `y`, or only within 1e-6 of its start, and
it starts on some surface of the scene, so that hits this near are discarded. -/
def Spared (per : Surf σ K E → Ray K E → WithTop K) (xs : List (Site σ K E)) (y : Site σ K E) (q : Ray K E) : Prop :=
  (per y.surf q = ⊤ ∨ 0 ≤ per y.surf q ∧ per y.surf q ≤ ((dropTol : K) : WithTop K)) ∧
  ∃ z ∈ xs, per z.surf q ≤ ((selfTol : K) : WithTop K)

/-- The policies only save work: whenever a surface `x` of the scene is hit, leaving out the surfaces that `x`'s object does not want
asked about the rays that are traced on makes no difference. -/
def OnlySave (per : Surf σ K E → Ray K E → WithTop K) (out : Surf σ K E → Ray K E → Bundle K E) (pol : Nat → Policy K E)
    (xs : List (Site σ K E)) (minE : K) : Prop :=
  ∀ x ∈ xs, ∀ p, per x.surf p ≠ ⊤ → ∀ q ∈ out x.surf p, minE < q.energy →
    ∀ y ∈ xs, ¬ (⟨q, some (x.obj, x.num)⟩ : Going K E).MayMeet pol y → Spared per xs y q

end
/-- The surface absorbs everything: what it sends on has no energy. -/
def Surf.Black [Zero K] (s : Surf σ K E) : Prop :=
  ∀ w rays sel raw w', s.outgoing w rays sel = .ok (raw, w') → ∀ r ∈ raw, r.energy = 0

section
variable [Field K] [LinearOrder K]

/-- An object that claims nothing and either asks all its surfaces, or leaves its own surfaces out of the next iteration and is a
single flat mirror or made of surfaces that absorb everything.  All one-sided objects of the models are of these two kinds: the
mirrors are single plates, and the receivers of the readymade collectors have absorptivity 1. -/
def Obj.Sparing (o : Obj σ K E) : Prop :=
  o.own = Obj.defaultOwn ∧ (o.next = Obj.defaultNext o.surfs.length ∨
    o.next = Obj.skipNext o.surfs.length ∧ ((∃ s, o.surfs = [s] ∧ FlatMirror s) ∨ ∀ s ∈ o.surfs, s.Black))

end
end Tracer
