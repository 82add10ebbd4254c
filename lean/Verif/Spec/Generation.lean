import Verif.Spec.Trace

/-!
Specification of a trace as a recursion over single rays, without indices, masks or bundles.
-/

namespace Tracer

variable {K E σ : Type _}

/-- A ray without its parent index. -/
def Ray.strip (r : Ray K E) : Ray K E := { r with parent := 0 }

/-- The surface answers selected rays one by one: `out p` are the children of the ray `p`, up to
their order and parent indices.  Required only for selections of rays that hit. -/
def Surf.PerHit [Field K] [LinearOrder K] (s : Surf σ K E) (out : Ray K E → Bundle K E) : Prop :=
  ∀ w rays sel raw w', s.outgoing w rays sel = .ok (raw, w') →
    raw.Perm (sel.flatMap fun i => (rays[i]?).toList.flatMap fun p =>
      (out p).map fun q => { q with parent := i })

/-- The surface's children of one ray traced alone (none if the call fails). -/
def Surf.alone (w : σ) (s : Surf σ K E) (r : Ray K E) : Bundle K E :=
  match s.outgoing w [r] [0] with
  | .ok (raw, _) => raw
  | .error _ => []

/-- Neither answers nor children depend on the ray's parent index. -/
def Blind (per : Surf σ K E → Ray K E → WithTop K) (out : Surf σ K E → Ray K E → Bundle K E)
    (surfs : List (Surf σ K E)) : Prop :=
  ∀ s ∈ surfs, ∀ p, per s p.strip = per s p ∧ ((out s p.strip).map Ray.strip).Perm ((out s p).map Ray.strip)

section
variable [Field K] [LinearOrder K]

/-- Surface `s` is (one of) the nearest the ray meets beyond the parameter 1e-6. -/
def NearestHit (per : Surf σ K E → Ray K E → WithTop K) (surfs : List (Surf σ K E))
    (s : Surf σ K E) (p : Ray K E) : Prop :=
  ∃ t : K, per s p = (t : WithTop K) ∧ dropTol < t ∧
    ∀ s' ∈ surfs, ∀ t' : K, per s' p = (t' : WithTop K) → dropTol < t' → t ≤ t'

open Classical in
/-- The children of a ray: those made by its nearest surfaces. -/
noncomputable def children (per : Surf σ K E → Ray K E → WithTop K)
    (out : Surf σ K E → Ray K E → Bundle K E) (surfs : List (Surf σ K E)) (p : Ray K E) : Bundle K E :=
  surfs.flatMap fun s => if NearestHit per surfs s p then out s p else []

/-- The `k`-th generation of rays: the children of the rays of the previous generation, or of those
above the energy threshold if that is not the source. -/
noncomputable def generation (per : Surf σ K E → Ray K E → WithTop K)
    (out : Surf σ K E → Ray K E → Bundle K E) (surfs : List (Surf σ K E)) (minE : K)
    (b : Bundle K E) : Nat → Bundle K E
  | 0 => b
  | k + 1 => (propagated minE k (generation per out surfs minE b k)).flatMap (children per out surfs)

/-- No surface meets the ray at a parameter in the window (1e-10, 1e-6], in which the engine may or
may not discard it, depending on the other rays. -/
def WindowFree (per : Surf σ K E → Ray K E → WithTop K) (surfs : List (Surf σ K E)) (p : Ray K E) : Prop :=
  ∀ s ∈ surfs, ∀ t : K, per s p = (t : WithTop K) → t ≤ selfTol ∨ dropTol < t

/-- What becomes of the ray does not depend on the other rays: some surface meets it at a parameter of at most 1e-10, as the
surface it starts on does, or no surface meets it in the window. -/
def Settled (per : Surf σ K E → Ray K E → WithTop K) (surfs : List (Surf σ K E)) (p : Ray K E) : Prop :=
  (∃ s ∈ surfs, per s p ≤ ((selfTol : K) : WithTop K)) ∨ WindowFree per surfs p

end
end Tracer
