import Verif.Model.Engine

/-!
Specification vocabulary for the engine properties.  Nothing here refers to how
the engine computes: only to surfaces, rays, and the arguments of the engine.
-/

namespace Tracer

variable {K E σ : Type _}

/-! ### One call of `intersect_ray` -/

/-- Surface number `k` is to be asked about ray number `j`: the ray is unowned or owned by the
surface's object, and the surface is relevant to the ray. -/
def Tested (surfOwn : List Nat) (rayOwn : List (Option Nat)) (relev : List (List Bool))
    (k j : Nat) : Prop :=
  ∃ so ro row, surfOwn[k]? = some so ∧ rayOwn[j]? = some ro ∧ (ro = none ∨ ro = some so) ∧
    relev[k]? = some row ∧ row[j]? = some true

open Classical in
/-- The numbers of the rays surface `k` is asked about, in increasing order. -/
noncomputable def testedIdx (n : Nat) (surfOwn : List Nat) (rayOwn : List (Option Nat))
    (relev : List (List Bool)) (k : Nat) : List Nat :=
  (List.range n).filter fun j => decide (Tested surfOwn rayOwn relev k j)

/-- Surface `k` answers `p` about ray `j`, when it is asked about all the rays it is to be asked
about. -/
def Answer (b : Bundle K E) (surfs : List (Surf σ K E)) (surfOwn : List Nat)
    (rayOwn : List (Option Nat)) (relev : List (List Bool)) (k j : Nat) (p : WithTop K) : Prop :=
  ∃ (s : Surf σ K E) (i : Nat), surfs[k]? = some s ∧
    (testedIdx b.length surfOwn rayOwn relev k)[i]? = some j ∧
    (s.register ((testedIdx b.length surfOwn rayOwn relev k).filterMap fun j => b[j]?))[i]? = some p

/-- Row `k`, column `j` of a boolean matrix is true. -/
def Marked (m : List (List Bool)) (k j : Nat) : Prop := ∃ row, m[k]? = some row ∧ row[j]? = some true

section
variable [Field K] [LinearOrder K]

/-- Some surface was not asked about some ray, or answered (practically) zero about some ray: the
condition under which `intersect_ray` raises its discarding threshold. -/
def SelfHitPresent (b : Bundle K E) (surfs : List (Surf σ K E)) (surfOwn : List Nat)
    (rayOwn : List (Option Nat)) (relev : List (List Bool)) : Prop :=
  ∃ k j, k < surfs.length ∧ j < b.length ∧ (¬ Tested surfOwn rayOwn relev k j ∨
    ∃ p, Answer b surfs surfOwn rayOwn relev k j p ∧ p ≤ ((selfTol : K) : WithTop K))

open Classical in
/-- The parameter up to which answers are discarded as self-hits in a call: 1e-6 or 1e-10. -/
noncomputable def threshold (b : Bundle K E) (surfs : List (Surf σ K E)) (surfOwn : List Nat)
    (rayOwn : List (Option Nat)) (relev : List (List Bool)) : K :=
  if SelfHitPresent b surfs surfOwn rayOwn relev then dropTol else selfTol

end

/-! ### Levels of a recorded tree -/

/-- The rays of recorded bundle number `k` that take part in the next iteration: all of the
source, and later those above the energy threshold. -/
def propagated [LT K] [DecidableLT K] (minE : K) (k : Nat) (lvl : Bundle K E) : Bundle K E :=
  if k = 0 then lvl else lvl.filter fun r => decide (minE < r.energy)

open Classical in
/-- The self-hit cutoff for a bundle of free rays, when `per s` is surface `s`'s answer about a
single ray: 1e-6 if some answer is at most 1e-10, otherwise 1e-10. -/
noncomputable def cutoff [Field K] [LinearOrder K] (per : Surf σ K E → Ray K E → WithTop K)
    (surfs : List (Surf σ K E)) (rays : Bundle K E) : K :=
  if ∃ s ∈ surfs, ∃ q ∈ rays, per s q ≤ ((selfTol : K) : WithTop K) then dropTol else selfTol

/-! ### Contracts a surface or object may satisfy -/

/-- One parameter per ray. -/
def Surf.LengthOk (s : Surf σ K E) : Prop := ∀ rays, (s.register rays).length = rays.length

/-- The children of a call only name selected rays as their parents. -/
def Surf.ParentsOk (s : Surf σ K E) : Prop :=
  ∀ w rays sel out w', s.outgoing w rays sel = .ok (out, w') → ∀ r ∈ out, r.parent ∈ sel

/-- Every selected ray gets at least one child. -/
def Surf.Total (s : Surf σ K E) : Prop :=
  ∀ w rays sel out w', s.outgoing w rays sel = .ok (out, w') → ∀ i ∈ sel, ∃ r ∈ out, r.parent = i

/-- The surface treats rays one by one: `f` is its answer about a single ray. -/
def Surf.PerRay (s : Surf σ K E) (f : Ray K E → WithTop K) : Prop :=
  ∀ rays, s.register rays = rays.map f

/-- The surface's answer when it is asked about one ray alone. -/
def Surf.single (s : Surf σ K E) (r : Ray K E) : WithTop K := (s.register [r]).headD ⊤

/-- The children of a call start on their parent's ray, at the parameter the surface answered.
Required only for selections for which the answers are positive and finite. -/
def Surf.OnRay [Field K] [LinearOrder K] (s : Surf σ K E) : Prop :=
  ∀ w rays sel out w', (∀ i ∈ sel, ∃ t : K, (s.register rays)[i]? = some (t : WithTop K) ∧ 0 < t) →
    s.outgoing w rays sel = .ok (out, w') →
    ∀ r ∈ out, ∃ p, ∃ t : K, rays[r.parent]? = some p ∧
      (s.register rays)[r.parent]? = some (t : WithTop K) ∧ r.vertex = p.at t

/-- The children of any one selected ray carry together at most its energy, and no negative
energy. Required only for selections without repetition, of rays of non-negative energy. -/
def Surf.EnergyOk [Field K] [LinearOrder K] (s : Surf σ K E) : Prop :=
  ∀ w rays sel out w', sel.Nodup → (∀ p ∈ rays, 0 ≤ p.energy) →
    s.outgoing w rays sel = .ok (out, w') →
    (∀ r ∈ out, 0 ≤ r.energy) ∧
    ∀ (i : Nat) p, rays[i]? = some p →
      ((out.filter fun r => r.parent == i).map Ray.energy).sum ≤ p.energy

/-- The same, required only for rays that satisfy `Q`. -/
def Surf.EnergyOn [Field K] [LinearOrder K] (Q : Ray K E → Prop) (s : Surf σ K E) : Prop :=
  ∀ w rays sel out w', sel.Nodup → (∀ p ∈ rays, 0 ≤ p.energy ∧ Q p) →
    s.outgoing w rays sel = .ok (out, w') →
    (∀ r ∈ out, 0 ≤ r.energy) ∧
    ∀ (i : Nat) p, rays[i]? = some p →
      ((out.filter fun r => r.parent == i).map Ray.energy).sum ≤ p.energy

/-- The default policies of `AssembledObject`: no ownership, all surfaces relevant. -/
def Obj.Default (o : Obj σ K E) : Prop :=
  o.own = Obj.defaultOwn ∧ o.next = Obj.defaultNext o.surfs.length

/-- An object's policy answers have the documented shapes (object.py:77-79, 93-96). -/
def Obj.ShapeOk (o : Obj σ K E) : Prop :=
  (∀ rays k, (o.own rays k).length = rays.length) ∧
  (∀ rays k, (o.next rays k).length = o.surfs.length ∧
    ∀ row ∈ o.next rays k, row.length = rays.length)

/-- All surfaces of all objects satisfy a property. -/
def AllSurfs (P : Surf σ K E → Prop) (objs : List (Obj σ K E)) : Prop :=
  ∀ o ∈ objs, ∀ s ∈ o.surfs, P s

end Tracer
