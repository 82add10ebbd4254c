import Verif.Spec.Images
import Verif.Spec.Tally
import Mathlib.Data.Real.Basic

/-! Scenes of flat surfaces of which no two share a part of positive area. -/

namespace Tracer

variable {E σ : Type _}

/-- A point is in the plane. -/
def Plane.Has (P : Plane ℝ) (x : V3 ℝ) : Prop := V3.dot (x - P.point) P.normal = 0

/-- Two flat surfaces, of any outlines and optics, that are in different planes. -/
def DifferentPlanes (s s' : Surf σ ℝ E) : Prop :=
  ∃ g opt F g' opt' F', s = mkSurf g opt F ∧ s' = mkSurf g' opt' F' ∧ FlatGeometry g ∧ FlatGeometry g' ∧
    ∃ x, ¬ (F.plane.Has x ↔ F'.plane.Has x)

/-- No ray meets both surfaces at the same distance. -/
def NeverTogether (s s' : Surf σ ℝ E) : Prop :=
  ∀ (r : Ray ℝ E) (t : ℝ), s.single r = (t : WithTop ℝ) → s'.single r ≠ (t : WithTop ℝ)

/-- Any two surfaces of the scene are in different planes, or have no point in common. -/
def Distinct (objs : List (Obj σ ℝ E)) : Prop :=
  ∀ (k k' : Nat) (s s' : Surf σ ℝ E), (objs.flatMap Obj.surfs)[k]? = some s → (objs.flatMap Obj.surfs)[k']? = some s' → k ≠ k' →
    DifferentPlanes s s' ∨ NeverTogether s s'

/-- Mirrors, two-sided and one-sided, with or without a receiver of number `i` around them, of absorptivities between 0 and 1. -/
inductive TallyMirror {τ : Type _} : Optics (Receivers ℝ × τ) ℝ E → Prop
  | mirror (a : ℝ) : 0 ≤ a → a ≤ 1 → TallyMirror (reflective a)
  | oneSided (a : ℝ) : 0 ≤ a → a ≤ 1 → TallyMirror (absorberReflector a)
  | receiver (i : Nat) (a : ℝ) : 0 ≤ a → a ≤ 1 →
      TallyMirror (accountant a (fun w => w.1 i) (fun acc w => (Function.update w.1 i acc, w.2)) (reflective a))
  | oneSidedReceiver (i : Nat) (a : ℝ) : 0 ≤ a → a ≤ 1 →
      TallyMirror (accountant a (fun w => w.1 i) (fun acc w => (Function.update w.1 i acc, w.2)) (absorberReflector a))

/-- A flat mirror of this kind, placed with a normal of unit length. -/
def FlatTally {τ : Type _} (s : Surf (Receivers ℝ × τ) ℝ E) : Prop :=
  ∃ g opt frame, s = mkSurf g opt frame ∧ FlatGeometry g ∧ TallyMirror opt ∧ V3.dot frame.rot.c3 frame.rot.c3 = 1

end Tracer
