import Verif.Spec.Rigid
import Mathlib.Data.Real.Basic

/-! Volumes: balls, half-spaces and cylinders placed by a frame. -/

namespace Tracer

variable {K : Type _} [Field K] [LinearOrder K]

/-- The ball with the given centre and radius. -/
def InBall (center : V3 K) (radius : K) (p : V3 K) : Prop := V3.dist2 p center ≤ radius ^ 2

/-- The point, seen from the frame, has the property. -/
def InFrame (frame : Tf K) (P : V3 K → Prop) (p : V3 K) : Prop := ∃ q, frame.point q = p ∧ P q

/-- The side of positive Z. -/
def AboveXY (q : V3 K) : Prop := 0 ≤ q.z

/-- The cylinder of the given diameter around the Z axis. -/
def InZCylinder (diameter : K) (q : V3 K) : Prop := q.x ^ 2 + q.y ^ 2 ≤ (diameter / 2) ^ 2

/-- A list of answers says for each point whether it has the property. -/
def Answers {α : Type _} (P : α → Prop) (pts : List α) (ans : List Bool) : Prop :=
  List.Forall₂ (fun p b => b = true ↔ P p) pts ans

/-- The rectangle, in the XY plane of the frame, covers every point of the volume in that plane. -/
def CoversSection (frame : Tf ℝ) (P : V3 ℝ → Prop) (r : ℝ × ℝ × ℝ × ℝ) : Prop :=
  ∀ x y, P (frame.point ⟨x, y, 0⟩) → r.1 ≤ x ∧ x ≤ r.2.1 ∧ r.2.2.1 ≤ y ∧ y ≤ r.2.2.2

end Tracer
