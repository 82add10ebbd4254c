import Verif.Spec.Factor

/-!
Two flat surfaces that send each other diffuse light.
-/

namespace Tracer

open Real MeasureTheory

/-- The part of the XY plane that is `S`, in two coordinates.  Its area is `volume (footprint S)`. -/
def footprint (S : V3 ℝ → Prop) : Set (ℝ × ℝ) := {v | S ⟨v.1, v.2, 0⟩}

/-- The place of a point of the XY plane in the frame `F`. -/
noncomputable def onPlate (F : Tf ℝ) (v : ℝ × ℝ) : V3 ℝ := F.point ⟨v.1, v.2, 0⟩

/-- Each point of `P` is in front of each point of `Q`, and the other way round; `n` and `m` are the normals. -/
def Facing (P : V3 ℝ → Prop) (n : V3 ℝ) (Q : V3 ℝ → Prop) (m : V3 ℝ) : Prop :=
  ∀ p, P p → ∀ q, Q q → 0 < V3.dot (q - p) n ∧ 0 < V3.dot (p - q) m

/-- The part of the light that `S` in the frame `F`, evenly lit and reflecting diffusely to the side of `n`, sends to `Q`: the mean over the area
of `S` of what Nusselt's construction gives. -/
noncomputable def sentTo (S : V3 ℝ → Prop) (F : Tf ℝ) (e1 e2 n : V3 ℝ) (Q : V3 ℝ → Prop) : ENNReal :=
  (∫⁻ v in footprint S, fraction (disk 1) (nusselt Q (onPlate F v) e1 e2 n)) / volume (footprint S)

end Tracer
