import Verif.Model.Assembly
import Verif.Model.Optics
import Mathlib.Data.Real.Basic

/-! What C103 speaks of. -/

namespace Tracer

variable {σ : Type _}

/-- Turned again and again, and then put at `T`. -/
noncomputable def Asm.turned {P Q : Type _} (a : Asm ℝ P Q) (before : List (Tf ℝ)) (T : Tf ℝ) : Asm ℝ P Q :=
  (before.foldl (fun a S => a.set (.transform S)) a).set (.transform T)

/-- The memory of a receiver as part of the state of all optics managers. -/
structure Memory (get : σ → Account ℝ) (set : Account ℝ → σ → σ) : Prop where
  get_set : ∀ acc w, get (set acc w) = acc
  set_set : ∀ acc acc' w, set acc (set acc' w) = set acc w
  set_get : ∀ w, set (get w) w = w

end Tracer
