import Verif.Model.Heliostats
import Verif.Spec.Mirrors

/-! What a user does with a heliostat field, and where light should go. -/

namespace Tracer

open Real

/-- Calls on a heliostat field. -/
inductive HelioOp where
  | aim (azimuth elevation : ℝ)
  | height (h : ℝ)

variable {σ E : Type _}

/-- The field after some calls. -/
noncomputable def runHelio (ops : List HelioOp) (f : HelioField σ E) : HelioField σ E :=
  ops.foldl (fun f op => match op with
    | .aim az el => f.aimToSun az el
    | .height h => f.setAimHeight h) f

/-- The aim height after some calls. -/
def heightAfter (h : ℝ) : List HelioOp → ℝ
  | [] => h
  | .aim _ _ :: ops => heightAfter h ops
  | .height h' :: ops => heightAfter h' ops

/-- Unit vector from `p` to `q`. -/
noncomputable def toward (p q : V3 ℝ) : V3 ℝ := (1 / √(V3.dist2 q p)) • (q - p)

end Tracer
