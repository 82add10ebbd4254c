import Verif.Model.Quadric
import Verif.Spec.Curved
import Verif.Spec.Geometry

/-! Bundles for which a hemisphere or a cut sphere reports an intersection behind a ray. -/

namespace Tracer

variable {E : Type _}

open Classical in
/-- Some ray of the bundle starts inside the closed surface `full`, its near crossing being more than 1e-16 behind it, its far
crossing is in the kept part `S`, and fewer of the rays before it keep only their far crossing than of the rays after it keep
only their near crossing. -/
def Crossed (full S : V3 ℝ → Prop) (b : Bundle ℝ E) : Prop :=
  ∃ (i : Nat) (r : Ray ℝ E) (t0 t1 : ℝ), b[i]? = some r ∧ t0 < -(1 / 10 ^ 16) ∧ 0 < t1 ∧ full (r.vertex + t0 • r.dir) ∧
    full (r.vertex + t1 • r.dir) ∧ S (r.vertex + t1 • r.dir) ∧
    (b.take i).countP (fun s => decide (OnlyFar full S s.vertex s.dir)) <
      (b.drop (i + 1)).countP (fun s => decide (OnlyNear full S s.vertex s.dir))

/-- The geometry manager `g`, placed by `frame`, is a hemisphere or a sphere cut by a bounding volume, and the bundle is crossed
for it. -/
def SphereCrossed (g : Geometry ℝ E) (frame : Tf ℝ) (b : Bundle ℝ E) : Prop :=
  (∃ R, hemisphereGM R = .ok g ∧ Crossed (Placed frame (sphereSet R)) (Placed frame (hemisphereSet R)) b) ∨
  ∃ R bound, cutSphereGM R (some bound) = .ok g ∧
    Crossed (Placed frame (sphereSet R)) (fun p => Placed frame (sphereSet R) p ∧ bound frame p = true) b

end Tracer
