import Verif.Model.SceneView

/-! What a scene shows. -/

namespace Tracer.View

variable {A I S M L K : Type _} [DecidableEq I]

/-- The scene shows a drawing `m` of surface `i`. -/
def Scene.Shows (s : Scene A I S M L K) (i : I) (m : M) : Prop := ∃ h, (h, i, m) ∈ s.drawn

/-- No surface is drawn twice. -/
def Scene.Once (s : Scene A I S M L K) : Prop := (s.drawn.map fun x => x.2.1).Nodup

/-- The surfaces the scene knows of: those of the assembly when `set_assembly` or `update_surfaces` was last called. -/
def Scene.known (s : Scene A I S M L K) : List I := s.meshes.map Prod.fst

/-- Histories in which an assembly is replaced only on a cleared scene, as the package's examples do; `cleared` says whether
the scene is clear at the start. -/
def Careful : Bool → List (Op A I S M L K) → Prop
  | _, [] => True
  | c, .setAssembly _ :: ops => c = true ∧ Careful false ops
  | _, .clear :: ops => Careful true ops
  | _, .showAssembly _ :: ops => Careful false ops
  | _, .updateSurfaces :: ops => Careful false ops
  | c, .outside _ :: ops => Careful c ops
  | c, .setSource _ :: ops => Careful c ops
  | c, .plotRayTrace :: ops => Careful c ops
  | c, .setTraceControl _ _ :: ops => Careful c ops

end Tracer.View
