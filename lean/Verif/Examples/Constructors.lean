import Verif.Model.Quadric
import Verif.Model.Flat

/-! The constructors of bounded geometries accept positive sizes: used by the examples. -/

namespace Tracer.Examples

variable {E : Type _}

theorem sphere_exists {R : ℝ} (h : 0 < R) : ∃ g : Geometry ℝ E, sphereGM R = .ok g := by
  unfold sphereGM setRadius
  rw [if_neg (not_le.2 h)]
  exact ⟨_, rfl⟩

theorem hemisphere_exists {R : ℝ} (h : 0 < R) : ∃ g : Geometry ℝ E, hemisphereGM R = .ok g := by
  unfold hemisphereGM setRadius
  rw [if_neg (not_le.2 h)]
  exact ⟨_, rfl⟩

theorem cutSphere_exists {R : ℝ} (h : 0 < R) (bound : Option (Tf ℝ → V3 ℝ → Bool)) :
    ∃ g : Geometry ℝ E, cutSphereGM R bound = .ok g := by
  unfold cutSphereGM setRadius
  rw [if_neg (not_le.2 h)]
  exact ⟨_, rfl⟩

end Tracer.Examples
