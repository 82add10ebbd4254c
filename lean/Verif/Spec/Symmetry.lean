import Verif.Spec.Media

/-! Optical systems with a symmetry: profiles drawn along a direction, systems with an axis, stacks of layers. -/

namespace Tracer

variable {E σ : Type _}

/-- The refractive index where the ray runs; 1 if the ray carries none. -/
noncomputable def Ray.index (r : Ray ℝ E) : ℝ := r.ref.getD 1

/-- Refractive index times the component of the direction along `u`. -/
noncomputable def Ray.along (u : V3 ℝ) (r : Ray ℝ E) : ℝ := r.index * V3.dot r.dir u

/-- The skewness of a ray about the axis through `c` along `u`: refractive index times the moment of the direction about the axis. -/
noncomputable def Ray.skew (c u : V3 ℝ) (r : Ray ℝ E) : ℝ := r.index * V3.dot (V3.cross (r.vertex - c) r.dir) u

/-- Refractive index times the part of the direction perpendicular to `e`. -/
noncomputable def Ray.sideways (e : V3 ℝ) (r : Ray ℝ E) : V3 ℝ := r.index • (r.dir - V3.dot r.dir e • e)

/-- The callables of the package that do not scatter. -/
inductive ClearOptics (M : ℝ → Prop) : Optics σ ℝ E → Prop
  | mirror (absorptivity : ℝ) : ClearOptics M (reflective absorptivity)
  | oneSided (absorptivity : ℝ) : ClearOptics M (absorberReflector absorptivity)
  | refractive (a b : ℝ) : M a → M b → ClearOptics M (refractiveHomogenous a b)
  | receiver (absorptivity : ℝ) (get set) (opt) : ClearOptics M opt → ClearOptics M (accountant absorptivity get set opt)

/-- Flat surfaces that contain the direction `u`, and cylinders along `u`. -/
inductive Extruded (u : V3 ℝ) : Geometry ℝ E → Tf ℝ → Prop
  | flat (g frame) : FlatGeometry g → V3.dot frame.rot.c3 u = 0 → Extruded u g frame
  | cylinder (diameter frame) : V3.cross frame.rot.c3 u = 0 → Extruded u (infiniteCylinderGM diameter) frame
  | finiteCylinder (diameter height frame) : V3.cross frame.rot.c3 u = 0 → Extruded u (finiteCylinderGM diameter height) frame

/-- Surfaces with the axis through `c` along `u`: flat ones perpendicular to it, spheres and parts of spheres with their centre on it, dishes,
paraboloids and cylinders about it. -/
inductive Coaxial (c u : V3 ℝ) : Geometry ℝ E → Tf ℝ → Prop
  | flat (g frame) : FlatGeometry g → V3.cross frame.rot.c3 u = 0 → Coaxial c u g frame
  | sphere (R g frame) : sphereGM R = .ok g → V3.cross (frame.loc - c) u = 0 → Coaxial c u g frame
  | hemisphere (R g frame) : hemisphereGM R = .ok g → V3.cross (frame.loc - c) u = 0 → Coaxial c u g frame
  | cutSphere (R bound g frame) : cutSphereGM R bound = .ok g → V3.cross (frame.loc - c) u = 0 → Coaxial c u g frame
  | paraboloid (a frame) : V3.cross (frame.loc - c) u = 0 → V3.cross frame.rot.c3 u = 0 → Coaxial c u (paraboloidGM a a) frame
  | dish (diameter focal frame) : V3.cross (frame.loc - c) u = 0 → V3.cross frame.rot.c3 u = 0 →
      Coaxial c u (parabolicDishGM diameter focal) frame
  | hexagonal (diameter focal frame) : V3.cross (frame.loc - c) u = 0 → V3.cross frame.rot.c3 u = 0 →
      Coaxial c u (hexagonalDishGM diameter focal) frame
  | cylinder (diameter frame) : V3.cross (frame.loc - c) u = 0 → V3.cross frame.rot.c3 u = 0 →
      Coaxial c u (infiniteCylinderGM diameter) frame
  | finiteCylinder (diameter height frame) : V3.cross (frame.loc - c) u = 0 → V3.cross frame.rot.c3 u = 0 →
      Coaxial c u (finiteCylinderGM diameter height) frame

end Tracer
