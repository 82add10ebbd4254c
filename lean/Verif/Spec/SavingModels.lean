import Verif.Spec.Specular

/-! Assemblies of the package in which the policies only save work. -/

namespace Tracer

variable {E σ : Type _}

/-- An assembly of the package: surfaces placed rigidly, that reflect or refract, in objects with the default policies, in one-sided
mirrors of one flat surface, and in receivers that absorb everything. -/
structure SparingScene (a : SceneAsm σ ℝ E) : Prop where
  rigid : ∀ o ∈ a.getObjects, ∀ s ∈ o.surfs, s.temp.Rigid
  geometry : ∀ o ∈ a.getObjects, ∀ s ∈ o.surfs, PlainGeometry s.data.1
  optics : ∀ o ∈ a.getObjects, ∀ s ∈ o.surfs, ∃ n1 n2, SpecularOptics n1 n2 s.data.2
  policies : ∀ o ∈ a.getObjects, o.data = (Obj.defaultOwn, Obj.defaultNext o.surfs.length) ∨
    o.data = (Obj.defaultOwn, Obj.skipNext o.surfs.length) ∧
      ((∃ s, o.surfs = [s] ∧ FlatGeometry s.data.1 ∧ MirrorOptics s.data.2) ∨
       ∀ s ∈ o.surfs, s.data.2 = reflective 1 ∨ ∃ get set, s.data.2 = reflectiveReceiver 1 get set)

end Tracer
