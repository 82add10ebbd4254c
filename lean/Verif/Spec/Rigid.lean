import Verif.Model.Vec

/-! Rotations and rigid motions. -/

namespace Tracer

variable {K : Type _} [Field K]

/-- A proper rotation: orthonormal columns, determinant one. -/
def M3.IsRotation (m : M3 K) : Prop := m.transpose * m = 1 ∧ m.det = 1

/-- A rigid transform. -/
def Tf.Rigid (t : Tf K) : Prop := t.rot.IsRotation

/-- A unit vector. -/
def V3.IsUnit (v : V3 K) : Prop := V3.dot v v = 1

/-- The squared distance of two points. -/
def V3.dist2 (p q : V3 K) : K := V3.dot (p - q) (p - q)

end Tracer
