import Verif.Spec.Rigid
import Verif.Spec.Surface

/-! Surfaces as sets of points, and what it means to find where a ray meets one. -/

namespace Tracer

variable {K E : Type _} [Field K] [LinearOrder K]

/-- The set `S`, given in local coordinates, placed at a frame. -/
def Placed (frame : Tf K) (S : V3 K → Prop) (p : V3 K) : Prop := ∃ q, S q ∧ p = frame.point q

/-- `p` is the first parameter in `I` at which the ray from `v` along `d` is in `S`; `⊤` (infinity)
stands for none. -/
def FirstAmong (I : K → Prop) (S : V3 K → Prop) (v d : V3 K) : WithTop K → Prop
  | some t => I t ∧ S (v + t • d) ∧ ∀ s, I s → S (v + s • d) → t ≤ s
  | none => ∀ s, I s → ¬ S (v + s • d)

/-- The plane Z = 0. -/
def planeXY (q : V3 K) : Prop := q.z = 0

/-- The rectangle of the given dimensions in the plane Z = 0, edges included. -/
def rectXY (width height : K) (q : V3 K) : Prop := q.z = 0 ∧ |q.x| ≤ width / 2 ∧ |q.y| ≤ height / 2

/-- The disk of radius `R` in the plane Z = 0, edge included. -/
def diskXY (R : K) (q : V3 K) : Prop := q.z = 0 ∧ q.x ^ 2 + q.y ^ 2 ≤ R ^ 2

/-- The triangle with vertices 0, `a`, `b`. -/
def triangle (a b : V3 K) (q : V3 K) : Prop := ∃ s t : K, 0 ≤ s ∧ 0 ≤ t ∧ s + t ≤ 1 ∧ q = s • a + t • b

/-- The sphere of radius `R` around the origin. -/
def sphereSet (R : K) (q : V3 K) : Prop := q.x ^ 2 + q.y ^ 2 + q.z ^ 2 = R ^ 2

/-- The cylinder of radius `R` around the Z axis. -/
def cylinderSet (R : K) (q : V3 K) : Prop := q.x ^ 2 + q.y ^ 2 = R ^ 2

/-- The part of that cylinder within `height/2` of the XY plane. -/
def finiteCylinderSet (R height : K) (q : V3 K) : Prop := q.x ^ 2 + q.y ^ 2 = R ^ 2 ∧ |q.z| ≤ height / 2

/-- The elliptic paraboloid `z = (x/a)^2 + (y/b)^2`. -/
def paraboloidSet (a b : K) (q : V3 K) : Prop := q.z = (q.x / a) ^ 2 + (q.y / b) ^ 2

/-- The paraboloid of revolution with focus (0, 0, f). -/
def dishSet (f : K) (q : V3 K) : Prop := q.z = (q.x ^ 2 + q.y ^ 2) / (4 * f)

/-- A ray moved by a transform: its start as a point, its direction as a direction. -/
def Ray.move (M : Tf K) (r : Ray K E) : Ray K E := { r with vertex := M.point r.vertex, dir := M.dir r.dir }

/-- Moving the frame and the rays by the same rigid transform changes no parameter and moves the
normals. -/
structure Geometry.Equivariant (g : Geometry K E) : Prop where
  find : ∀ (M frame : Tf K) (rays : Bundle K E), M.Rigid → frame.Rigid →
    g.find (M * frame) (rays.map (Ray.move M)) = g.find frame rays
  normal : ∀ (M frame : Tf K) (hit d : V3 K), M.Rigid → frame.Rigid →
    g.normal (M * frame) (M.point hit) (M.dir d) = M.dir (g.normal frame hit d)

end Tracer
