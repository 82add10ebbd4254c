import Verif.Spec.Variation

/-! Mirror images. -/

namespace Tracer

variable {K E σ : Type _} [Field K] [LinearOrder K]

/-- The mirror image of the point `x` in the plane through `c` with the unit normal `m`. -/
def imageIn (c m x : V3 K) : V3 K := x - (2 * V3.dot (x - c) m) • m

/-- The mirror image of the direction `d` in a plane with the unit normal `m`. -/
def turnedBy (m d : V3 K) : V3 K := d - (2 * V3.dot d m) • m

/-- A plane: a point of it and its normal. -/
structure Plane (K : Type _) where
  point : V3 K
  normal : V3 K

/-- The plane of a flat surface placed by a frame: through the frame's origin, normal to its Z axis. -/
def Tf.plane (F : Tf K) : Plane K := ⟨F.loc, F.rot.c3⟩

/-- The image of the image ... of a point, in one plane after the other. -/
def imageAfter (planes : List (Plane K)) (x : V3 K) : V3 K := planes.foldl (fun x P => imageIn P.point P.normal x) x

/-- ... of a direction. -/
def turnedAfter (planes : List (Plane K)) (d : V3 K) : V3 K := planes.foldl (fun d P => turnedBy P.normal d) d

/-- Some surface of the scene is a flat mirror in the plane. -/
def HasMirror (objs : List (Obj σ K E)) (P : Plane K) : Prop :=
  ∃ o ∈ objs, ∃ g opt F, mkSurf g opt F ∈ o.surfs ∧ FlatGeometry g ∧ MirrorOptics opt ∧ F.plane = P

/-- The surface is a flat mirror, of any outline and either side up, that lies in the plane. -/
def FlatMirrorIn (P : Plane K) (s : Surf σ K E) : Prop :=
  ∃ g opt F, s = mkSurf g opt F ∧ FlatGeometry g ∧ MirrorOptics opt ∧
    (F.rot.c3 = P.normal ∨ F.rot.c3 = -P.normal) ∧ V3.dot (F.loc - P.point) P.normal = 0

/-- The three directions are perpendicular to each other, and of unit length. -/
def Perpendicular (e1 e2 e3 : V3 K) : Prop :=
  V3.dot e1 e1 = 1 ∧ V3.dot e2 e2 = 1 ∧ V3.dot e3 e3 = 1 ∧ V3.dot e1 e2 = 0 ∧ V3.dot e1 e3 = 0 ∧ V3.dot e2 e3 = 0

end Tracer
