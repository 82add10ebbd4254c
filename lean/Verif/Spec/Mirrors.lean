import Verif.Model.Mirrors
import Verif.Spec.Geometry
import Verif.Spec.Optics

/-! What a one-sided mirror is, and the box a homogenizer encloses. -/

namespace Tracer

variable {K E σ : Type _} [Field K] [LinearOrder K]

/-- The object consists of one flat surface, which sits where the set `S` is.
* A ray that is not (nearly) parallel to the surface meets it at the first point in `S` at or after its
  start, a (nearly) parallel one misses it.
* A ray that meets it is mirrored, at the point where it meets it.  It keeps the part `1 - absorptivity`
  of its energy if it comes from the side `front` points to, and nothing if it comes from the other side.
* It is not tested for rays that just left it. -/
structure ObjNode.IsMirror (o : SceneObj σ K E) (S : V3 K → Prop) (front : V3 K) (absorptivity : K) : Prop where
  unit : front.IsUnit
  surface : ∃ s, o.surfs = [s] ∧
    ∀ (rays : Bundle K E) (i : Nat) (r : Ray K E), rays[i]? = some r →
      ∃ p, (s.surf.register rays)[i]? = some p ∧
        (1 / 10 ^ 10 < |V3.dot r.dir front| → FirstAmong (0 ≤ ·) S r.vertex r.dir p) ∧
        (|V3.dot r.dir front| ≤ 1 / 10 ^ 10 → p = ⊤) ∧
        ∀ (t : K) (w : σ), p = (t : WithTop K) → ∃ out, s.surf.outgoing w rays [i] = .ok ([out], w) ∧
          out.vertex = r.vertex + t • r.dir ∧ Mirrored r.dir front out.dir ∧ out.parent = i ∧
          (V3.dot r.dir front ≤ 0 → out.energy = r.energy * (1 - absorptivity)) ∧
          (0 < V3.dot r.dir front → out.energy = 0)
  skip : ∀ (rays : Bundle K E) (k : Nat), o.data.2 rays k = [List.replicate rays.length false]

/-- The sides of the box `|X| ≤ x/2`, `|Y| ≤ y/2`, `0 ≤ Z ≤ h`, without its bottom and lid, each with the
direction that points into the box. -/
def boxSides (x y h : K) : List ((V3 K → Prop) × V3 K) :=
  [(fun p => p.x = x / 2 ∧ |p.y| ≤ y / 2 ∧ 0 ≤ p.z ∧ p.z ≤ h, ⟨-1, 0, 0⟩),
   (fun p => p.x = -(x / 2) ∧ |p.y| ≤ y / 2 ∧ 0 ≤ p.z ∧ p.z ≤ h, ⟨1, 0, 0⟩),
   (fun p => p.y = y / 2 ∧ |p.x| ≤ x / 2 ∧ 0 ≤ p.z ∧ p.z ≤ h, ⟨0, -1, 0⟩),
   (fun p => p.y = -(y / 2) ∧ |p.x| ≤ x / 2 ∧ 0 ≤ p.z ∧ p.z ≤ h, ⟨0, 1, 0⟩)]

/-- Strictly between the sides. -/
def betweenSides (x y : K) (p : V3 K) : Prop := |p.x| < x / 2 ∧ |p.y| < y / 2

/-- The sides of the box `|X| ≤ x/2`, `|Y| ≤ y/2`, `lo ≤ Z ≤ hi`, in the order +X, -X, -Y, +Y, each with the
direction that points into the box. -/
def hangingSides (x y lo hi : K) : List ((V3 K → Prop) × V3 K) :=
  [(fun p => p.x = x / 2 ∧ |p.y| ≤ y / 2 ∧ lo ≤ p.z ∧ p.z ≤ hi, ⟨-1, 0, 0⟩),
   (fun p => p.x = -(x / 2) ∧ |p.y| ≤ y / 2 ∧ lo ≤ p.z ∧ p.z ≤ hi, ⟨1, 0, 0⟩),
   (fun p => p.y = -(y / 2) ∧ |p.x| ≤ x / 2 ∧ lo ≤ p.z ∧ p.z ≤ hi, ⟨0, 1, 0⟩),
   (fun p => p.y = y / 2 ∧ |p.x| ≤ x / 2 ∧ lo ≤ p.z ∧ p.z ≤ hi, ⟨0, -1, 0⟩)]

/-- The surface is a rectangular plate that occupies the set `S`, its upper side looking along `front`. -/
def SurfNode.IsPlate (s : SceneSurf σ K E) (S : V3 K → Prop) (front : V3 K) : Prop :=
  s.temp.Rigid ∧ s.temp.rot.c3 = front ∧
    ∃ w l, rectPlateGM w l = .ok s.data.1 ∧ ∀ p, Placed s.temp (rectXY w l) p ↔ S p

/-- A receiver of dimensions `x`, `y` at height `z`, facing down: a surface that writes down what it absorbs,
and right behind it one that absorbs everything. -/
def ObjNode.IsReceiver (o : SceneObj σ K E) (x y z : K) (get : σ → Account K) (set : Account K → σ → σ) : Prop :=
  ∃ front back, o.surfs = [front, back] ∧
    front.IsPlate (fun p => p.z = z ∧ |p.x| ≤ x / 2 ∧ |p.y| ≤ y / 2) ⟨0, 0, -1⟩ ∧
    front.data.2 = reflectiveReceiver 1 get set ∧
    back.IsPlate (fun p => p.z = z + 1 / 10 ^ 10 ∧ |p.x| ≤ x / 2 ∧ |p.y| ≤ y / 2) ⟨0, 0, -1⟩ ∧
    back.data.2 = reflective 1

end Tracer
