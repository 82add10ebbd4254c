import Verif.Model.Protocol
import Verif.Spec.Surface

/-! Specification of the life-cycle of surfaces and geometry managers during traces. -/

namespace Tracer

variable {K E σ : Type _}

/-- The information on the latest iteration is gone: the bundle is not held any more, and asking for hit
points, normals or the "up" direction raises `AttributeError`. -/
structure GM.Released (m : GM K E) (a : Attrs K E) : Prop where
  bundle : a.workingBundle = none
  points : m.points a = .error .attribute
  normals : m.normals a = .error .attribute
  up : a.up = .error .attribute

/-- `done()` can be called: it raises nothing and lets go of the information. -/
def GM.CanFinish (m : GM K E) (a : Attrs K E) : Prop := (m.done a).1 = .ok () ∧ m.Released (m.done a).2

/-- The object `m` behaves like the geometry `g`, whatever was left in its attributes by earlier use: registering
rays gives the parameters of `g`; then rays that were hit can be selected; then the hit points,
normals and "up" direction are those of `g`; and `done()` can be called at any of these points, and clears the
object. -/
structure GM.Implements [Field K] [LinearOrder K] (m : GM K E) (g : Geometry K E) : Prop where
  fresh : m.CanFinish {}
  find : ∀ frame rays a, m.CanFinish a →
    (m.find frame rays a).1 = .ok (g.find frame rays) ∧ m.CanFinish (m.find frame rays a).2
  select : ∀ frame rays a, m.CanFinish a → ∀ sel recs, hitRecs g frame rays sel = .ok recs →
    ∀ a', a' = (m.select sel (m.find frame rays a).2).2 →
    (m.select sel (m.find frame rays a).2).1 = .ok () ∧ m.CanFinish a' ∧
    m.points a' = .ok (recs.map HitRec.point) ∧ m.normals a' = .ok (recs.map HitRec.normal) ∧
    a'.up = .ok frame.rot.c3
  done : ∀ a, m.CanFinish a → m.CanFinish (m.done a).2

/-- A surface object behaves like the surface `s'` of the value-level model. -/
def SurfObj.Represents [Field K] [LinearOrder K] (s : SurfObj σ K E) (s' : Surf σ K E) : Prop :=
  ∃ g : Geometry K E, s.gm.Implements g ∧ g.LengthOk ∧ s' = mkSurf g s.opt s.frame

/-- An object of surfaces behaves like the object `o'` of the value-level model. -/
def TracedObj.Represents [Field K] [LinearOrder K] (o : TracedObj σ K E) (o' : Obj σ K E) : Prop :=
  List.Forall₂ SurfObj.Represents o.surfs o'.surfs ∧ o'.own = o.own ∧ o'.next = o.next

/-- The surface has let go of the bundle it was asked about. -/
def SurfObj.Released (s : SurfObj σ K E) (a : SurfAttrs K E) : Prop :=
  a.currentBundle = none ∧ s.gm.Released a.geom

/-- One call of `ray_tracer`, on the scene as it is at that time: the surfaces may have been moved since the last
call, and the optics managers may have any state. -/
structure Job (σ K E : Type _) where
  objs : List (TracedObj σ K E)
  world : σ
  bundle : Bundle K E
  reps : Nat
  minE : K
  keepTree : Bool

/-- The results of a sequence of calls of `ray_tracer`, including calls that raise, on surfaces which start with the
attributes `as`. -/
def runJobs [Field K] [LinearOrder K] :
    List (Job σ K E) → List (SurfAttrs K E) → List (Except Err (TraceResult σ K E))
  | [], _ => []
  | j :: jobs, as =>
    let r := rayTracerA j.objs j.world j.bundle j.reps j.minE j.keepTree as
    r.1 :: runJobs jobs r.2

end Tracer
