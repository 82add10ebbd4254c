import Verif.Model.Assembly

/-! Assemblies whose surfaces have a geometry manager and optics: what the engine is given for them. -/

namespace Tracer

variable {K E σ : Type _} [Field K] [LinearOrder K]

/-- A `Surface` (surface.py:18-42): its frames, its geometry manager and its optics. -/
abbrev SceneSurf (σ K E : Type _) := SurfNode K (Geometry K E × Optics σ K E)

/-- `own_rays` and `surfaces_for_next_iteration` of an object (object.py:67-98). -/
abbrev Policies (K E : Type _) :=
  (Bundle K E → Nat → List Bool) × (Bundle K E → Nat → List (List Bool))

/-- An `AssembledObject` (object.py:15-38). -/
abbrev SceneObj (σ K E : Type _) := ObjNode K (Geometry K E × Optics σ K E) (Policies K E)

/-- An `Assembly` (assembly.py:17-34). -/
abbrev SceneAsm (σ K E : Type _) := Asm K (Geometry K E × Optics σ K E) (Policies K E)

/-- `Surface(geometry, optics, location, rotation)` (surface.py:18-42, has_frame.py:23-34). -/
def Surface.new (g : Geometry K E) (opt : Optics σ K E) (frame : Tf K) : SceneSurf σ K E :=
  ⟨frame, frame, (g, opt)⟩

/-- The surface the engine sees for a surface of the tree (surface.py:59). -/
def SurfNode.surf (s : SurfNode K (Geometry K E × Optics σ K E)) : Surf σ K E := mkSurf s.data.1 s.data.2 s.temp

/-- What the engine is given for an assembly: every surface works in its frame for tracing
(surface.py:59). -/
def Asm.scene (a : Asm K (Geometry K E × Optics σ K E)
    ((Bundle K E → Nat → List Bool) × (Bundle K E → Nat → List (List Bool)))) : List (Obj σ K E) :=
  a.getObjects.map fun o =>
    ⟨o.surfs.map fun s => mkSurf s.data.1 s.data.2 s.temp, o.data.1, o.data.2⟩

end Tracer
