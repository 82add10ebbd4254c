import Verif.Model.Heliostats

/-! A heliostat field with its receiver (`examples/tower_gui.py`), over the reals. -/

namespace Tracer

open Real

variable {E σ : Type _}

/-- A plant (`examples/tower_gui.py:56-68`): the assembly, whose only sub-assembly is the field, with the attributes `_pos` and `_th`
of the field.  Calls on the field change the plant, as they change the same Python object. -/
structure Tower (σ E : Type _) where
  pos : List (V3 ℝ)
  aimHeight : ℝ
  plant : SceneAsm σ ℝ E

/-- `gen_plant` (examples/tower_gui.py:56-68) with any positions, dimensions of heliostats and receiver, and transform of the
receiver: `HeliostatField(pos, width, height, absorpt, aim_height)`, `one_sided_receiver(x, y)` put at `F`, and
`Assembly(objects=[recobj], subassemblies=[field])`. -/
noncomputable def Tower.new (positions : List (V3 ℝ)) (width height absorpt aimHeight x y : ℝ) (F : Tf ℝ) (get : σ → Account ℝ)
    (set : Account ℝ → σ → σ) (junk junk' : M3 ℝ) : Except Err (Tower σ E) :=
  match HelioField.new positions width height absorpt aimHeight junk with
  | .error e => .error e
  | .ok field =>
    match oneSidedReceiver (E := E) x y 1 get set with
    | .error e => .error e
    | .ok (_, recobj) => .ok ⟨field.pos, field.aimHeight, Asm.new [recobj.set (.transform F)] [field.asm] 0 1 junk'⟩

/-- A call on the field of the plant (examples/tower_gui.py:72, models/heliostat_field.py:51-82). -/
noncomputable def Tower.onField (call : HelioField σ E → HelioField σ E) (t : Tower σ E) : Tower σ E :=
  match t.plant with
  | .mk own (sub :: subs) objs =>
    let field := call ⟨t.pos, t.aimHeight, sub⟩
    ⟨field.pos, field.aimHeight, .mk own (field.asm :: subs) objs⟩
  | .mk _ [] _ => t

/-- `gen_rays` (examples/tower_gui.py:48-54): one ray of energy 1 for each heliostat, from one unit of length before its centre.
`ref` and `extra` stand for the properties the example leaves unset. -/
noncomputable def towerRays (positions : List (V3 ℝ)) (azimuth elevation : ℝ) (ref : Option ℝ) (extra : E) : Bundle ℝ E :=
  let sun := solarVector azimuth elevation
  positions.map fun p => ⟨p + sun, -sun, 1, 0, ref, extra⟩

/-- The positions of the heliostats in `gen_plant` (examples/tower_gui.py:57-58). -/
noncomputable def towerPositions (angRes radialRes : ℝ) : List (V3 ℝ) :=
  (radialStagger (-(π / 4)) (π / 4 + 1 / 10000) angRes 5 20 radialRes).map fun q => ⟨q.1, q.2, 0⟩

/-- The transform of the receiver in `gen_plant` (examples/tower_gui.py:62-64), at any height: its front looks along X. -/
noncomputable def towerFace (H : ℝ) : Tf ℝ := ⟨(roty (π / 2)).rot, ⟨0, 0, H⟩⟩

end Tracer
