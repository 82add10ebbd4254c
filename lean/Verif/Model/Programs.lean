import Verif.Model.Mirrors
import Verif.Model.Sources
import Verif.Model.Histogram

/-! Programs of `examples/`, over the reals, without their windows. -/

namespace Tracer

open Real

variable {E σ : Type _}

/-- The rays of a source that carries energy; `extra` stands for the properties that are not set.  A bundle without energy raises
`AttributeError` when it is traced (sources.py:78-80; the energy is read in tracer_engine.py:142). -/
def SourceBundle.rays (s : SourceBundle) (extra : E) : Except Err (Bundle ℝ E) :=
  match s.energy with
  | none => .error .attribute
  | some es => .ok (List.zipWith (fun (p : V3 ℝ × V3 ℝ) e => ⟨p.1, p.2, e, 0, none, extra⟩) (s.vertices.zip s.directions) es)

/-- `histogram_hits(bins)` of a `HomogenizedLocalReceiver` (models/homogenized_local_receiver.py:59-83) with the given sides: the receiver's
surface is the first of the assembly's first object, which `get_objects` lists after the homogenizer's four walls. -/
noncomputable def collectorHistogram (a : SceneAsm σ ℝ E) (sides : ℝ × ℝ) (bins : Nat) (acc : Account ℝ) :
    Except Err (List (List ℝ) × List ℝ × List ℝ) :=
  match (a.getObjects[4]?).bind fun o => o.surfs[0]? with
  | none => .error .index
  | some receiver => histogramHits receiver.temp sides bins acc

/-- `test_case(focus, num_rays, h_depth, side)` (examples/test_case.py:25-53) up to the plot: the assembly, the result of the trace, and the
picture, `histogram_hits()[0]/(side/50)**2/1000.`.  The two lists are what the random generator draws for the `num_rays` rays. -/
noncomputable def testCase (focus hDepth side : ℝ) (dirDraws posDraws : List (ℝ × ℝ)) (get : σ → Account ℝ) (set : Account ℝ → σ → σ)
    (junk : M3 ℝ) (w : σ) (extra : E) : Except Err (SceneAsm σ ℝ E × TraceResult σ ℝ E × List (List ℝ)) :=
  match miniDish 5 focus (9 / 10) (focus + hDepth) side hDepth (9 / 10) 1 get set junk with
  | .error e => .error e
  | .ok assembly =>
    let assembly := assembly.set (.transform (rotx (-π / 4)))
    let x := -1 / √2
    match solarDisk ⟨0, 7, 7⟩ ⟨0, x, x⟩ (5 / 2) (5 / 1000) (some 1000) dirDraws posDraws with
    | .error e => .error e
    | .ok sun => match sun.rays extra with
    | .error e => .error e
    | .ok sun =>
      match rayTracer assembly.scene w sun 100 (1 / 10 ^ 6) true with
      | .error e => .error e
      | .ok res =>
        match collectorHistogram assembly (side, side * 1) 50 (get res.world) with
        | .error e => .error e
        | .ok (H, _, _) => .ok (assembly, res, H.map fun row => row.map fun h => h / (side / 50) ^ 2 / 1000)

end Tracer
