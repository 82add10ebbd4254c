import Verif.Model.Programs
import Verif.Model.ShowRays

/-! What the windows of `examples/` show, over the reals. -/

namespace Tracer

variable {E σ : Type _}

/-- What `plot_ray_trace()` of a new `TracerScene` hands to the plotting library (mayavi_ui/scene_view.py:20-47, 134-158): the recorded tree, and
the points and connections of the lines.  The defaults are 200000000 iterations, the threshold 0.05, and lines of length 1 for rays that
escape. -/
noncomputable def firstPlot (objs : List (Obj σ ℝ E)) (w : σ) (source : Bundle ℝ E) :
    Except Err (TraceResult σ ℝ E × List (V3 ℝ) × List (Nat × Nat)) :=
  match rayTracer objs w source 200000000 (1 / 20) true with
  | .error e => .error e
  | .ok res =>
    match showRays res.tree 1 none with
    | .error e => .error e
    | .ok (points, connections) => .ok (res, points, connections)

/-- `create_dish_source()` of `DishScene` (examples/parabolic_dish_gui.py:38-57), without the colours: the dish and the rays of the sun.  The
two lists are what the random generator draws for the `disp_num_rays` rays. -/
noncomputable def dishSource (concent refl : ℝ) (dirDraws posDraws : List (ℝ × ℝ)) (get : σ → Account ℝ) (set : Account ℝ → σ → σ)
    (junk : M3 ℝ) (extra : E) : Except Err (SceneAsm σ ℝ E × Bundle ℝ E) :=
  match standardMinidish 1 concent refl 1 1 get set junk with
  | .error e => .error e
  | .ok (dish, f, _, H) =>
    match solarDisk ⟨0, 0, f + H + 1 / 2⟩ ⟨0, 0, -1⟩ (1 / 2) (465 / 100000) none dirDraws posDraws with
    | .error e => .error e
    | .ok source =>
      let num := posDraws.length
      let source := { source with energy := some (List.replicate num (1 * 1000 / (num : ℝ))) }
      match source.rays extra with
      | .error e => .error e
      | .ok rays => .ok (dish, rays)

/-- `DishScene()` (examples/parabolic_dish_gui.py:33-36, 59-67) with the numbers `concent` and `refl` in its form: what is first plotted, or
plotted after one of the numbers was changed. -/
noncomputable def dishWindow (concent refl : ℝ) (dirDraws posDraws : List (ℝ × ℝ)) (get : σ → Account ℝ) (set : Account ℝ → σ → σ)
    (junk : M3 ℝ) (w : σ) (extra : E) : Except Err (SceneAsm σ ℝ E × TraceResult σ ℝ E × List (V3 ℝ) × List (Nat × Nat)) :=
  match dishSource concent refl dirDraws posDraws get set junk extra with
  | .error e => .error e
  | .ok (dish, rays) =>
    match firstPlot dish.scene w rays with
    | .error e => .error e
    | .ok (res, points, connections) => .ok (dish, res, points, connections)

/-- The assembly of `ExampleScene` (examples/gui.py:31-36): two one-sided mirrors, the first turned over and leaning by 45 degrees.
`junk` is the uninitialised rotation of the new assembly (`Asm.new`). -/
noncomputable def twoMirrors (junk : M3 ℝ) : Except Err (SceneAsm σ ℝ E) :=
  match (rectOneSidedMirror 10 10 0 : Except Err (SceneObj σ ℝ E)) with
  | .error e => .error e
  | .ok surf1 =>
    let surf1 := surf1.set (.rotation ((rotx (Real.pi / 4)).rot * (roty Real.pi).rot))
    match (rectOneSidedMirror 10 10 0 : Except Err (SceneObj σ ℝ E)) with
    | .error e => .error e
    | .ok surf2 => .ok (Asm.new [surf1, surf2] [] 0 1 junk)

/-- The two rays of `ExampleScene` (examples/gui.py:25-28, 45-46), from the place that the sliders give.  The bundle has no refractive index,
and no parents, which are not read; the model stores 0. -/
noncomputable def twoRays (y z : ℝ) (extra : E) : Bundle ℝ E :=
  let nrm := 1 / √2
  [⟨⟨0, y, z⟩, ⟨0, -nrm, nrm⟩, 1, 0, none, extra⟩, ⟨⟨0, y, z⟩, ⟨0, 0, -1⟩, 1, 0, none, extra⟩]

/-- `ExampleScene` (examples/gui.py:19-47) when the sliders are at `y` and `z`: what is plotted. -/
noncomputable def mirrorsWindow (y z : ℝ) (junk : M3 ℝ) (w : σ) (extra : E) :
    Except Err (TraceResult σ ℝ E × List (V3 ℝ) × List (Nat × Nat)) :=
  match (twoMirrors junk : Except Err (SceneAsm σ ℝ E)) with
  | .error e => .error e
  | .ok a => firstPlot a.scene w (twoRays y z extra)

end Tracer
