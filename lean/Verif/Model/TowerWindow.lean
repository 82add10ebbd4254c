import Verif.Model.Tower
import Verif.Model.Windows
import Verif.Model.Histogram

/-! The window of `examples/tower_gui.py`, over the reals. -/

namespace Tracer

open Real

variable {E σ : Type _}

/-- What a `TowerScene` holds (examples/tower_gui.py:28-66): the plant (`pos`, `field` and `plant`), the sun's azimuth and elevation in the form, in
degrees, and the world with the receiver's memory. -/
structure TowerWindow (σ E : Type _) where
  tower : Tower σ E
  az : ℝ
  el : ℝ
  world : σ

/-- `scipy.constants.degree` (examples/tower_gui.py:14) -/
noncomputable def degree : ℝ := π / 180

/-- `gen_plant()` (examples/tower_gui.py:56-66) with the distances of the form.  `N.r_[a:b:0]` divides by zero. -/
noncomputable def genPlant (radialRes angRes : ℝ) (get : σ → Account ℝ) (set : Account ℝ → σ → σ) (junk junk' : M3 ℝ) :
    Except Err (Tower σ E) :=
  if radialRes = 0 ∨ angRes = 0 then .error .zerodiv
  else Tower.new (towerPositions angRes radialRes) (1 / 2) (1 / 2) 0 10 1 1 (towerFace 10) get set junk junk'

/-- `gen_rays()` (examples/tower_gui.py:48-54) -/
noncomputable def TowerWindow.rays (s : TowerWindow σ E) (extra : E) : Bundle ℝ E :=
  towerRays s.tower.pos (s.az * degree) (s.el * degree) none extra

/-- `aim_field()` (examples/tower_gui.py:68-75): the heliostats are aimed, and the rays are traced and plotted. -/
noncomputable def TowerWindow.aimField (s : TowerWindow σ E) (extra : E) :
    Except Err (TowerWindow σ E × TraceResult σ ℝ E × List (V3 ℝ) × List (Nat × Nat)) :=
  let rays := s.rays extra
  let tower := s.tower.onField (HelioField.aimToSun (s.az * degree) (s.el * degree))
  match firstPlot tower.plant.scene s.world rays with
  | .error e => .error e
  | .ok (res, points, connections) => .ok (⟨tower, s.az, s.el, res.world⟩, res, points, connections)

/-- `TowerScene()` (examples/tower_gui.py:41-46) with the numbers in its form: the plant is built, with a receiver whose memory is empty, traced
before it is aimed, and then aimed. -/
noncomputable def TowerWindow.new (radialRes angRes az el : ℝ) (get : σ → Account ℝ) (set : Account ℝ → σ → σ) (junk junk' : M3 ℝ) (w : σ)
    (extra : E) : Except Err (TowerWindow σ E × TraceResult σ ℝ E × List (V3 ℝ) × List (Nat × Nat)) :=
  match genPlant radialRes angRes get set junk junk' with
  | .error e => .error e
  | .ok tower =>
    let s : TowerWindow σ E := ⟨tower, az, el, set Account.reset w⟩
    match firstPlot s.tower.plant.scene s.world (s.rays extra) with
    | .error e => .error e
    | .ok (res, _, _) => { s with world := res.world }.aimField extra

/-- `replace_plant()` (examples/tower_gui.py:77-80): a new plant, with a new receiver, whose memory is empty. -/
noncomputable def TowerWindow.replacePlant (s : TowerWindow σ E) (radialRes angRes : ℝ) (get : σ → Account ℝ) (set : Account ℝ → σ → σ)
    (junk junk' : M3 ℝ) (extra : E) : Except Err (TowerWindow σ E × TraceResult σ ℝ E × List (V3 ℝ) × List (Nat × Nat)) :=
  match genPlant radialRes angRes get set junk junk' with
  | .error e => .error e
  | .ok tower => { s with tower := tower, world := set Account.reset s.world }.aimField extra

/-- The rays for the flux map (examples/tower_gui.py:91-103), `hstatRays` for each heliostat.  `dirDraws` are the draws of
`pillbox_sunshape_directions`, `xy` those from [-0.25, 0.25); both have `hstatRays * len(pos)` entries. -/
noncomputable def fluxRays (hstatRays : Nat) (pos : List (V3 ℝ)) (azimuth elevation : ℝ) (dirDraws xy : List (ℝ × ℝ)) (extra : E) : Bundle ℝ E :=
  let sun := solarVector azimuth elevation
  let rot := rotationToZ (-sun)
  let direct := (pillbox (465 / 100000) dirDraws).map rot.mulVec
  let base := List.zipWith (fun p (q : ℝ × ℝ) => p + (q.1 • rot.c1 + q.2 • rot.c2)) (List.replicate hstatRays pos).flatten xy
  List.zipWith (fun b d => ⟨b - d, d, 1, 0, none, extra⟩) base direct

/-- `_fmap_btn_fired()` (examples/tower_gui.py:87-122) up to what is given to the plotting library: the receiver's memory is emptied, the rays are
traced, and the hits are sorted into 50 by 50 bins (`histogramHits` has the same calls; the receiver stays where `gen_plant` put it). -/
noncomputable def TowerWindow.fluxMap (s : TowerWindow σ E) (dirDraws xy : List (ℝ × ℝ)) (get : σ → Account ℝ) (set : Account ℝ → σ → σ)
    (extra : E) : Except Err (TowerWindow σ E × TraceResult σ ℝ E × List (List ℝ)) :=
  let rays := fluxRays 1000 s.tower.pos (s.az * degree) (s.el * degree) dirDraws xy extra
  match rayTracer s.tower.plant.scene (set Account.reset s.world) rays 1000 (1 / 20) true with
  | .error e => .error e
  | .ok res =>
    match histogramHits (towerFace 10) (1, 1) 50 (get res.world) with
    | .error e => .error e
    | .ok (H, _, _) => .ok ({ s with world := res.world }, res, H)

end Tracer
