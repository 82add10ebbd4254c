import Verif.Model.TowerWindow

/-! What a user does in the window of `examples/tower_gui.py`. -/

namespace Tracer

/-- What can be done in the window: the sun is moved, the distances in the form are changed, or the button for the flux map is pressed (with the
numbers that are then drawn). -/
inductive TowerEvent where
  | sun (az el : ℝ)
  | place (radialRes angRes : ℝ)
  | fluxMap (dirDraws xy : List (ℝ × ℝ))

/-- The sliders go from 0 to 180 and from 0 to 90; distances are not zero; the shares that are drawn for the sun's directions lie between 0 and 1. -/
def TowerEvent.Allowed : TowerEvent → Prop
  | .sun az el => (0 ≤ az ∧ az ≤ 180) ∧ 0 ≤ el ∧ el ≤ 90
  | .place radialRes angRes => radialRes ≠ 0 ∧ angRes ≠ 0
  | .fluxMap dirDraws _ => ∀ d ∈ dirDraws, 0 ≤ d.2 ∧ d.2 ≤ 1

variable {E σ : Type _}

/-- The window, and what it shows: the recorded tree of the trace, and the points and connections of the lines. -/
abbrev TowerShown (σ E : Type _) := TowerWindow σ E × TraceResult σ ℝ E × List (V3 ℝ) × List (Nat × Nat)

/-- The window after some events, and what it then shows.  The flux map is shown beside the lines and leaves them as they are. -/
noncomputable def towerEvents (get : σ → Account ℝ) (set : Account ℝ → σ → σ) (junk junk' : M3 ℝ) (extra : E) (s : TowerShown σ E) :
    List TowerEvent → Except Err (TowerShown σ E)
  | [] => .ok s
  | .sun az el :: es =>
    match { s.1 with az := az, el := el }.aimField extra with
    | .error e => .error e
    | .ok s => towerEvents get set junk junk' extra s es
  | .place radialRes angRes :: es =>
    match s.1.replacePlant radialRes angRes get set junk junk' extra with
    | .error e => .error e
    | .ok s => towerEvents get set junk junk' extra s es
  | .fluxMap dirDraws xy :: es =>
    match s.1.fluxMap dirDraws xy get set extra with
    | .error e => .error e
    | .ok (s', _) => towerEvents get set junk junk' extra (s', s.2) es

/-- The distances in the form after some events. -/
def distances (d : ℝ × ℝ) : List TowerEvent → ℝ × ℝ
  | [] => d
  | .place radialRes angRes :: es => distances (radialRes, angRes) es
  | .sun _ _ :: es => distances d es
  | .fluxMap _ _ :: es => distances d es

/-- Where the sliders are after some events. -/
def sunPlace (d : ℝ × ℝ) : List TowerEvent → ℝ × ℝ
  | [] => d
  | .sun az el :: es => sunPlace (az, el) es
  | .place _ _ :: es => sunPlace d es
  | .fluxMap _ _ :: es => sunPlace d es

end Tracer
