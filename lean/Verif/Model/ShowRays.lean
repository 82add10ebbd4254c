import Verif.Model.Np
import Verif.Model.Ray
import Verif.Model.Vec

/-! `show_rays` (mayavi_ui/scene_view.py:216-272): the points and connections handed to the plotting library. -/

namespace Tracer

variable {K E : Type _} [Field K] [DecidableEq K]

/-- `non_degenerate` (mayavi_ui/scene_view.py:238-242) -/
def shownRays (sel : Option (Bundle K E → List Bool)) (l : Bundle K E) : List Bool :=
  let se := l.map fun r => decide (r.energy ≠ 0)
  match sel with
  | none => se
  | some f => List.zipWith (· && ·) se (f l)

/-- `ev` and `parents` for one level (mayavi_ui/scene_view.py:244-258). -/
def levelEnds (len : K) (sel : Option (Bundle K E → List Bool)) (l : Bundle K E) (rest : List (Bundle K E)) :
    List (V3 K) × List Nat :=
  let shown := shownRays sel l
  let sub := Np.mask shown l
  match rest with
  | [] =>
    let ev := sub.map fun r => r.vertex + len • r.dir
    (ev, List.range ev.length)
  | ends :: _ =>
    let parents := ends.map Ray.parent
    let escaping := (Np.nonzero shown).map fun i => !(parents.any fun p => decide (i = p))
    let escapingEnds := (Np.mask escaping sub).map fun r => r.vertex + len • r.dir
    (ends.map Ray.vertex ++ escapingEnds, parents ++ Np.nonzero escaping)

/-- The loop over the levels (mayavi_ui/scene_view.py:236-264), `a` and `b` are the last two entries of
`accum_points`: the points that are appended, and the connections. -/
def showLevels (len : K) (sel : Option (Bundle K E → List Bool)) :
    Nat → Nat → List (Bundle K E) → List (V3 K) × List (Nat × Nat)
  | _, _, [] => ([], [])
  | a, b, l :: rest =>
    let e := levelEnds len sel l rest
    let more := showLevels len sel b (b + e.1.length) rest
    (e.1 ++ more.1, List.zip (e.2.map (a + ·)) ((List.range e.1.length).map (b + ·)) ++ more.2)

/-- `show_rays(scene, tree, escaping_len, ray_selector)` (mayavi_ui/scene_view.py:216-272): `points` and
`connections`.  `tree[0]` of an empty tree raises `IndexError`. -/
def showRays (tree : List (Bundle K E)) (len : K) (sel : Option (Bundle K E → List Bool)) :
    Except Err (List (V3 K) × List (Nat × Nat)) :=
  match tree with
  | [] => .error .index
  | l :: rest =>
    let r := showLevels len sel 0 l.length (l :: rest)
    .ok (l.map Ray.vertex ++ r.1, r.2)

end Tracer
