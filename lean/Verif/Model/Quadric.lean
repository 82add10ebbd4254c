import Verif.Model.Flat
import Mathlib.Analysis.Real.Sqrt
import Mathlib.Analysis.SpecialFunctions.Trigonometric.Basic

/-! # Quadric surfaces (quadric.py, sphere_surface.py, paraboloid.py, cylinder.py), over the reals -/

namespace Tracer

open Real

variable {E : Type _}

/-! ### quadric.py -/

/-- A column of `hits` and `inters_coords`: the two solutions and their points
(quadric.py:70-78). -/
structure Cand where
  t0 : ℝ
  t1 : ℝ
  p0 : V3 ℝ
  p1 : V3 ℝ

/-- 1e-10 (quadric.py:72) -/
noncomputable def planarTol : ℝ := 1 / 10 ^ 10

/-- The two solutions of one ray (quadric.py:57-78), `none` if there are none.
Simplification: for `A <= 1e-10` and `B = 0` NumPy divides by zero and both solutions are
infinite or nan; whichever the subclass selects, the parameter ends as `inf` (nan is never
selected), so the model leaves the ray out. -/
noncomputable def candidate (abc : ℝ × ℝ × ℝ) (v d : V3 ℝ) : Option Cand :=
  let A := abc.1
  let B := abc.2.1
  let C := abc.2.2
  let delta := B ^ 2 - 4 * A * C
  if 0 ≤ delta then
    if A ≤ planarTol then
      if B = 0 then none
      else
        let t := -C / B
        some ⟨t, t, v + t • d, v + t • d⟩
    else
      let t0 := (-B + -1 * √delta) / (2 * A)
      let t1 := (-B + 1 * √delta) / (2 * A)
      some ⟨t0, t1, v + t0 • d, v + t1 • d⟩
  else none

/-- `select[m] = c` for a constant (quadric.py:117, 120; sphere_surface.py, paraboloid.py and cylinder.py in `_select_coords`). -/
def fill {α : Type _} (m : List Bool) (c : α) (old : List α) : List α :=
  Np.scatter m (List.replicate m.length c) old

/-- `N.nonzero(m.T[keep,:])[1]` for a 2 by n mask `m` (quadric.py:124, paraboloid.py:108,186,
cylinder.py:96): for each kept ray in turn, the places where its column is set. -/
def nonzeroT (keep : List Bool) (m : List (Bool × Bool)) : List Bool :=
  (Np.mask keep m).flatMap fun p => (if p.1 then [false] else []) ++ (if p.2 then [true] else [])

/-- `N.nonzero(m[:,keep])[0]` for a 2 by n mask `m` (sphere_surface.py:115, 178): first a zero for every
kept ray set in row 0, then a one for every kept ray set in row 1. -/
def nonzeroUT (keep : List Bool) (m : List (Bool × Bool)) : List Bool :=
  List.replicate ((Np.mask keep m).countP fun p => p.1) false ++
    List.replicate ((Np.mask keep m).countP fun p => p.2) true

/-- `prm > 0`, column by column (quadric.py:112). -/
noncomputable def positive (cands : List Cand) : List (Bool × Bool) :=
  cands.map fun c => (decide (0 < c.t0), decide (0 < c.t1))

/-- `QuadricGM._select_coords` (quadric.py:94-126); `none` is NaN.  `junk` is the contents of
`N.empty`. -/
noncomputable def defaultSelectFrom (junk : List (Option Bool)) (cands : List Cand) : List (Option Bool) :=
  let pos := positive cands
  let s := fill (pos.map fun p => !(p.1 || p.2)) none junk
  let s := fill (pos.map fun p => p.1 && p.2) (some false) s
  let one := pos.map fun p => xor p.1 p.2
  Np.scatter one ((nonzeroT one pos).map some) s

/-- `QuadricGM._select_coords`; `defaultSelect_junk` shows that the initial contents are immaterial (quadric.py:94-126). -/
noncomputable def defaultSelect (cands : List Cand) : List (Option Bool) :=
  defaultSelectFrom (List.replicate cands.length none) cands

/-- The `_select_coords` of the trimmed surfaces (sphere_surface.py:100-117, 164-180,
paraboloid.py:84-110, 157-188): the defaults, then rays of which no crossing or exactly one crossing passes
the test. `nz` is `nonzeroT` or `nonzeroUT`. -/
noncomputable def trimSelect (nz : List Bool → List (Bool × Bool) → List Bool) (test : V3 ℝ → Bool)
    (cands : List Cand) : List (Option Bool) :=
  let ok := cands.map fun c => (test c.p0 && decide (0 < c.t0), test c.p1 && decide (0 < c.t1))
  let s := defaultSelect cands
  let s := fill (ok.map fun p => !(p.1 || p.2)) none s
  let one := ok.map fun p => xor p.1 p.2
  Np.scatter one ((nz one ok).map some) s

/-- `N.choose(select, hits)` for one column (quadric.py:86). -/
def Cand.choose (b : Bool) (c : Cand) : ℝ := if b then c.t1 else c.t0

/-- `QuadricGM.find_intersections` (quadric.py:31-92) for a subclass' `get_ABC` and
`_select_coords`.  The early return when no ray has a solution (quadric.py:62-64) gives the same
parameters. -/
noncomputable def quadricFind (abc : V3 ℝ → V3 ℝ → ℝ × ℝ × ℝ) (select : List Cand → List (Option Bool))
    (rays : Bundle ℝ E) : List (WithTop ℝ) :=
  let cands := rays.map fun r => candidate (abc r.vertex r.dir) r.vertex r.dir
  let anyInters := cands.map Option.isSome
  let hits := cands.filterMap id
  let sel := select hits
  let notMissed := sel.map Option.isSome
  let anyInters' := Np.scatter anyInters notMissed anyInters
  let idx := sel.filterMap id
  let chosen := List.zipWith Cand.choose idx (Np.mask notMissed hits)
  Np.scatter anyInters' (chosen.map fun t : ℝ => (t : WithTop ℝ)) (List.replicate rays.length ⊤)

/-! ### sphere_surface.py -/

/-- `SphericalGM.get_ABC` for one ray (sphere_surface.py:53-68). -/
noncomputable def sphereABC (R : ℝ) (frame : Tf ℝ) (v d : V3 ℝ) : ℝ × ℝ × ℝ :=
  let w := v - frame.loc
  (d.x ^ 2 + d.y ^ 2 + d.z ^ 2, 2 * (d.x * w.x + d.y * w.y + d.z * w.z), (w.x ^ 2 + w.y ^ 2 + w.z ^ 2) - R ^ 2)

/-- `SphericalGM._normals` for one hit (sphere_surface.py:35-50). -/
noncomputable def sphereNormal (frame : Tf ℝ) (hit d : V3 ℝ) : V3 ℝ :=
  let w := frame.loc - hit
  let side := w.x * d.x + w.y * d.y + w.z * d.z
  let n := hit - frame.loc
  let n := if side < 0 then (-1 : ℝ) • n else n
  (1 / √(n.x ^ 2 + n.y ^ 2 + n.z ^ 2)) • n

/-- `set_radius` (sphere_surface.py:30-33): the radius that is stored. -/
noncomputable def setRadius (R : ℝ) : Except Err ℝ := if R ≤ 0 then .error .value else .ok R

/-- `SphericalGM(radius)` (sphere_surface.py:8-68), the closed sphere. -/
noncomputable def sphereGM (R : ℝ) : Except Err (Geometry ℝ E) :=
  match setRadius R with
  | .error e => .error e
  | .ok R => .ok ⟨fun frame rays => quadricFind (sphereABC R frame) defaultSelect rays, sphereNormal⟩

/-- The test of `HemisphereGM` (sphere_surface.py:108-111). -/
noncomputable def hemisphereTest (frame : Tf ℝ) (p : V3 ℝ) : Bool := decide ((frame.inv.point p).z ≤ 0)

/-- `HemisphereGM(radius)` (sphere_surface.py:95-117). -/
noncomputable def hemisphereGM (R : ℝ) : Except Err (Geometry ℝ E) :=
  match setRadius R with
  | .error e => .error e
  | .ok R => .ok ⟨fun frame rays => quadricFind (sphereABC R frame) (trimSelect nonzeroUT (hemisphereTest frame)) rays,
      sphereNormal⟩

/-- `CutSphereGM(radius, bounding_volume)` (sphere_surface.py:144-180); `bound` is the bounding volume's
`transform_frame` followed by `in_bounds` on one point, `none` if there is no volume.
Simplification: `in_bounds` is called on two points at a time and must not raise;
`BoundaryCylinder.in_bounds` raises for two points, see `Model/Boundary.lean`. -/
noncomputable def cutSphereGM (R : ℝ) (bound : Option (Tf ℝ → V3 ℝ → Bool)) : Except Err (Geometry ℝ E) :=
  match setRadius R with
  | .error e => .error e
  | .ok R => .ok ⟨fun frame rays => quadricFind (sphereABC R frame)
      (match bound with
       | none => defaultSelect
       | some b => trimSelect nonzeroUT (b frame)) rays,
      sphereNormal⟩

/-! ### paraboloid.py -/

/-- Local direction and start of a ray (paraboloid.py:54-56, cylinder.py:35-37): the direction by the
transposed rotation, the point by the inverse of the frame. -/
noncomputable def localDir (frame : Tf ℝ) (d : V3 ℝ) : V3 ℝ := frame.rot.transpose.mulVec d

/-- `Paraboloid.get_ABC` for one ray (paraboloid.py:48-62); `a`, `b` are the attributes of the manager. -/
noncomputable def paraboloidABC (a b : ℝ) (frame : Tf ℝ) (v d : V3 ℝ) : ℝ × ℝ × ℝ :=
  let d := localDir frame d
  let v := frame.inv.point v
  (a * d.x ^ 2 + b * d.y ^ 2, 2 * a * d.x * v.x + 2 * b * d.y * v.y - d.z, a * v.x ^ 2 + b * v.y ^ 2 - v.z)

/-- `Paraboloid._normals` for one hit (paraboloid.py:25-46). -/
noncomputable def paraboloidNormal (a b : ℝ) (frame : Tf ℝ) (hit d : V3 ℝ) : V3 ℝ :=
  let h := frame.inv.point hit
  let dl := localDir frame d
  let px := 2 * h.x * a
  let py := 2 * h.y * b
  let n : V3 ℝ := ⟨-px, -py, 1⟩
  let u := (1 / √(n.x ^ 2 + n.y ^ 2 + n.z ^ 2)) • n
  let u := if 0 < dl.x * u.x + dl.y * u.y + dl.z * u.z then (-1 : ℝ) • u else u
  frame.rot.mulVec u

/-- `Paraboloid(a, b)` (paraboloid.py:10-62).  Simplification: `a = 0` or `b = 0` raise
`ZeroDivisionError`, theorems assume both nonzero. -/
noncomputable def paraboloidGM (a b : ℝ) : Geometry ℝ E :=
  let a' := 1 / a ^ 2
  let b' := 1 / b ^ 2
  ⟨fun frame rays => quadricFind (paraboloidABC a' b' frame) defaultSelect rays, paraboloidNormal a' b'⟩

/-- The test of `ParabolicDishGM` (paraboloid.py:101-104), for the height of the cut `h`. -/
noncomputable def dishTest (h : ℝ) (frame : Tf ℝ) (p : V3 ℝ) : Bool := decide ((frame.inv.point p).z ≤ h)

/-- `ParabolicDishGM(diameter, focal_length)` (paraboloid.py:66-110).  Simplification: a negative focal
length makes `math.sqrt` raise and zero divides by zero, theorems assume it positive. -/
noncomputable def parabolicDishGM (diameter focal : ℝ) : Geometry ℝ E :=
  let par := 2 * √focal
  let a' := 1 / par ^ 2
  let h := (diameter / 2 / par) ^ 2
  ⟨fun frame rays => quadricFind (paraboloidABC a' a' frame) (trimSelect nonzeroT (dishTest h frame)) rays,
   paraboloidNormal a' a'⟩

/-- The test of `HexagonalParabolicDishGM` (paraboloid.py:174-182). -/
noncomputable def hexagonTest (R : ℝ) (frame : Tf ℝ) (p : V3 ℝ) : Bool :=
  let l := frame.inv.point p
  !(decide (√3 * R / 2 < |l.x|) || decide (R - tan (π / 6) * |l.x| < |l.y|))

/-- `HexagonalParabolicDishGM(diameter, focal_length)` (paraboloid.py:139-188). -/
noncomputable def hexagonalDishGM (diameter focal : ℝ) : Geometry ℝ E :=
  let par := 2 * √focal
  let a' := 1 / par ^ 2
  ⟨fun frame rays => quadricFind (paraboloidABC a' a' frame) (trimSelect nonzeroT (hexagonTest (diameter / 2) frame)) rays,
   paraboloidNormal a' a'⟩

/-! ### cylinder.py -/

/-- `InfiniteCylinder.get_ABC` for one ray (cylinder.py:19-42). -/
noncomputable def cylinderABC (R : ℝ) (frame : Tf ℝ) (v d : V3 ℝ) : ℝ × ℝ × ℝ :=
  let d := localDir frame d
  let v := frame.inv.point v
  (d.x ^ 2 + d.y ^ 2, 2 * (d.x * v.x + d.y * v.y), (v.x ^ 2 + v.y ^ 2) - R ^ 2)

/-- `InfiniteCylinder._normals` for one hit (cylinder.py:44-58). -/
noncomputable def cylinderNormal (frame : Tf ℝ) (hit d : V3 ℝ) : V3 ℝ :=
  let h := frame.inv.point hit
  let dl := localDir frame d
  let s := √(h.x ^ 2 + h.y ^ 2)
  let n : V3 ℝ := ⟨h.x / s, h.y / s, 0 / s⟩
  let n := if 0 < n.x * dl.x + n.y * dl.y then (-1 : ℝ) • n else n
  frame.rot.mulVec n

/-- `InfiniteCylinder(diameter)` (cylinder.py:11-58). -/
noncomputable def infiniteCylinderGM (diameter : ℝ) : Geometry ℝ E :=
  ⟨fun frame rays => quadricFind (cylinderABC (diameter / 2) frame) defaultSelect rays, cylinderNormal⟩

/-- `FiniteCylinder._select_coords` (cylinder.py:70-98). -/
noncomputable def cylinderSelect (halfH : ℝ) (frame : Tf ℝ) (cands : List Cand) : List (Option Bool) :=
  let s := List.replicate cands.length none
  let hitting := cands.map fun c =>
    (decide (|(frame.inv.point c.p0).z| ≤ halfH) && decide (0 < c.t0),
     decide (|(frame.inv.point c.p1).z| ≤ halfH) && decide (0 < c.t1))
  let s := fill (hitting.map fun p => p.1 && p.2) (some false) s
  let one := hitting.map fun p => xor p.1 p.2
  Np.scatter one ((nonzeroT one hitting).map some) s

/-- `FiniteCylinder(diameter, height)` (cylinder.py:61-98). -/
noncomputable def finiteCylinderGM (diameter height : ℝ) : Geometry ℝ E :=
  ⟨fun frame rays => quadricFind (cylinderABC (diameter / 2) frame) (cylinderSelect (height / 2) frame) rays,
   cylinderNormal⟩

end Tracer
