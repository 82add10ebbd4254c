import Verif.Model.Lens
import Verif.Model.Heliostats
import Verif.Model.Refraction
import Mathlib.Algebra.Order.Floor.Ring
import Mathlib.Algebra.Order.Archimedean.Real.Basic

/-!
Whole numbers given as integers.  The other models read every number as a float.  The code is Python 2 and NumPy: `/` between
integers rounds down, an array of integers keeps its type when floats are written into it or when it is divided in place, and an
operation with a float gives a float.  This file models the places of the package where that can matter: those where no factor is
written as a float (`2.`, `1.`), and those that write into arrays given by the user.  Integers do not overflow here.
-/

namespace Tracer

open Real

/-- A number of Python 2, or the elements of a NumPy array: an integer or a float (the operands are those of models/spherical_lens.py, models/heliostat_field.py:66-70, has_frame.py:46-54 and optics.py:71-84, see the definitions below). -/
inductive Num where
  | int (z : ℤ)
  | flt (x : ℝ)

namespace Num

/-- The number meant (the operands are those of models/spherical_lens.py, models/heliostat_field.py:66-70, has_frame.py:46-54 and optics.py:71-84, see the definitions below). -/
noncomputable def val : Num → ℝ
  | int z => z
  | flt x => x

/-- The number is stored as a float (the operands are those of models/spherical_lens.py, models/heliostat_field.py:66-70, has_frame.py:46-54 and optics.py:71-84, see the definitions below). -/
def IsFloat : Num → Prop
  | int _ => False
  | flt _ => True

/-- `x + y`: an integer if both are (the operands are those of models/spherical_lens.py, models/heliostat_field.py:66-70, has_frame.py:46-54 and optics.py:71-84, see the definitions below). -/
noncomputable def add : Num → Num → Num
  | int a, int b => int (a + b)
  | x, y => flt (x.val + y.val)

/-- `x - y` (the operands are those of models/spherical_lens.py, models/heliostat_field.py:66-70, has_frame.py:46-54 and optics.py:71-84, see the definitions below) -/
noncomputable def sub : Num → Num → Num
  | int a, int b => int (a - b)
  | x, y => flt (x.val - y.val)

/-- `x * y` (the operands are those of models/spherical_lens.py, models/heliostat_field.py:66-70, has_frame.py:46-54 and optics.py:71-84, see the definitions below) -/
noncomputable def mul : Num → Num → Num
  | int a, int b => int (a * b)
  | x, y => flt (x.val * y.val)

/-- `x / y` in Python 2: rounded down if both are integers.  Theorems exclude zero divisors (the operands are those of models/spherical_lens.py, models/heliostat_field.py:66-70, has_frame.py:46-54 and optics.py:71-84, see the definitions below). -/
noncomputable def div : Num → Num → Num
  | int a, int b => int ⌊(a : ℝ) / (b : ℝ)⌋
  | x, y => flt (x.val / y.val)

/-- `x + y`, see `add` (optics.py:97) -/
noncomputable instance : Add Num := ⟨add⟩
/-- `x - y`, see `sub` (optics.py:97) -/
noncomputable instance : Sub Num := ⟨sub⟩
/-- `x * y`, see `mul` (optics.py:83) -/
noncomputable instance : Mul Num := ⟨mul⟩
/-- `x / y`, see `div` (optics.py:71, 97) -/
noncomputable instance : Div Num := ⟨div⟩

end Num

/-- A float written into an array of integers (C's conversion): rounded toward zero (models/heliostat_field.py:68; has_frame.py:47, 54). -/
noncomputable def truncate (x : ℝ) : ℤ := if 0 ≤ x then ⌊x⌋ else ⌈x⌉

/-- The components of a vector of integers, as floats (has_frame.py:47, models/heliostat_field.py:66). -/
def V3.ofInt (v : V3 ℤ) : V3 ℝ := ⟨v.x, v.y, v.z⟩

/-- Three floats written into an array of integers (has_frame.py:47, models/heliostat_field.py:68). -/
noncomputable def V3.truncate (v : V3 ℝ) : V3 ℤ := ⟨Tracer.truncate v.x, Tracer.truncate v.y, Tracer.truncate v.z⟩

/-- A matrix of integers, as floats (has_frame.py:54). -/
def M3.ofInt (m : M3 ℤ) : M3 ℝ := ⟨m.c1.ofInt, m.c2.ofInt, m.c3.ofInt⟩

/-- Nine floats written into an array of integers (has_frame.py:54). -/
noncomputable def M3.truncate (m : M3 ℝ) : M3 ℤ := ⟨m.c1.truncate, m.c2.truncate, m.c3.truncate⟩

/-! ### Scalars -/

/-- `opt_power` of a lens with two curved faces (models/spherical_lens.py:85), for the numbers as they are given. -/
noncomputable def lensPowerNum (depth n R1 R2 : Num) : Num :=
  (n - .int 1) * (.flt 1 / R1 - .flt 1 / R2 + depth * (n - .int 1) / R1 / R2 / n)

/-- `refr_idx_hartmann(wavelength, a, b, c, d, e)` (optics.py:88-97), for the numbers as they are given. -/
noncomputable def refrIdxHartmannNum (wavelength a b c _d _e : Num) : Num := a + b / (c - wavelength)

/-- The step between the angles of `radial_stagger` (models/heliostat_field.py:116). -/
noncomputable def staggerStepNum (azSpace : Num) : Num := azSpace / .int 2

/-! ### Refractive indices -/

/-- `toggle_ref_idx(current)` for one ray (optics_callables.py:114-127).  `N.where` gives integers if both indices are. -/
noncomputable def toggleRefIdxNum (a b current : Num) : Num :=
  match a, b with
  | .int a, .int b => .int (if current.val = a then b else a)
  | a, b => .flt (if current.val = a.val then b.val else a.val)

/-- An entry of `refracted` in `optics.refractions` (optics.py:71-74). -/
noncomputable def refractedNum (n1 n2 : Num) (d m : V3 ℝ) : Bool :=
  let n := (n2 / n1).val
  let cos1 := V3.dot m d
  decide (cos1 ^ 2 ≥ 1 - n ^ 2)

/-- A column of `refr_dirs` in `optics.refractions` (optics.py:71-84), where the ratio is not zero. -/
noncomputable def refractNum (n1 n2 : Num) (d m : V3 ℝ) : V3 ℝ :=
  let n := (n2 / n1).val
  let cos1 := V3.dot m d
  let cos2 := √(1 - 1 / n ^ 2 * (1 - cos1 ^ 2))
  let e : V3 ℝ := ⟨(d.x - cos1 * m.x) / n, (d.y - cos1 * m.y) / n, (d.z - cos1 * m.z) / n⟩
  let s : ℝ := if cos1 < 0 then -1 else 1
  ⟨e.x + m.x * cos2 * s, e.y + m.y * cos2 * s, e.z + m.z * cos2 * s⟩

/-- `optics.fresnel` for one ray (optics.py:10-37). -/
noncomputable def fresnelNum (d n : V3 ℝ) (n1 n2 : Num) : ℝ :=
  let thetaIn := arccos |V3.dot n d|
  let foo := cos thetaIn
  let bar := √(1 - ((n1 / n2).val * sin thetaIn) ^ 2)
  let rs := ((n1.val * foo - n2.val * bar) / (n1.val * foo + n2.val * bar)) ^ 2
  let rp := ((n1.val * bar - n2.val * foo) / (n1.val * bar + n2.val * foo)) ^ 2
  (rs + rp) / 2

/-- `N.hstack` of the index arrays of two bundles, as the sum of the reflected and the refracted rays makes it
(optics_callables.py:161, ray_bundle.py): an array of floats if one of them is. -/
noncomputable def hstackNum (l l' : List Num) : List Num :=
  open Classical in
  if ∃ x ∈ l ++ l', x.IsFloat then (l ++ l').map fun x => .flt x.val else l ++ l'

/-! ### Heliostat positions -/

/-- `tower_vec[:,2] += self._th` on the third components of an array of integers (models/heliostat_field.py:67).  Before NumPy 1.10 a
float is rounded toward zero, since then (`strict`) the operation raises. -/
noncomputable def addInPlace (strict : Bool) (z : ℤ) : Num → Except Err ℤ
  | .int h => .ok (z + h)
  | .flt h => if strict then .error .type else .ok (truncate (z + h))

/-- The transform for the heliostat at `pos`, if the positions are an array of integers (models/heliostat_field.py:65-80): the
division in line 68 is in place too. -/
noncomputable def aimTransformInt (strict : Bool) (azimuth elevation : ℝ) (aimHeight : Num) (pos : V3 ℤ) : Except Err (Tf ℝ) :=
  match addInPlace strict (-pos.z) aimHeight with
  | .error e => .error e
  | .ok z =>
    if strict then .error .type
    else
      let towerVec := (normalizeRow (V3.ofInt ⟨-pos.x, -pos.y, z⟩)).truncate
      let hstat := normalizeRow (solarVector azimuth elevation + towerVec.ofInt)
      let az := arctan2 hstat.y hstat.x
      let elev := arccos hstat.z
      .ok ⟨(rotz az * roty elev).rot, pos.ofInt⟩

/-! ### Frames -/

/-- A component whose `_transform` is an array of integers (has_frame.py): what `get_transform()`, `get_location()` and
`get_rotation()` return.  The array is the user's, given to `set_transform`. -/
structure IntFrame where
  transform : Tf ℤ
  loc : V3 ℝ
  rot : M3 ℝ

/-- The transform as floats, as it enters `N.dot(transform, self._transform)` (has_frame.py:74). -/
def Tf.ofInt (t : Tf ℤ) : Tf ℝ := ⟨t.rot.ofInt, t.loc.ofInt⟩

/-- `set_transform(transform)` with an array of integers (has_frame.py:56-64). -/
def IntFrame.setTransform (t : Tf ℤ) : IntFrame := ⟨t, t.loc.ofInt, t.rot.ofInt⟩

/-- `set_location(location)` after that (has_frame.py:42-47): the location is kept, and written into the transform. -/
noncomputable def IntFrame.setLocation (l : V3 ℝ) (f : IntFrame) : IntFrame := ⟨⟨f.transform.rot, l.truncate⟩, l, f.rot⟩

/-- `set_rotation(rotation)` (has_frame.py:49-54). -/
noncomputable def IntFrame.setRotation (r : M3 ℝ) (f : IntFrame) : IntFrame := ⟨⟨r.truncate, f.transform.loc⟩, f.loc, r⟩

/-- The frame for tracing, in a parent at `parent` (has_frame.py:69-74). -/
noncomputable def IntFrame.global (parent : Tf ℝ) (f : IntFrame) : Tf ℝ := parent * f.transform.ofInt

end Tracer
