import Verif.Spec.Trace
import Verif.Model.Flat
import Mathlib.Data.Real.Basic

/-! Mirrors that compute with rounding errors, whatever the order of operations. -/

namespace Tracer

variable {E σ : Type _}

/-- `y` is the result of rounding `x` with relative error at most `u`. -/
def Rounds (u x y : ℝ) : Prop := |y - x| ≤ u * |x|

/-- Componentwise. -/
def V3.Rounds (u : ℝ) (x y : V3 ℝ) : Prop := Tracer.Rounds u x.x y.x ∧ Tracer.Rounds u x.y y.y ∧ Tracer.Rounds u x.z y.z

/-- `y` is a computed dot product of `a` and `b`: the terms may be added in any order, with or without fused multiply-add. -/
def DotRounds (u : ℝ) (a b : V3 ℝ) (y : ℝ) : Prop := |y - V3.dot a b| ≤ 4 * u * (|a.x * b.x| + |a.y * b.y| + |a.z * b.z|)

/-- `t` is a parameter at which a ray from `v` along `d` is computed to meet the plane Z = 0 of the frame. -/
def RoundedParam (u : ℝ) (F : Tf ℝ) (v d : V3 ℝ) (t : ℝ) : Prop :=
  0 ≤ t ∧ ∃ (w : V3 ℝ) (dt vt : ℝ), V3.Rounds u (v - F.loc) w ∧ DotRounds u d F.rot.c3 dt ∧ 1 / 10 ^ 10 < |dt| ∧
    DotRounds u F.rot.c3 w vt ∧ Rounds u (-vt / dt) t

/-- `p` is the computed point of the ray at parameter `t`. -/
def RoundedPoint (u : ℝ) (v d : V3 ℝ) (t : ℝ) (p : V3 ℝ) : Prop :=
  ∃ m : V3 ℝ, V3.Rounds u (t • d) m ∧ V3.Rounds u (v + m) p

/-- `e` is the computed mirror image of the direction `d`, for the normal `n`. -/
def RoundedMirrored (u : ℝ) (n d e : V3 ℝ) : Prop :=
  ∃ (s : ℝ) (w w2 : V3 ℝ), DotRounds u d n s ∧ V3.Rounds u (s • n) w ∧ V3.Rounds u ((2 : ℝ) • w) w2 ∧ V3.Rounds u (d - w2) e

/-- The ray `r` is what a mirror at the frame `F` with the given absorptivity is computed to make of the ray `p` that meets it at `t`. -/
structure Struck (u : ℝ) (F : Tf ℝ) (absorptivity : ℝ) (p : Ray ℝ E) (t : ℝ) (r : Ray ℝ E) : Prop where
  param : RoundedParam u F p.vertex p.dir t
  point : RoundedPoint u p.vertex p.dir t r.vertex
  dir : RoundedMirrored u F.rot.c3 p.dir r.dir ∨ RoundedMirrored u (-F.rot.c3) p.dir r.dir
  energy : ∃ g, Rounds u (1 - absorptivity) g ∧ Rounds u (p.energy * g) r.energy

/-- A flat mirror, with or without aperture, that computes with relative errors of at most `u` in each operation. -/
structure RoundedMirror (u : ℝ) (F : Tf ℝ) (absorptivity : ℝ) (s : Surf σ ℝ E) : Prop where
  length : s.LengthOk
  parents : s.ParentsOk
  answer : ∀ (rays : Bundle ℝ E) (i : Nat) (r : Ray ℝ E) (t : ℝ), rays[i]? = some r → (s.register rays)[i]? = some (t : WithTop ℝ) →
    RoundedParam u F r.vertex r.dir t
  children : ∀ w rays sel out w', s.outgoing w rays sel = .ok (out, w') → ∀ r ∈ out, ∀ (p : Ray ℝ E) (t : ℝ), rays[r.parent]? = some p →
    (s.register rays)[r.parent]? = some (t : WithTop ℝ) → Struck u F absorptivity p t r

/-- All coordinates are at most `L` in size. -/
def V3.Within (L : ℝ) (v : V3 ℝ) : Prop := |v.x| ≤ L ∧ |v.y| ≤ L ∧ |v.z| ≤ L

end Tracer
