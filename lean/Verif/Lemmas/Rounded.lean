import Verif.Spec.Rounded
import Verif.Model.Rounded
import Verif.Lemmas.Child
import Mathlib.Tactic.Linarith
import Mathlib.Tactic.FieldSimp
import Mathlib.Analysis.Real.Sqrt
import Mathlib.Tactic.LinearCombination

/-! Lemmas for `Props/Rounded.lean`. -/

set_option linter.unusedSectionVars false

namespace Tracer

variable {E σ : Type _}

/-! ### Errors -/

theorem Rounds.abs_le {u x y : ℝ} (h : Rounds u x y) : |y| ≤ (1 + u) * |x| := by
  have h1 := abs_add_le (y - x) x
  rw [sub_add_cancel] at h1
  unfold Rounds at h
  linarith

theorem abs_le_of_sub {x y e B : ℝ} (h : |y - x| ≤ e) (hx : |x| ≤ B) : |y| ≤ B + e := by
  have h1 := abs_add_le (y - x) x
  rw [sub_add_cancel] at h1
  linarith

theorem Rounds.within {u x y B : ℝ} (hu : 0 ≤ u) (h : Rounds u x y) (hx : |x| ≤ B) : |y - x| ≤ u * B :=
  h.trans (mul_le_mul_of_nonneg_left hx hu)

theorem V3.Rounds.within {u B : ℝ} {x y : V3 ℝ} (hu : 0 ≤ u) (h : V3.Rounds u x y) (hx : x.Within B) : (y - x).Within (u * B) :=
  ⟨Tracer.Rounds.within hu h.1 hx.1, Tracer.Rounds.within hu h.2.1 hx.2.1, Tracer.Rounds.within hu h.2.2 hx.2.2⟩

theorem V3.Within.mono {v : V3 ℝ} {A B : ℝ} (h : v.Within A) (hAB : A ≤ B) : v.Within B :=
  ⟨h.1.trans hAB, h.2.1.trans hAB, h.2.2.trans hAB⟩

theorem V3.Within.add {v w : V3 ℝ} {A B : ℝ} (h : v.Within A) (h' : w.Within B) : (v + w).Within (A + B) :=
  ⟨(abs_add_le _ _).trans (add_le_add h.1 h'.1), (abs_add_le _ _).trans (add_le_add h.2.1 h'.2.1),
    (abs_add_le _ _).trans (add_le_add h.2.2 h'.2.2)⟩

theorem V3.Within.sub {v w : V3 ℝ} {A B : ℝ} (h : v.Within A) (h' : w.Within B) : (v - w).Within (A + B) :=
  ⟨(abs_sub _ _).trans (add_le_add h.1 h'.1), (abs_sub _ _).trans (add_le_add h.2.1 h'.2.1),
    (abs_sub _ _).trans (add_le_add h.2.2 h'.2.2)⟩

theorem V3.Within.smul {v : V3 ℝ} {A : ℝ} (h : v.Within A) {t T : ℝ} (ht : |t| ≤ T) : (t • v).Within (T * A) := by
  have hA : 0 ≤ A := (abs_nonneg _).trans h.1
  refine ⟨?_, ?_, ?_⟩ <;> simp only [V3.smul_x, V3.smul_y, V3.smul_z, abs_mul]
  · exact mul_le_mul ht h.1 (abs_nonneg _) ((abs_nonneg _).trans ht)
  · exact mul_le_mul ht h.2.1 (abs_nonneg _) ((abs_nonneg _).trans ht)
  · exact mul_le_mul ht h.2.2 (abs_nonneg _) ((abs_nonneg _).trans ht)

theorem V3.Within.of_sub {x y : V3 ℝ} {e B : ℝ} (h : (y - x).Within e) (hx : x.Within B) : y.Within (B + e) :=
  ⟨abs_le_of_sub h.1 hx.1, abs_le_of_sub h.2.1 hx.2.1, abs_le_of_sub h.2.2 hx.2.2⟩

theorem V3.Within.trans_sub {x y z : V3 ℝ} {a b : ℝ} (h : (z - y).Within a) (h' : (y - x).Within b) : (z - x).Within (a + b) := by
  have := V3.Within.add h h'
  have e : z - y + (y - x) = z - x := by apply V3.ext <;> simp
  rwa [e] at this

/-- The sum of the sizes of the components of a vector of length about 1. -/
theorem V3.one_norm {n : V3 ℝ} (hn : V3.dot n n ≤ 9 / 8) : |n.x| + |n.y| + |n.z| ≤ 2 := by
  have h : (|n.x| + |n.y| + |n.z|) ^ 2 ≤ 4 := by
    unfold V3.dot at hn
    have := sq_abs n.x
    have := sq_abs n.y
    have := sq_abs n.z
    nlinarith [sq_nonneg (|n.x| - |n.y|), sq_nonneg (|n.y| - |n.z|), sq_nonneg (|n.x| - |n.z|)]
  nlinarith [abs_nonneg n.x, abs_nonneg n.y, abs_nonneg n.z]

theorem V3.dot_terms {n x : V3 ℝ} (hn : V3.dot n n ≤ 9 / 8) {B : ℝ} (hx : x.Within B) :
    |n.x * x.x| + |n.y * x.y| + |n.z * x.z| ≤ 2 * B := by
  have hB : 0 ≤ B := (abs_nonneg _).trans hx.1
  have h := V3.one_norm hn
  rw [abs_mul, abs_mul, abs_mul]
  have h1 := mul_le_mul_of_nonneg_left hx.1 (abs_nonneg n.x)
  have h2 := mul_le_mul_of_nonneg_left hx.2.1 (abs_nonneg n.y)
  have h3 := mul_le_mul_of_nonneg_left hx.2.2 (abs_nonneg n.z)
  nlinarith

theorem V3.abs_dot_le {n x : V3 ℝ} (hn : V3.dot n n ≤ 9 / 8) {B : ℝ} (hx : x.Within B) : |V3.dot n x| ≤ 2 * B := by
  refine le_trans ?_ (V3.dot_terms hn hx)
  unfold V3.dot
  exact abs_add_three _ _ _

theorem V3.dotFlip (a b : V3 ℝ) : V3.dot a b = V3.dot b a := by unfold V3.dot; ring

theorem DotRounds.within {u B y : ℝ} {n x : V3 ℝ} (hu : 0 ≤ u) (hn : V3.dot n n ≤ 9 / 8) (hx : x.Within B) (h : DotRounds u n x y) :
    |y - V3.dot n x| ≤ 8 * u * B := by
  have := mul_le_mul_of_nonneg_left (V3.dot_terms hn hx) (by linarith : (0 : ℝ) ≤ 4 * u)
  unfold DotRounds at h
  linarith

theorem DotRounds.comm {u y : ℝ} {a b : V3 ℝ} (h : DotRounds u a b y) : DotRounds u b a y := by
  unfold DotRounds at *
  rw [V3.dotFlip b a, mul_comm b.x, mul_comm b.y, mul_comm b.z]
  exact h

theorem V3.within_unit {d : V3 ℝ} (h : V3.dot d d ≤ 9 / 8) : d.Within (9 / 8) := by
  have key : ∀ x : ℝ, x ^ 2 ≤ 9 / 8 → |x| ≤ 9 / 8 := fun x hx => abs_le_of_sq_le_sq (by nlinarith) (by norm_num)
  unfold V3.dot at h
  exact ⟨key _ (by nlinarith [mul_self_nonneg d.y, mul_self_nonneg d.z]), key _ (by nlinarith [mul_self_nonneg d.x, mul_self_nonneg d.z]),
    key _ (by nlinarith [mul_self_nonneg d.x, mul_self_nonneg d.y])⟩

theorem V3.dot_sub (n a b : V3 ℝ) : V3.dot n (a - b) = V3.dot n a - V3.dot n b := by unfold V3.dot; simp; ring

/-- How far the plane is from the point at a computed parameter. -/
theorem RoundedParam.residual {u L t : ℝ} {F : Tf ℝ} {v d : V3 ℝ} (hu : 0 ≤ u) (hu1 : u ≤ 1 / 1000)
    (hn : V3.dot F.rot.c3 F.rot.c3 ≤ 9 / 8) (hd : V3.dot d d ≤ 9 / 8) (hv : v.Within L) (hc : F.loc.Within L)
    (h : RoundedParam u F v d t) (ht : t ≤ L) : |V3.dot F.rot.c3 (v + t • d - F.loc)| ≤ 333 / 10 * u * L := by
  obtain ⟨ht0, w, dt, vt, hw, hdt, hbig, hvt, hr⟩ := h
  have hL : 0 ≤ L := ht0.trans ht
  have huL : 0 ≤ u * L := mul_nonneg hu hL
  have huL1 : u * (u * L) ≤ 1 / 1000 * (u * L) := mul_le_mul_of_nonneg_right hu1 huL
  have h1 : (v - F.loc).Within (L + L) := hv.sub hc
  have h2 := V3.Rounds.within hu hw h1
  have h3 := h2.of_sub h1
  have h4 := hvt.within hu hn h3
  have h5 := V3.abs_dot_le hn h2
  rw [V3.dot_sub] at h5
  have h6 := V3.abs_dot_le hn h1
  have h7 := hdt.comm.within hu hn (V3.within_unit hd)
  have hne : dt ≠ 0 := by
    rintro rfl
    rw [abs_zero] at hbig
    norm_num at hbig
  have h8 : |t * dt + vt| ≤ u * |vt| := by
    have e1 : t * dt + vt = (t - -vt / dt) * dt := by field_simp; ring
    have e2 : |-vt / dt| * |dt| = |vt| := by rw [← abs_mul, div_mul_cancel₀ _ hne, abs_neg]
    rw [e1, abs_mul, ← e2, ← mul_assoc]
    exact mul_le_mul_of_nonneg_right hr (abs_nonneg _)
  have h9 : |vt - V3.dot F.rot.c3 (v - F.loc)| ≤ 201 / 10 * (u * L) := by
    have := abs_add_le (vt - V3.dot F.rot.c3 w) (V3.dot F.rot.c3 w - V3.dot F.rot.c3 (v - F.loc))
    rw [sub_add_sub_cancel] at this
    nlinarith
  have h10 := abs_le_of_sub h9 h6
  have h11 : u * |vt| ≤ u * (2 * (L + L) + 201 / 10 * (u * L)) := mul_le_mul_of_nonneg_left h10 hu
  have h12 : |t * (V3.dot F.rot.c3 d - dt)| ≤ L * (8 * u * (9 / 8)) := by
    rw [abs_mul, abs_of_nonneg ht0, abs_sub_comm]
    exact mul_le_mul ht h7 (abs_nonneg _) hL
  have e : V3.dot F.rot.c3 (v + t • d - F.loc) = (t * dt + vt) + (-(vt - V3.dot F.rot.c3 (v - F.loc))) + t * (V3.dot F.rot.c3 d - dt) := by
    unfold V3.dot; simp; ring
  rw [e]
  refine (abs_add_three _ _ _).trans ?_
  rw [abs_neg]
  nlinarith

/-- How far a computed point is from the point of the ray. -/
theorem RoundedPoint.near {u L t : ℝ} {v d p : V3 ℝ} (hu : 0 ≤ u) (hu1 : u ≤ 1 / 1000)
    (hd : V3.dot d d ≤ 9 / 8) (hv : v.Within L) (h : RoundedPoint u v d t p) (ht0 : 0 ≤ t) (ht : t ≤ L) :
    (p - (v + t • d)).Within (33 / 10 * u * L) ∧ p.Within (214 / 100 * L) := by
  obtain ⟨m, hm, hp⟩ := h
  have hL : 0 ≤ L := ht0.trans ht
  have huL : 0 ≤ u * L := mul_nonneg hu hL
  have huL1 : u * (u * L) ≤ 1 / 1000 * (u * L) := mul_le_mul_of_nonneg_right hu1 huL
  have huL2 : u * L ≤ 1 / 1000 * L := mul_le_mul_of_nonneg_right hu1 hL
  have h1 : (t • d).Within (L * (9 / 8)) := (V3.within_unit hd).smul (by rwa [abs_of_nonneg ht0])
  have h2 := V3.Rounds.within hu hm h1
  have h3 := h2.of_sub h1
  have h4 := hv.add h3
  have h5 := V3.Rounds.within hu hp h4
  have e : (v + m) - (v + t • d) = m - t • d := by apply V3.ext <;> simp
  have h6 := h5.trans_sub (x := v + t • d) (b := u * (L * (9 / 8))) (by rw [e]; exact h2)
  refine ⟨h6.mono (by nlinarith), (h5.of_sub h4).mono (by nlinarith)⟩

/-- How near the plane the computed hit point is. -/
theorem hit_residual {u L t : ℝ} {F : Tf ℝ} {v d p : V3 ℝ} (hu : 0 ≤ u) (hu1 : u ≤ 1 / 1000)
    (hn : V3.dot F.rot.c3 F.rot.c3 ≤ 9 / 8) (hd : V3.dot d d ≤ 9 / 8) (hv : v.Within L) (hc : F.loc.Within L)
    (h : RoundedParam u F v d t) (hp : RoundedPoint u v d t p) (ht : t ≤ L) : |V3.dot F.rot.c3 (p - F.loc)| ≤ 40 * u * L := by
  have ht0 := h.1
  have hL : 0 ≤ L := ht0.trans ht
  have huL : 0 ≤ u * L := mul_nonneg hu hL
  have h1 := h.residual hu hu1 hn hd hv hc ht
  have h2 := V3.abs_dot_le hn (hp.near hu hu1 hd hv ht0 ht).1
  have e : V3.dot F.rot.c3 (p - F.loc) = V3.dot F.rot.c3 (p - (v + t • d)) + V3.dot F.rot.c3 (v + t • d - F.loc) := by
    unfold V3.dot; simp; ring
  rw [e]
  refine (abs_add_le _ _).trans ?_
  nlinarith

/-- How well the computed mirror image of a direction agrees with the exact one. -/
theorem RoundedMirrored.near {u D : ℝ} {n d e : V3 ℝ} (hu : 0 ≤ u) (hu1 : u ≤ 1 / 1000)
    (hn : V3.dot n n ≤ 9 / 8) (hd : d.Within D) (h : RoundedMirrored u n d e) :
    (e - (d - (2 * V3.dot d n) • n)).Within (33 * u * D) := by
  obtain ⟨s, w, w2, hs, hw, hw2, he⟩ := h
  have hD : 0 ≤ D := (abs_nonneg _).trans hd.1
  have huD : 0 ≤ u * D := mul_nonneg hu hD
  have huD1 : u * (u * D) ≤ 1 / 1000 * (u * D) := mul_le_mul_of_nonneg_right hu1 huD
  have huD2 : u * D ≤ 1 / 1000 * D := mul_le_mul_of_nonneg_right hu1 hD
  have h1 := hs.comm.within hu hn hd
  rw [V3.dotFlip n d] at h1
  have h2 : |V3.dot d n| ≤ 2 * D := by rw [V3.dotFlip]; exact V3.abs_dot_le hn hd
  have hn1 := V3.within_unit hn
  have h3 : |s| ≤ 2008 / 1000 * D := (abs_le_of_sub h1 h2).trans (by nlinarith)
  have h4 : (s • n).Within (2008 / 1000 * D * (9 / 8)) := hn1.smul h3
  have h5 := V3.Rounds.within hu hw h4
  have h6 := (h5.of_sub h4).mono (B := 227 / 100 * D) (by nlinarith)
  have h7 : ((2 : ℝ) • w).Within (2 * (227 / 100 * D)) := h6.smul (by norm_num)
  have h8 := V3.Rounds.within hu hw2 h7
  have h9 := (h8.of_sub h7).mono (B := 456 / 100 * D) (by nlinarith)
  have h10 := hd.sub h9
  have h11 := V3.Rounds.within hu he h10
  -- the exact value with the computed dot product
  have h12 : ((d - w2) - (d - (2 : ℝ) • w)).Within (u * (2 * (227 / 100 * D))) := by
    have e1 : (d - w2) - (d - (2 : ℝ) • w) = (-1 : ℝ) • (w2 - (2 : ℝ) • w) := by apply V3.ext <;> simp
    rw [e1, ← one_mul (u * (2 * (227 / 100 * D)))]
    exact h8.smul (by norm_num)
  have h13 : ((d - (2 : ℝ) • w) - (d - (2 * V3.dot d n) • n)).Within (2 * (u * (2008 / 1000 * D * (9 / 8))) + 2 * (8 * u * D) * (9 / 8)) := by
    have e1 : (d - (2 : ℝ) • w) - (d - (2 * V3.dot d n) • n) = (-2 : ℝ) • (w - s • n) + (-(2 * (s - V3.dot d n))) • n := by
      apply V3.ext <;> simp <;> ring
    rw [e1]
    refine (h5.smul (T := 2) (by norm_num)).add (hn1.smul ?_)
    rw [abs_neg, abs_mul, abs_two]
    linarith
  refine ((h11.trans_sub h12).trans_sub h13).mono ?_
  nlinarith

theorem neg_normal {u : ℝ} {n d e : V3 ℝ} (h : RoundedMirrored u (-n) d e) : RoundedMirrored u n d e := by
  obtain ⟨s, w, w2, hs, hw, hw2, he⟩ := h
  refine ⟨-s, w, w2, ?_, ?_, hw2, he⟩
  · unfold DotRounds at *
    have e1 : V3.dot d (-n) = -V3.dot d n := by unfold V3.dot; simp; ring
    rw [e1] at hs
    simp only [V3.neg_x, V3.neg_y, V3.neg_z, mul_neg, abs_neg] at hs
    rw [show -s - V3.dot d n = -(s - -V3.dot d n) by ring, abs_neg]
    exact hs
  · have e1 : (-s) • n = s • (-n) := by apply V3.ext <;> simp
    rw [e1]
    exact hw

/-- Where a mirrored ray is computed to meet the plane that it starts from. -/
theorem again_small {u L c t t' : ℝ} {F : Tf ℝ} {v d p e : V3 ℝ} (hu : 0 ≤ u) (hu1 : u ≤ 1 / 1000)
    (hn : |V3.dot F.rot.c3 F.rot.c3 - 1| ≤ 1 / 8) (hd : V3.dot d d ≤ 9 / 8) (hv : v.Within L) (hc : F.loc.Within L)
    (h : RoundedParam u F v d t) (hp : RoundedPoint u v d t p) (ht : t ≤ L) (he : RoundedMirrored u F.rot.c3 d e)
    (hcos : c ≤ |V3.dot d F.rot.c3|) (huc : 500 * u ≤ c) (hc0 : 0 < c) (h' : RoundedParam u F p e t') :
    t' * c ≤ 144 * u * L := by
  have ht0 := h.1
  have hL : 0 ≤ L := ht0.trans ht
  have huL : 0 ≤ u * L := mul_nonneg hu hL
  have huL1 : u * (u * L) ≤ 1 / 1000 * (u * L) := mul_le_mul_of_nonneg_right hu1 huL
  have huL2 : u * L ≤ 1 / 1000 * L := mul_le_mul_of_nonneg_right hu1 hL
  have hnn := abs_le.1 hn
  have hn9 : V3.dot F.rot.c3 F.rot.c3 ≤ 9 / 8 := by linarith [hnn.2]
  have hdw := V3.within_unit hd
  have hnw := V3.within_unit hn9
  -- the direction
  have h1 := he.near hu hu1 hn9 hdw
  have h2 : |V3.dot d F.rot.c3| ≤ 2 * (9 / 8) := by rw [V3.dotFlip]; exact V3.abs_dot_le hn9 hdw
  have h3 : (d - (2 * V3.dot d F.rot.c3) • F.rot.c3).Within (9 / 8 + 9 / 2 * (9 / 8)) :=
    hdw.sub (hnw.smul (by rw [abs_mul, abs_two]; linarith))
  have h4 := (h1.of_sub h3).mono (B := 63 / 10) (by nlinarith)
  have h5 := V3.abs_dot_le hn9 h1
  rw [V3.dot_sub] at h5
  have h6 : V3.dot F.rot.c3 (d - (2 * V3.dot d F.rot.c3) • F.rot.c3) = V3.dot d F.rot.c3 * (1 - 2 * V3.dot F.rot.c3 F.rot.c3) := by
    unfold V3.dot; simp; ring
  rw [h6] at h5
  have h7 : 3 / 4 * |V3.dot d F.rot.c3| ≤ |V3.dot d F.rot.c3 * (1 - 2 * V3.dot F.rot.c3 F.rot.c3)| := by
    rw [abs_mul, mul_comm]
    refine mul_le_mul_of_nonneg_left ?_ (abs_nonneg _)
    rw [abs_sub_comm, abs_of_nonneg (by linarith [hnn.1])]
    linarith [hnn.1]
  obtain ⟨ht0', w, dt, vt, hw, hdt, hbig, hvt, hr⟩ := h'
  have h8 := hdt.comm.within hu hn9 h4
  have h9 : c / 2 ≤ |dt| := by
    have e1 := abs_sub_abs_le_abs_sub (V3.dot d F.rot.c3 * (1 - 2 * V3.dot F.rot.c3 F.rot.c3)) dt
    have e2 := abs_sub_le (V3.dot d F.rot.c3 * (1 - 2 * V3.dot F.rot.c3 F.rot.c3)) (V3.dot F.rot.c3 e) dt
    rw [abs_sub_comm] at h5 h8
    linarith
  -- the distance
  have k1 := hit_residual hu hu1 hn9 hd hv hc h hp ht
  have k2 := ((hp.near hu hu1 hd hv ht0 ht).2).sub hc
  have k3 := V3.Rounds.within hu hw k2
  have k4 := (k3.of_sub k2).mono (B := 315 / 100 * L) (by nlinarith)
  have k5 := hvt.within hu hn9 k4
  have k6 := V3.abs_dot_le hn9 k3
  rw [V3.dot_sub] at k6
  have k7 : |vt| ≤ 715 / 10 * (u * L) := by
    have e1 := abs_add_three (vt - V3.dot F.rot.c3 w) (V3.dot F.rot.c3 w - V3.dot F.rot.c3 (p - F.loc)) (V3.dot F.rot.c3 (p - F.loc))
    rw [show vt - V3.dot F.rot.c3 w + (V3.dot F.rot.c3 w - V3.dot F.rot.c3 (p - F.loc)) + V3.dot F.rot.c3 (p - F.loc) = vt by ring] at e1
    nlinarith
  have hne : dt ≠ 0 := by
    rintro rfl
    rw [abs_zero] at hbig
    norm_num at hbig
  have k8 : t' * |dt| ≤ (1 + u) * |vt| := by
    have e1 := hr.abs_le
    rw [abs_of_nonneg ht0'] at e1
    have e2 : |-vt / dt| * |dt| = |vt| := by rw [← abs_mul, div_mul_cancel₀ _ hne, abs_neg]
    have := mul_le_mul_of_nonneg_right e1 (abs_nonneg dt)
    rwa [mul_assoc, e2] at this
  have k9 : t' * (c / 2) ≤ t' * |dt| := mul_le_mul_of_nonneg_left h9 ht0'
  have k10 : u * |vt| ≤ 1 / 1000 * |vt| := mul_le_mul_of_nonneg_right hu1 (abs_nonneg _)
  nlinarith

theorem V3.within_len (d : V3 ℝ) : d.Within (√(V3.dot d d)) := by
  have key : ∀ x : ℝ, x ^ 2 ≤ V3.dot d d → |x| ≤ √(V3.dot d d) := fun x hx => Real.abs_le_sqrt hx
  refine ⟨key _ ?_, key _ ?_, key _ ?_⟩ <;> unfold V3.dot <;>
    nlinarith [mul_self_nonneg d.x, mul_self_nonneg d.y, mul_self_nonneg d.z]

/-- How the length of the direction changes. -/
theorem RoundedMirrored.drift {u ν : ℝ} {n d e : V3 ℝ} (hu : 0 ≤ u) (hu1 : u ≤ 1 / 1000)
    (hν : ν ≤ 1 / 8) (hn : |V3.dot n n - 1| ≤ ν) (h : RoundedMirrored u n d e) :
    |V3.dot e e - V3.dot d d| ≤ (5 * ν + 260 * u) * V3.dot d d := by
  have hnn := abs_le.1 hn
  have hn9 : V3.dot n n ≤ 9 / 8 := by linarith [hnn.2]
  have hν0 : 0 ≤ ν := (abs_nonneg _).trans hn
  have hdd : 0 ≤ V3.dot d d := by
    unfold V3.dot
    nlinarith [mul_self_nonneg d.x, mul_self_nonneg d.y, mul_self_nonneg d.z]
  have hDD : √(V3.dot d d) * √(V3.dot d d) = V3.dot d d := Real.mul_self_sqrt hdd
  have hD0 : 0 ≤ √(V3.dot d d) := Real.sqrt_nonneg _
  have h1 := h.near hu hu1 hn9 (V3.within_len d)
  generalize hD : √(V3.dot d d) = D at *
  -- Cauchy and Schwarz
  have hcs : V3.dot d n ^ 2 ≤ 9 / 8 * V3.dot d d := by
    have e1 : 0 ≤ V3.dot (V3.cross d n) (V3.cross d n) := by
      unfold V3.dot
      nlinarith [mul_self_nonneg (V3.cross d n).x, mul_self_nonneg (V3.cross d n).y, mul_self_nonneg (V3.cross d n).z]
    have e2 : V3.dot (V3.cross d n) (V3.cross d n) = V3.dot d d * V3.dot n n - V3.dot d n ^ 2 := by
      simp only [V3.dot, V3.cross]; ring
    nlinarith
  set q := d - (2 * V3.dot d n) • n with hq
  have hqq : V3.dot q q = V3.dot d d + 4 * V3.dot d n ^ 2 * (V3.dot n n - 1) := by
    rw [hq]; unfold V3.dot; simp; ring
  have hqd : |V3.dot q q - V3.dot d d| ≤ 9 / 2 * ν * V3.dot d d := by
    rw [hqq, add_sub_cancel_left, abs_mul, abs_of_nonneg (by positivity)]
    have := mul_le_mul hcs hn (abs_nonneg _) (by positivity)
    linarith
  have hqD : q.Within (5 / 4 * D) := by
    refine (V3.within_len q).mono ?_
    refine Real.sqrt_le_iff.2 ⟨by positivity, ?_⟩
    have := (abs_le.1 hqd).2
    nlinarith
  set δ := e - q with hδ
  have he : e = q + δ := by rw [hδ]; apply V3.ext <;> simp
  have hee : V3.dot e e - V3.dot d d = (V3.dot q q - V3.dot d d) + 2 * (q.x * δ.x + q.y * δ.y + q.z * δ.z) + (δ.x * δ.x + δ.y * δ.y + δ.z * δ.z) := by
    rw [he]; unfold V3.dot; simp; ring
  have huD : 0 ≤ u * D := mul_nonneg hu hD0
  have b1 : ∀ a b : ℝ, |a| ≤ 5 / 4 * D → |b| ≤ 33 * u * D → |a * b| ≤ 165 / 4 * (u * (D * D)) := by
    intro a b ha hb
    rw [abs_mul]
    have := mul_le_mul ha hb (abs_nonneg _) (by positivity)
    linarith
  have b2 : ∀ b : ℝ, |b| ≤ 33 * u * D → |b * b| ≤ 109 / 100 * (u * (D * D)) := by
    intro b hb
    rw [abs_mul]
    have h1 := mul_le_mul hb hb (abs_nonneg _) (by positivity)
    have h2 : u * (u * (D * D)) ≤ 1 / 1000 * (u * (D * D)) := mul_le_mul_of_nonneg_right hu1 (by positivity)
    nlinarith
  rw [hee]
  refine (abs_add_three _ _ _).trans ?_
  have c1 := (abs_add_three (q.x * δ.x) (q.y * δ.y) (q.z * δ.z)).trans
    (add_le_add (add_le_add (b1 _ _ hqD.1 h1.1) (b1 _ _ hqD.2.1 h1.2.1)) (b1 _ _ hqD.2.2 h1.2.2))
  have c2 := (abs_add_three (δ.x * δ.x) (δ.y * δ.y) (δ.z * δ.z)).trans
    (add_le_add (add_le_add (b2 _ h1.1) (b2 _ h1.2.1)) (b2 _ h1.2.2))
  rw [abs_mul, abs_two]
  rw [hDD] at c1 c2
  have hudd : 0 ≤ u * V3.dot d d := mul_nonneg hu hdd
  nlinarith

/-! ### Arithmetic with rounding -/

theorem rounded_rounds {fl : ℝ → ℝ} {u : ℝ} (hfl : ∀ x, Rounds u x (fl x)) (v : V3 ℝ) : V3.Rounds u v (v.rounded fl) :=
  ⟨hfl _, hfl _, hfl _⟩

theorem flDot_rounds {fl : ℝ → ℝ} {u : ℝ} (hu : 0 ≤ u) (hu1 : u ≤ 1 / 1000) (hfl : ∀ x, Rounds u x (fl x)) (a b : V3 ℝ) :
    DotRounds u a b (flDot fl a b) := by
  unfold DotRounds flDot V3.dot
  generalize a.x * b.x = x
  generalize a.y * b.y = y
  generalize a.z * b.z = z
  have h1 : |fl x - x| ≤ u * |x| := hfl x
  have h2 : |fl y - y| ≤ u * |y| := hfl y
  have h3 : |fl z - z| ≤ u * |z| := hfl z
  have h4 : |fl (fl x + fl y) - (fl x + fl y)| ≤ u * |fl x + fl y| := hfl _
  have h5 : |fl (fl (fl x + fl y) + fl z) - (fl (fl x + fl y) + fl z)| ≤ u * |fl (fl x + fl y) + fl z| := hfl _
  have k1 := (hfl x).abs_le
  have k2 := (hfl y).abs_le
  have k3 := (hfl z).abs_le
  have k4 := (hfl (fl x + fl y)).abs_le
  have k5 := abs_add_le (fl x) (fl y)
  have k6 := abs_add_le (fl (fl x + fl y)) (fl z)
  have m1 : u * |fl x + fl y| ≤ u * ((1 + u) * |x| + (1 + u) * |y|) := mul_le_mul_of_nonneg_left (by linarith) hu
  have m2 : |fl (fl x + fl y) + fl z| ≤ (1 + u) * ((1 + u) * |x| + (1 + u) * |y|) + (1 + u) * |z| := by
    have : (1 + u) * |fl x + fl y| ≤ (1 + u) * ((1 + u) * |x| + (1 + u) * |y|) := mul_le_mul_of_nonneg_left (by linarith) (by linarith)
    linarith
  have m3 := mul_le_mul_of_nonneg_left m2 hu
  have e : fl (fl (fl x + fl y) + fl z) - (x + y + z) = (fl (fl (fl x + fl y) + fl z) - (fl (fl x + fl y) + fl z)) +
      (fl (fl x + fl y) - (fl x + fl y)) + ((fl x - x) + (fl y - y) + (fl z - z)) := by ring
  rw [e]
  have t1 := abs_add_three (fl (fl (fl x + fl y) + fl z) - (fl (fl x + fl y) + fl z)) (fl (fl x + fl y) - (fl x + fl y))
    ((fl x - x) + (fl y - y) + (fl z - z))
  have t2 := abs_add_three (fl x - x) (fl y - y) (fl z - z)
  have hx : 0 ≤ u * |x| := mul_nonneg hu (abs_nonneg _)
  have hy : 0 ≤ u * |y| := mul_nonneg hu (abs_nonneg _)
  have hz : 0 ≤ u * |z| := mul_nonneg hu (abs_nonneg _)
  have n1 : ∀ s : ℝ, 0 ≤ u * s → u * (u * s) ≤ 1 / 1000 * (u * s) := fun s hs => mul_le_mul_of_nonneg_right hu1 hs
  have n2 := n1 _ hx
  have n3 := n1 _ hy
  have n4 := n1 _ hz
  have n5 := n1 (u * |x|) (mul_nonneg hu hx)
  have n6 := n1 (u * |y|) (mul_nonneg hu hy)
  nlinarith

theorem flFlatParam_rounds {fl : ℝ → ℝ} {u : ℝ} (hu : 0 ≤ u) (hu1 : u ≤ 1 / 1000) (hfl : ∀ x, Rounds u x (fl x)) {F : Tf ℝ} {v d : V3 ℝ} {t : ℝ}
    (h : flFlatParam fl F v d = (t : WithTop ℝ)) : RoundedParam u F v d t := by
  unfold flFlatParam at h
  simp only at h
  split at h
  · rename_i hbig
    split at h
    · simp at h
    · rename_i ht
      have e := WithTop.coe_injective h
      refine ⟨by rw [← e]; exact not_lt.1 ht, _, flDt fl F d, _, rounded_rounds hfl _, flDot_rounds hu hu1 hfl _ _, hbig,
        flDot_rounds hu hu1 hfl _ _, ?_⟩
      rw [← e]
      exact hfl _
  · simp at h

theorem flChildren_ok {fl : ℝ → ℝ} {a : ℝ} {F : Tf ℝ} {rays : Bundle ℝ E} :
    ∀ {sel : List Nat} {out : Bundle ℝ E}, flChildren fl a F rays sel = .ok out → ∀ r ∈ out, r.parent ∈ sel ∧
      ∃ (p : Ray ℝ E) (t : ℝ), rays[r.parent]? = some p ∧ flFlatParam fl F p.vertex p.dir = (t : WithTop ℝ) ∧
        r = flReflectOne fl a F r.parent p t
  | [], out, h => by
    cases h
    exact fun r hr => by cases hr
  | i :: sel, out, h => by
    unfold flChildren at h
    split at h
    · cases h
    · rename_i p hp
      split at h
      · cases h
      · rename_i t ht
        split at h
        · cases h
        · rename_i rest hrest
          cases h
          intro r hr
          rcases List.mem_cons.1 hr with rfl | hr
          · exact ⟨List.mem_cons_self, p, t, hp, ht, rfl⟩
          · obtain ⟨h1, h2⟩ := flChildren_ok hrest r hr
            exact ⟨List.mem_cons_of_mem _ h1, h2⟩

/-- The mirror of the model obeys the contract. -/
theorem flMirror_rounded {fl : ℝ → ℝ} {u : ℝ} (hu : 0 ≤ u) (hu1 : u ≤ 1 / 1000) (hfl : ∀ x, Rounds u x (fl x)) (a : ℝ) (F : Tf ℝ) :
    RoundedMirror u F a (flMirror fl a F : Surf σ ℝ E) := by
  have hout : ∀ {w : σ} {rays : Bundle ℝ E} {sel out w'}, (flMirror fl a F : Surf σ ℝ E).outgoing w rays sel = .ok (out, w') →
      flChildren fl a F rays sel = .ok out := by
    intro w rays sel out w' h
    unfold flMirror at h
    simp only at h
    split at h
    · cases h
    · rename_i o ho
      cases h
      exact ho
  refine ⟨fun rays => by simp [flMirror], fun w rays sel out w' h r hr => (flChildren_ok (hout h) r hr).1, ?_, ?_⟩
  · intro rays i r t hi ht
    simp only [flMirror, List.getElem?_map, hi, Option.map_some, Option.some.injEq] at ht
    exact flFlatParam_rounds hu hu1 hfl ht
  · intro w rays sel out w' h r hr p t hp ht
    obtain ⟨_, p', t', hp', ht', e⟩ := flChildren_ok (hout h) r hr
    rw [hp] at hp'
    cases hp'
    simp only [flMirror, List.getElem?_map, hp, Option.map_some, Option.some.injEq] at ht
    rw [ht'] at ht
    cases ht
    rw [e]
    refine ⟨flFlatParam_rounds hu hu1 hfl ht', ⟨_, rounded_rounds hfl _, rounded_rounds hfl _⟩, ?_, ⟨_, hfl _, hfl _⟩⟩
    have : ∀ n, RoundedMirrored u n p.dir (flReflection fl p.dir n) := fun n =>
      ⟨_, _, _, flDot_rounds hu hu1 hfl _ _, rounded_rounds hfl _, rounded_rounds hfl _, rounded_rounds hfl _⟩
    show RoundedMirrored u _ p.dir (flReflection fl p.dir (flNormal fl F p.dir)) ∨
      RoundedMirrored u _ p.dir (flReflection fl p.dir (flNormal fl F p.dir))
    unfold flNormal
    split
    · exact Or.inr (this _)
    · exact Or.inl (this _)

/-- Rounding to 53 bits has a relative error of at most 2⁻⁵³. -/
theorem binary64_rounds (x : ℝ) : Rounds (1 / 2 ^ 53) x (binary64 x) := by
  unfold Rounds
  by_cases hx : x = 0
  · simp [hx, binary64]
  · have hq : 0 < ulp x := by unfold ulp; exact zpow_pos (by norm_num) _
    have h1 := abs_sub_round (x / ulp x)
    have h2 : binary64 x - x = -((x / ulp x - round (x / ulp x)) * ulp x) := by
      unfold binary64; rw [sub_mul, div_mul_cancel₀ _ hq.ne']; ring
    have h3 : ((2 : ℕ) : ℝ) ^ Int.log 2 |x| ≤ |x| := Int.zpow_log_le_self (by norm_num) (abs_pos.2 hx)
    have h4 : ulp x ≤ 1 / 2 ^ 52 * |x| := by
      unfold ulp
      rw [zpow_sub₀ (by norm_num)]
      have : ((2 : ℝ) ^ (52 : ℤ)) = 2 ^ 52 := by norm_cast
      rw [this]
      push_cast at h3
      linarith
    rw [h2, abs_neg, abs_mul, abs_of_pos hq]
    nlinarith [mul_le_mul_of_nonneg_right h1 hq.le]

theorem Rounds.nonneg {u x y : ℝ} (hu1 : u ≤ 1) (h : Rounds u x y) (hx : 0 ≤ x) : 0 ≤ y := by
  unfold Rounds at h
  rw [abs_of_nonneg hx] at h
  nlinarith [(_root_.abs_le.1 h).1]

/-- A plane that is clearly ahead of the ray is found. -/
theorem flFlatParam_found {fl : ℝ → ℝ} {u L c τ : ℝ} {F : Tf ℝ} {v d : V3 ℝ} (hfl : ∀ x, Rounds u x (fl x)) (hu : 0 ≤ u) (hu1 : u ≤ 1 / 1000)
    (hn : V3.dot F.rot.c3 F.rot.c3 ≤ 9 / 8) (hd : V3.dot d d ≤ 9 / 8) (hv : v.Within L) (hloc : F.loc.Within L)
    (hcos : c ≤ |V3.dot d F.rot.c3|) (hc : 10 * u + 1 / 10 ^ 10 < c)
    (hτ : V3.dot F.rot.c3 (v + τ • d - F.loc) = 0) (hτc : 21 * u * L ≤ τ * c) : ∃ t : ℝ, flFlatParam fl F v d = t := by
  have hL : 0 ≤ L := (abs_nonneg _).trans hv.1
  have huL : 0 ≤ u * L := mul_nonneg hu hL
  have huL1 : u * (u * L) ≤ 1 / 1000 * (u * L) := mul_le_mul_of_nonneg_right hu1 huL
  have hdt : |flDt fl F d - V3.dot d F.rot.c3| ≤ 9 * u := by
    have h := (flDot_rounds hu hu1 hfl d F.rot.c3).comm.within hu hn (V3.within_unit hd)
    rw [V3.dotFlip] at h
    unfold flDt
    linarith
  have hw := (rounded_rounds hfl (v - F.loc)).within hu (hv.sub hloc)
  have hw2 := V3.Within.of_sub hw (hv.sub hloc)
  have hvt : |flDot fl F.rot.c3 ((v - F.loc).rounded fl) - V3.dot F.rot.c3 (v - F.loc)| ≤ 21 * u * L := by
    have h1 := (flDot_rounds hu hu1 hfl F.rot.c3 ((v - F.loc).rounded fl)).within hu hn hw2
    have h2 := V3.abs_dot_le hn hw
    rw [V3.dot_sub] at h2
    have h3 := abs_add_le (flDot fl F.rot.c3 ((v - F.loc).rounded fl) - V3.dot F.rot.c3 ((v - F.loc).rounded fl))
      (V3.dot F.rot.c3 ((v - F.loc).rounded fl) - V3.dot F.rot.c3 (v - F.loc))
    rw [sub_add_sub_cancel] at h3
    nlinarith
  have e : V3.dot F.rot.c3 (v - F.loc) = -(τ * V3.dot d F.rot.c3) := by
    have : V3.dot F.rot.c3 (v + τ • d - F.loc) = V3.dot F.rot.c3 (v - F.loc) + τ * V3.dot d F.rot.c3 := by unfold V3.dot; simp; ring
    linarith
  rw [e] at hvt
  have hc0 : 0 < c := by linarith [show (0 : ℝ) < 1 / 10 ^ 10 by norm_num]
  have hτ0 : 0 ≤ τ := by
    by_contra h
    nlinarith
  have h10 : (parallelTol : ℝ) = 1 / 10 ^ 10 := by unfold parallelTol; norm_num
  have hsign : 0 ≤ -flDot fl F.rot.c3 ((v - F.loc).rounded fl) / flDt fl F d ∧ parallelTol < |flDt fl F d| := by
    rw [h10]
    obtain ⟨a1, a2⟩ := _root_.abs_le.1 hvt
    obtain ⟨b1, b2⟩ := _root_.abs_le.1 hdt
    rcases le_total 0 (V3.dot d F.rot.c3) with h | h
    · rw [abs_of_nonneg h] at hcos
      have h1 : τ * c ≤ τ * V3.dot d F.rot.c3 := mul_le_mul_of_nonneg_left hcos hτ0
      have h2 : 1 / 10 ^ 10 < flDt fl F d := by linarith
      exact ⟨div_nonneg (by linarith) (by linarith [show (0 : ℝ) < 1 / 10 ^ 10 by norm_num]), h2.trans_le (le_abs_self _)⟩
    · rw [abs_of_nonpos h] at hcos
      have h1 : τ * c ≤ τ * -V3.dot d F.rot.c3 := mul_le_mul_of_nonneg_left hcos hτ0
      have h2 : 1 / 10 ^ 10 < -flDt fl F d := by linarith
      exact ⟨div_nonneg_of_nonpos (by linarith) (by linarith [show (0 : ℝ) < 1 / 10 ^ 10 by norm_num]), h2.trans_le (neg_le_abs _)⟩
  unfold flFlatParam
  simp only
  rw [if_pos hsign.2, if_neg (not_lt.2 ((hfl _).nonneg (by linarith) hsign.1))]
  exact ⟨_, rfl⟩

end Tracer
