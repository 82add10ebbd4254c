import Verif.Lemmas.Images
import Verif.Lemmas.Measurable
import Verif.Spec.Chance
import Mathlib.MeasureTheory.Measure.Lebesgue.Basic
import Mathlib.MeasureTheory.Measure.Prod

/-!
The rays that meet two planes at the same distance, after any number of reflections in other planes: for a given direction, the points where they start
are on a line.
-/

namespace Tracer

open MeasureTheory

theorem turnedBy_linear (m x y : V3 ℝ) (s : ℝ) : turnedBy m (x + s • y) = turnedBy m x + s • turnedBy m y := by
  unfold turnedBy
  apply V3.ext <;> simp [V3.dot] <;> ring

theorem turnedAfter_linear (ps : List (Plane ℝ)) : ∀ (x y : V3 ℝ) (s : ℝ), turnedAfter ps (x + s • y) = turnedAfter ps x + s • turnedAfter ps y := by
  induction ps with
  | nil => intro x y s; rfl
  | cons P ps ih =>
    intro x y s
    show turnedAfter ps (turnedBy P.normal (x + s • y)) = _
    rw [turnedBy_linear, ih]
    rfl

theorem imageAfter_along (ps : List (Plane ℝ)) : ∀ (x y : V3 ℝ) (s : ℝ), imageAfter ps (x + s • y) = imageAfter ps x + s • turnedAfter ps y := by
  induction ps with
  | nil => intro x y s; rfl
  | cons P ps ih =>
    intro x y s
    show imageAfter ps (imageIn P.point P.normal (x + s • y)) = _
    rw [imageIn_along, ih]
    rfl

theorem turnedAfter_adjoint (ps : List (Plane ℝ)) : ∀ k x : V3 ℝ, V3.dot k (turnedAfter ps x) = V3.dot (turnedAfter ps.reverse k) x := by
  induction ps with
  | nil => intro k x; rfl
  | cons P ps ih =>
    intro k x
    show V3.dot k (turnedAfter ps (turnedBy P.normal x)) = _
    rw [ih, List.reverse_cons]
    unfold turnedAfter
    rw [List.foldl_append]
    show V3.dot (List.foldl _ k ps.reverse) (turnedBy P.normal x) = V3.dot (turnedBy P.normal (List.foldl _ k ps.reverse)) x
    unfold turnedBy
    simp only [V3.dot, V3.sub_x, V3.sub_y, V3.sub_z, V3.smul_x, V3.smul_y, V3.smul_z]
    ring

theorem turnedAfter_length (ps : List (Plane ℝ)) (hu : ∀ P ∈ ps, V3.dot P.normal P.normal = 1) :
    ∀ k : V3 ℝ, V3.dot (turnedAfter ps k) (turnedAfter ps k) = V3.dot k k := by
  induction ps with
  | nil => intro k; rfl
  | cons P ps ih =>
    intro k
    show V3.dot (turnedAfter ps (turnedBy P.normal k)) (turnedAfter ps (turnedBy P.normal k)) = _
    rw [ih fun Q hQ => hu Q (List.mem_cons_of_mem _ hQ)]
    have h := hu P List.mem_cons_self
    unfold turnedBy
    simp only [V3.dot, V3.sub_x, V3.sub_y, V3.sub_z, V3.smul_x, V3.smul_y, V3.smul_z] at h ⊢
    linear_combination 4 * (k.x * P.normal.x + k.y * P.normal.y + k.z * P.normal.z) ^ 2 * h

theorem dot_self_zero {k : V3 ℝ} (h : V3.dot k k = 0) : k = 0 := by
  simp only [V3.dot] at h
  have hx : k.x = 0 := by nlinarith [sq_nonneg k.x, sq_nonneg k.y, sq_nonneg k.z]
  have hy : k.y = 0 := by nlinarith [sq_nonneg k.x, sq_nonneg k.y, sq_nonneg k.z]
  have hz : k.z = 0 := by nlinarith [sq_nonneg k.x, sq_nonneg k.y, sq_nonneg k.z]
  exact V3.ext hx hy hz

/-- A vector that is perpendicular to three independent ones is zero. -/
theorem perp_three {e1 e2 d k : V3 ℝ} (hdet : V3.dot (V3.cross e1 e2) d ≠ 0) (h1 : V3.dot k e1 = 0) (h2 : V3.dot k e2 = 0) (h3 : V3.dot k d = 0) : k = 0 := by
  simp only [V3.dot, V3.cross] at hdet h1 h2 h3
  apply V3.ext <;> apply (mul_eq_zero.1 _).resolve_left hdet
  · linear_combination h1 * (e2.y * d.z - e2.z * d.y) + h2 * (d.y * e1.z - d.z * e1.y) + h3 * (e1.y * e2.z - e1.z * e2.y)
  · linear_combination h1 * (e2.z * d.x - e2.x * d.z) + h2 * (d.z * e1.x - d.x * e1.z) + h3 * (e1.z * e2.x - e1.x * e2.z)
  · linear_combination h1 * (e2.x * d.y - e2.y * d.x) + h2 * (d.x * e1.y - d.y * e1.x) + h3 * (e1.x * e2.y - e1.y * e2.x)

/-- A line in the plane has no area. -/
theorem line_null {α β γ : ℝ} (h : β ≠ 0 ∨ γ ≠ 0) : volume {v : ℝ × ℝ | α + v.1 * β + v.2 * γ = 0} = 0 := by
  have hm : MeasurableSet {v : ℝ × ℝ | α + v.1 * β + v.2 * γ = 0} := measurableSet_eq_fun (by fun_prop) measurable_const
  rcases h with h | h
  · have hp : MeasurePreserving (MeasurableEquiv.prodComm : ℝ × ℝ ≃ᵐ ℝ × ℝ) volume volume := Measure.measurePreserving_swap
    rw [← hp.measure_preimage hm.nullMeasurableSet, Measure.volume_eq_prod, Measure.measure_prod_null (hp.measurable hm)]
    refine Filter.Eventually.of_forall fun x => ?_
    show volume {y : ℝ | α + y * β + x * γ = 0} = 0
    refine measure_mono_null (t := {-(α + x * γ) / β}) ?_ (measure_singleton _)
    intro y hy
    rw [Set.mem_singleton_iff, eq_div_iff h]
    have : α + y * β + x * γ = 0 := hy
    linarith
  · rw [Measure.volume_eq_prod, Measure.measure_prod_null hm]
    refine Filter.Eventually.of_forall fun x => ?_
    show volume {y : ℝ | α + x * β + y * γ = 0} = 0
    refine measure_mono_null (t := {-(α + x * β) / γ}) ?_ (measure_singleton _)
    intro y hy
    rw [Set.mem_singleton_iff, eq_div_iff h]
    have : α + x * β + y * γ = 0 := hy
    linarith

/-- How far apart two planes are that a ray meets after reflections: zero if it meets both at the same distance. -/
noncomputable def gap (ps : List (Plane ℝ)) (P Q : Plane ℝ) (p d : V3 ℝ) : ℝ :=
  V3.dot (turnedAfter ps d) Q.normal * V3.dot (imageAfter ps p - P.point) P.normal -
    V3.dot (turnedAfter ps d) P.normal * V3.dot (imageAfter ps p - Q.point) Q.normal

/-- How the gap changes with the start of the ray. -/
noncomputable def slope (ps : List (Plane ℝ)) (P Q : Plane ℝ) (d : V3 ℝ) : V3 ℝ :=
  V3.dot (turnedAfter ps d) Q.normal • P.normal - V3.dot (turnedAfter ps d) P.normal • Q.normal

theorem gap_affine (ps : List (Plane ℝ)) (P Q : Plane ℝ) (c e d : V3 ℝ) (s : ℝ) :
    gap ps P Q (c + s • e) d = gap ps P Q c d + s * V3.dot (slope ps P Q d) (turnedAfter ps e) := by
  unfold gap slope
  rw [imageAfter_along]
  simp only [V3.dot, V3.sub_x, V3.sub_y, V3.sub_z, V3.add_x, V3.add_y, V3.add_z, V3.smul_x, V3.smul_y, V3.smul_z]
  ring

theorem gap_null {ps : List (Plane ℝ)} (hu : ∀ P ∈ ps, V3.dot P.normal P.normal = 1) {P Q : Plane ℝ} {c e1 e2 d : V3 ℝ}
    (hdet : V3.dot (V3.cross e1 e2) d ≠ 0) (hs : slope ps P Q d ≠ 0) :
    volume {v : ℝ × ℝ | gap ps P Q (c + v.1 • e1 + v.2 • e2) d = 0} = 0 := by
  have h : V3.dot (slope ps P Q d) (turnedAfter ps e1) ≠ 0 ∨ V3.dot (slope ps P Q d) (turnedAfter ps e2) ≠ 0 := by
    by_contra hn
    push Not at hn
    have h3 : V3.dot (slope ps P Q d) (turnedAfter ps d) = 0 := by
      unfold slope
      simp only [V3.dot, V3.sub_x, V3.sub_y, V3.sub_z, V3.smul_x, V3.smul_y, V3.smul_z]
      ring
    rw [turnedAfter_adjoint, turnedAfter_adjoint] at hn
    rw [turnedAfter_adjoint] at h3
    have h0 := perp_three hdet hn.1 hn.2 h3
    apply hs
    apply dot_self_zero
    rw [← turnedAfter_length ps.reverse (fun P hP => hu P (List.mem_reverse.1 hP)), h0]
    simp [V3.dot]
  have e : {v : ℝ × ℝ | gap ps P Q (c + v.1 • e1 + v.2 • e2) d = 0} =
      {v | gap ps P Q c d + v.1 * V3.dot (slope ps P Q d) (turnedAfter ps e1) + v.2 * V3.dot (slope ps P Q d) (turnedAfter ps e2) = 0} := by
    ext v
    simp only [Set.mem_setOf_eq, gap_affine]
  rw [e]
  exact line_null h

/-- A ray that meets two planes at the same point has no gap between them. -/
theorem gap_meets {ps : List (Plane ℝ)} {P Q : Plane ℝ} {p d v : V3 ℝ} {L t : ℝ} (hv : v = imageAfter ps p + L • turnedAfter ps d)
    (hP : P.Has (v + t • turnedAfter ps d)) (hQ : Q.Has (v + t • turnedAfter ps d)) : gap ps P Q p d = 0 := by
  subst hv
  unfold gap
  simp only [Plane.Has, V3.dot, V3.sub_x, V3.sub_y, V3.sub_z, V3.add_x, V3.add_y, V3.add_z, V3.smul_x, V3.smul_y, V3.smul_z] at *
  linear_combination ((turnedAfter ps d).x * Q.normal.x + (turnedAfter ps d).y * Q.normal.y + (turnedAfter ps d).z * Q.normal.z) * hP -
    ((turnedAfter ps d).x * P.normal.x + (turnedAfter ps d).y * P.normal.y + (turnedAfter ps d).z * P.normal.z) * hQ

/-- Different planes with a common point, neither of them along the ray: the gap depends on where the ray starts. -/
theorem slope_ne {ps : List (Plane ℝ)} {P Q : Plane ℝ} {d x : V3 ℝ} (hP : V3.dot (turnedAfter ps d) P.normal ≠ 0)
    (hQ : V3.dot (turnedAfter ps d) Q.normal ≠ 0) (xP : P.Has x) (xQ : Q.Has x) (hne : ∃ y, ¬ (P.Has y ↔ Q.Has y)) : slope ps P Q d ≠ 0 := by
  intro h0
  obtain ⟨y, hy⟩ := hne
  apply hy
  have key : V3.dot (turnedAfter ps d) Q.normal * V3.dot (y - P.point) P.normal = V3.dot (turnedAfter ps d) P.normal * V3.dot (y - Q.point) Q.normal := by
    have h1 := congrArg V3.x h0
    have h2 := congrArg V3.y h0
    have h3 := congrArg V3.z h0
    unfold slope at h1 h2 h3
    simp only [Plane.Has, V3.dot, V3.sub_x, V3.sub_y, V3.sub_z, V3.smul_x, V3.smul_y, V3.smul_z, V3.zero_x, V3.zero_y, V3.zero_z] at *
    linear_combination (y.x - x.x) * h1 + (y.y - x.y) * h2 + (y.z - x.z) * h3 +
      ((turnedAfter ps d).x * Q.normal.x + (turnedAfter ps d).y * Q.normal.y + (turnedAfter ps d).z * Q.normal.z) * xP -
      ((turnedAfter ps d).x * P.normal.x + (turnedAfter ps d).y * P.normal.y + (turnedAfter ps d).z * P.normal.z) * xQ
  unfold Plane.Has
  constructor <;> intro h <;> rw [h, mul_zero] at key
  · exact (mul_eq_zero.1 key.symm).resolve_left hP
  · exact (mul_eq_zero.1 key).resolve_left hQ

/-! ### Measurability -/

section
variable {δ : Type _} [MeasurableSpace δ] {p d : δ → V3 ℝ}

theorem turnedAfter_measurable (ps : List (Plane ℝ)) : ∀ {d : δ → V3 ℝ}, V3M d → V3M fun x => turnedAfter ps (d x) := by
  induction ps with
  | nil => intro d hd; exact hd
  | cons P ps ih =>
    intro d hd
    exact ih (d := fun x => turnedBy P.normal (d x)) (hd.sub (V3M.smul ((hd.dot (V3M.const _)).const_mul 2) (V3M.const _)))

theorem imageAfter_measurable (ps : List (Plane ℝ)) : ∀ {p : δ → V3 ℝ}, V3M p → V3M fun x => imageAfter ps (p x) := by
  induction ps with
  | nil => intro d hd; exact hd
  | cons P ps ih =>
    intro p hp
    exact ih (p := fun x => imageIn P.point P.normal (p x))
      (hp.sub (V3M.smul (((hp.sub (V3M.const _)).dot (V3M.const _)).const_mul 2) (V3M.const _)))

theorem gap_measurable (ps : List (Plane ℝ)) (P Q : Plane ℝ) (hp : V3M p) (hd : V3M d) : Measurable fun x => gap ps P Q (p x) (d x) :=
  (((turnedAfter_measurable ps hd).dot (V3M.const _)).mul (((imageAfter_measurable ps hp).sub (V3M.const _)).dot (V3M.const _))).sub
    (((turnedAfter_measurable ps hd).dot (V3M.const _)).mul (((imageAfter_measurable ps hp).sub (V3M.const _)).dot (V3M.const _)))

theorem slope_measurable (ps : List (Plane ℝ)) (P Q : Plane ℝ) (hd : V3M d) : V3M fun x => slope ps P Q (d x) :=
  (V3M.smul ((turnedAfter_measurable ps hd).dot (V3M.const _)) (V3M.const _)).sub
    (V3M.smul ((turnedAfter_measurable ps hd).dot (V3M.const _)) (V3M.const _))

end

/-! ### Unlucky rays -/

/-- After some reflections the ray meets two different planes at the same distance. -/
def Unlucky {N : Nat} (pl : Fin N → Plane ℝ) (pp : Fin N → Fin N → Plane ℝ × Plane ℝ) (p d : V3 ℝ) : Prop :=
  ∃ (path : List (Fin N)) (i j : Fin N), slope (path.map pl) (pp i j).1 (pp i j).2 d ≠ 0 ∧ gap (path.map pl) (pp i j).1 (pp i j).2 p d = 0

section
variable {N : Nat} {pl : Fin N → Plane ℝ} {pp : Fin N → Fin N → Plane ℝ × Plane ℝ}

/-- For rays of one direction, the starts of unlucky ones have no area. -/
theorem unlucky_null (hu : ∀ i, V3.dot (pl i).normal (pl i).normal = 1) {c e1 e2 d : V3 ℝ} (hdet : V3.dot (V3.cross e1 e2) d ≠ 0) :
    volume {v : ℝ × ℝ | Unlucky pl pp (c + v.1 • e1 + v.2 • e2) d} = 0 := by
  have e : {v : ℝ × ℝ | Unlucky pl pp (c + v.1 • e1 + v.2 • e2) d} =
      ⋃ path : List (Fin N), ⋃ i, ⋃ j, {v | slope (path.map pl) (pp i j).1 (pp i j).2 d ≠ 0 ∧
        gap (path.map pl) (pp i j).1 (pp i j).2 (c + v.1 • e1 + v.2 • e2) d = 0} := by
    ext v
    simp [Unlucky]
  rw [e]
  refine measure_iUnion_null fun path => measure_iUnion_null fun i => measure_iUnion_null fun j => ?_
  by_cases hs : slope (path.map pl) (pp i j).1 (pp i j).2 d = 0
  · refine measure_mono_null (t := ∅) ?_ measure_empty
    rintro v ⟨h, -⟩
    exact absurd hs h
  · refine measure_mono_null (fun v hv => hv.2) (gap_null (c := c) ?_ hdet hs)
    intro P hP
    obtain ⟨k, -, rfl⟩ := List.mem_map.1 hP
    exact hu k

theorem unlucky_measurable {δ : Type _} [MeasurableSpace δ] {p d : δ → V3 ℝ} (hp : V3M p) (hd : V3M d) : MeasurableSet {x | Unlucky pl pp (p x) (d x)} := by
  have e : {x | Unlucky pl pp (p x) (d x)} =
      ⋃ path : List (Fin N), ⋃ i, ⋃ j, ({x | slope (path.map pl) (pp i j).1 (pp i j).2 (d x) = 0}ᶜ ∩
        {x | gap (path.map pl) (pp i j).1 (pp i j).2 (p x) (d x) = 0}) := by
    ext v
    simp [Unlucky]
  rw [e]
  refine MeasurableSet.iUnion fun path => MeasurableSet.iUnion fun i => MeasurableSet.iUnion fun j => ?_
  refine MeasurableSet.inter (MeasurableSet.compl ?_) (measurableSet_eq_fun (gap_measurable _ _ _ hp hd) measurable_const)
  have hsl := slope_measurable (path.map pl) (pp i j).1 (pp i j).2 hd
  have e' : {x | slope (path.map pl) (pp i j).1 (pp i j).2 (d x) = 0} = {x | (slope (path.map pl) (pp i j).1 (pp i j).2 (d x)).x = 0} ∩
      ({x | (slope (path.map pl) (pp i j).1 (pp i j).2 (d x)).y = 0} ∩ {x | (slope (path.map pl) (pp i j).1 (pp i j).2 (d x)).z = 0}) := by
    ext x
    simp only [Set.mem_setOf_eq, Set.mem_inter_iff]
    constructor
    · intro h; rw [h]; exact ⟨rfl, rfl, rfl⟩
    · rintro ⟨h1, h2, h3⟩; exact V3.ext h1 h2 h3
  rw [e']
  exact (measurableSet_eq_fun hsl.x measurable_const).inter ((measurableSet_eq_fun hsl.y measurable_const).inter (measurableSet_eq_fun hsl.z measurable_const))

end

end Tracer
