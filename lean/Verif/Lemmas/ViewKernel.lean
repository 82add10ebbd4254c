import Verif.Spec.Factor
import Mathlib.Analysis.SpecialFunctions.PolarCoord
import Mathlib.Analysis.SpecialFunctions.Sqrt
import Mathlib.Analysis.Calculus.Deriv.Inv
import Mathlib.LinearAlgebra.Matrix.NonsingularInverse
import Verif.Spec.Sources
import Verif.Props.SunnyPlate

/-! How large a piece of a plane is when it is projected on the unit hemisphere and from there straight down. -/

namespace Tracer

open Real MeasureTheory Set

/-- A point of the plane through `W` with the directions `A`, `B`. -/
noncomputable def planePoint (W A B : V3 ℝ) (v : ℝ × ℝ) : V3 ℝ := W + v.1 • A + v.2 • B

/-- Its projection on the unit sphere, seen from above. -/
noncomputable def viewMap (W A B : V3 ℝ) (v : ℝ × ℝ) : ℝ × ℝ :=
  ((planePoint W A B v).x / √(V3.dot (planePoint W A B v) (planePoint W A B v)),
    (planePoint W A B v).y / √(V3.dot (planePoint W A B v) (planePoint W A B v)))

/-- The derivative of `viewMap`. -/
noncomputable def viewDeriv (A B P : V3 ℝ) : ℝ × ℝ →L[ℝ] ℝ × ℝ :=
  (Matrix.toLin (.finTwoProd ℝ) (.finTwoProd ℝ)
    !![(A.x * V3.dot P P - P.x * V3.dot P A) / √(V3.dot P P) ^ 3, (B.x * V3.dot P P - P.x * V3.dot P B) / √(V3.dot P P) ^ 3;
       (A.y * V3.dot P P - P.y * V3.dot P A) / √(V3.dot P P) ^ 3, (B.y * V3.dot P P - P.y * V3.dot P B) / √(V3.dot P P) ^ 3]).toContinuousLinearMap

theorem viewMap_deriv (W A B : V3 ℝ) {v : ℝ × ℝ} (h : 0 < V3.dot (planePoint W A B v) (planePoint W A B v)) :
    HasFDerivAt (viewMap W A B) (viewDeriv A B (planePoint W A B v)) v := by
  unfold viewDeriv
  rw [Matrix.toLin_finTwoProd_toContinuousLinearMap]
  have lin : ∀ w a b : ℝ, HasFDerivAt (fun v : ℝ × ℝ => w + v.1 * a + v.2 * b)
      (a • ContinuousLinearMap.fst ℝ ℝ ℝ + b • ContinuousLinearMap.snd ℝ ℝ ℝ) v := by
    intro w a b
    have h1 : HasFDerivAt (fun v : ℝ × ℝ => v.1 * a) (a • ContinuousLinearMap.fst ℝ ℝ ℝ) v := hasFDerivAt_fst.mul_const a
    have h2 : HasFDerivAt (fun v : ℝ × ℝ => v.2 * b) (b • ContinuousLinearMap.snd ℝ ℝ ℝ) v := hasFDerivAt_snd.mul_const b
    exact (h1.const_add w).add h2
  have hx := lin W.x A.x B.x
  have hy := lin W.y A.y B.y
  have hz := lin W.z A.z B.z
  have ex : ∀ v : ℝ × ℝ, (planePoint W A B v).x = W.x + v.1 * A.x + v.2 * B.x := fun v => by simp [planePoint]
  have ey : ∀ v : ℝ × ℝ, (planePoint W A B v).y = W.y + v.1 * A.y + v.2 * B.y := fun v => by simp [planePoint]
  have ez : ∀ v : ℝ × ℝ, (planePoint W A B v).z = W.z + v.1 * A.z + v.2 * B.z := fun v => by simp [planePoint]
  set P := planePoint W A B v with hP
  have hN : HasFDerivAt (fun v : ℝ × ℝ => V3.dot (planePoint W A B v) (planePoint W A B v))
      ((2 * V3.dot P A) • ContinuousLinearMap.fst ℝ ℝ ℝ + (2 * V3.dot P B) • ContinuousLinearMap.snd ℝ ℝ ℝ) v := by
    have := ((hx.mul hx).add (hy.mul hy)).add (hz.mul hz)
    have e : (fun v : ℝ × ℝ => V3.dot (planePoint W A B v) (planePoint W A B v)) =
        fun v => (W.x + v.1 * A.x + v.2 * B.x) * (W.x + v.1 * A.x + v.2 * B.x) + (W.y + v.1 * A.y + v.2 * B.y) * (W.y + v.1 * A.y + v.2 * B.y) +
          (W.z + v.1 * A.z + v.2 * B.z) * (W.z + v.1 * A.z + v.2 * B.z) := by
      funext v
      simp only [V3.dot, ex, ey, ez]
    rw [e]
    refine this.congr_fderiv ?_
    ext <;> simp [V3.dot, hP, ex, ey, ez] <;> ring
  have hs : HasFDerivAt (fun v : ℝ × ℝ => √(V3.dot (planePoint W A B v) (planePoint W A B v)))
      ((1 / (2 * √(V3.dot P P))) • ((2 * V3.dot P A) • ContinuousLinearMap.fst ℝ ℝ ℝ + (2 * V3.dot P B) • ContinuousLinearMap.snd ℝ ℝ ℝ)) v :=
    (hasDerivAt_sqrt h.ne').comp_hasFDerivAt v hN
  have hr : √(V3.dot P P) ≠ 0 := (sqrt_pos.2 h).ne'
  have hinv : HasFDerivAt (fun v : ℝ × ℝ => (√(V3.dot (planePoint W A B v) (planePoint W A B v)))⁻¹)
      ((-(√(V3.dot P P) ^ 2)⁻¹) • ((1 / (2 * √(V3.dot P P))) • ((2 * V3.dot P A) • ContinuousLinearMap.fst ℝ ℝ ℝ +
        (2 * V3.dot P B) • ContinuousLinearMap.snd ℝ ℝ ℝ))) v :=
    (hasDerivAt_inv hr).comp_hasFDerivAt v hs
  have hsq : V3.dot P P = √(V3.dot P P) ^ 2 := (sq_sqrt h.le).symm
  have comp : ∀ w a b c : ℝ, c = w + v.1 * a + v.2 * b →
      HasFDerivAt (fun v : ℝ × ℝ => (w + v.1 * a + v.2 * b) / √(V3.dot (planePoint W A B v) (planePoint W A B v)))
        (((a * V3.dot P P - c * V3.dot P A) / √(V3.dot P P) ^ 3) • ContinuousLinearMap.fst ℝ ℝ ℝ +
          ((b * V3.dot P P - c * V3.dot P B) / √(V3.dot P P) ^ 3) • ContinuousLinearMap.snd ℝ ℝ ℝ) v := by
    intro w a b c hc
    have h1 := (lin w a b).mul hinv
    simp only [div_eq_mul_inv]
    refine h1.congr_fderiv ?_
    rw [← hc, ← hP]
    generalize V3.dot P A = α
    generalize V3.dot P B = β
    have key : ∀ k α : ℝ, (k * V3.dot P P - c * α) * (√(V3.dot P P) ^ 3)⁻¹ = k * (√(V3.dot P P))⁻¹ - c * α * (√(V3.dot P P) ^ 3)⁻¹ := by
      intro k α
      rw [hsq, sqrt_sq (sqrt_nonneg _)]
      field_simp
    rw [key, key]
    ext
    · simp
      field_simp
      ring
    · simp
      field_simp
      ring
  have := HasFDerivAt.prodMk (𝕜 := ℝ) (comp W.x A.x B.x P.x (ex v)) (comp W.y A.y B.y P.y (ey v))
  refine this.congr_of_eventuallyEq (Filter.Eventually.of_forall fun u => ?_)
  simp only [viewMap, ex, ey]

theorem viewDeriv_det (A B P : V3 ℝ) (h : 0 < V3.dot P P) :
    (viewDeriv A B P).det = P.z * V3.dot P (V3.cross A B) / V3.dot P P ^ 2 := by
  unfold viewDeriv
  simp only [LinearMap.det_toContinuousLinearMap, LinearMap.det_toLin, Matrix.det_fin_two_of]
  have hr : √(V3.dot P P) ≠ 0 := (sqrt_pos.2 h).ne'
  have hsq : √(V3.dot P P) ^ 2 = V3.dot P P := sq_sqrt h.le
  have h6 : √(V3.dot P P) ^ 3 * √(V3.dot P P) ^ 3 = V3.dot P P ^ 3 := by
    rw [← hsq, sqrt_sq (sqrt_nonneg _)]
    ring
  rw [div_mul_div_comm, div_mul_div_comm, h6, ← sub_div, div_eq_div_iff (by positivity) (by positivity)]
  have : (A.x * V3.dot P P - P.x * V3.dot P A) * (B.y * V3.dot P P - P.y * V3.dot P B) -
      (B.x * V3.dot P P - P.x * V3.dot P B) * (A.y * V3.dot P P - P.y * V3.dot P A) = V3.dot P P * (P.z * V3.dot P (V3.cross A B)) := by
    simp only [V3.dot, V3.cross]
    ring
  rw [this]
  ring

/-- Points in front of the eye, of a plane that is not seen from its edge, are at different places of the view. -/
theorem viewMap_inj (W A B : V3 ℝ) (h : V3.dot W (V3.cross A B) ≠ 0) : InjOn (viewMap W A B) {v | 0 < (planePoint W A B v).z} := by
  intro v hv u hu he
  have hv : 0 < (planePoint W A B v).z := hv
  have hu : 0 < (planePoint W A B u).z := hu
  have hpos : ∀ P : V3 ℝ, 0 < P.z → 0 < V3.dot P P := by
    intro P hP
    have := mul_pos hP hP
    simp only [V3.dot]
    nlinarith [mul_self_nonneg P.x, mul_self_nonneg P.y]
  have hflat : ∀ v, V3.dot (planePoint W A B v) (V3.cross A B) = V3.dot W (V3.cross A B) := by
    intro v
    simp only [planePoint, V3.dot, V3.cross, V3.add_x, V3.add_y, V3.add_z, V3.smul_x, V3.smul_y, V3.smul_z]
    ring
  have h1 := hflat v
  have h2 := hflat u
  obtain ⟨e1, e2⟩ := Prod.ext_iff.1 he
  have hp := hpos _ hv
  have hq := hpos _ hu
  simp only [viewMap] at e1 e2
  have key : ∀ P Q : V3 ℝ, 0 < P.z → 0 < Q.z → 0 < V3.dot P P → 0 < V3.dot Q Q → P.x / √(V3.dot P P) = Q.x / √(V3.dot Q Q) →
      P.y / √(V3.dot P P) = Q.y / √(V3.dot Q Q) → V3.dot P (V3.cross A B) = V3.dot Q (V3.cross A B) → V3.dot P (V3.cross A B) ≠ 0 → P = Q := by
    intro P Q hP hQ hpp hqq hx hy hd hd0
    have r1 := sq_sqrt hpp.le
    have r2 := sq_sqrt hqq.le
    have s1 := sqrt_pos.2 hpp
    have s2 := sqrt_pos.2 hqq
    generalize √(V3.dot P P) = r at *
    generalize √(V3.dot Q Q) = s at *
    rw [div_eq_div_iff s1.ne' s2.ne'] at hx hy
    have hz : P.z * s = Q.z * r := by
      have : (P.z * s) ^ 2 = (Q.z * r) ^ 2 := by
        simp only [V3.dot] at r1 r2
        have e3 : (P.x * s) ^ 2 = (Q.x * r) ^ 2 := by rw [hx]
        have e4 : (P.y * s) ^ 2 = (Q.y * r) ^ 2 := by rw [hy]
        have e5 : r ^ 2 * s ^ 2 = s ^ 2 * r ^ 2 := by ring
        rw [show (P.z * s) ^ 2 = (P.z * P.z) * s ^ 2 by ring, show P.z * P.z = r ^ 2 - P.x * P.x - P.y * P.y by linarith,
          show (Q.z * r) ^ 2 = (Q.z * Q.z) * r ^ 2 by ring, show Q.z * Q.z = s ^ 2 - Q.x * Q.x - Q.y * Q.y by linarith]
        linear_combination -e3 - e4
      have ha : 0 ≤ P.z * s := by positivity
      have hb : 0 ≤ Q.z * r := by positivity
      exact (sq_eq_sq₀ ha hb).1 this
    have hdd : V3.dot P (V3.cross A B) * s = V3.dot Q (V3.cross A B) * r := by
      generalize V3.cross A B = m
      simp only [V3.dot]
      linear_combination m.x * hx + m.y * hy + m.z * hz
    rw [← hd] at hdd
    have hrs : s = r := mul_left_cancel₀ hd0 hdd
    subst hrs
    apply V3.ext
    · exact mul_right_cancel₀ s2.ne' hx
    · exact mul_right_cancel₀ s2.ne' hy
    · exact mul_right_cancel₀ s2.ne' hz
  have hPQ := key _ _ hv hu hp hq e1 e2 (h1.trans h2.symm) (by rw [h1]; exact h)
  have hAB : (v.1 - u.1) • A + (v.2 - u.2) • B = 0 := by
    have a1 := congrArg V3.x hPQ
    have a2 := congrArg V3.y hPQ
    have a3 := congrArg V3.z hPQ
    simp only [planePoint, V3.add_x, V3.add_y, V3.add_z, V3.smul_x, V3.smul_y, V3.smul_z] at a1 a2 a3
    apply V3.ext <;> simp <;> linarith
  generalize hδ : v.1 - u.1 = δ at hAB
  generalize hε : v.2 - u.2 = ε at hAB
  have a1 := congrArg V3.x hAB
  have a2 := congrArg V3.y hAB
  have a3 := congrArg V3.z hAB
  simp only [V3.add_x, V3.add_y, V3.add_z, V3.smul_x, V3.smul_y, V3.smul_z, V3.zero_x, V3.zero_y, V3.zero_z] at a1 a2 a3
  have z1 : δ = 0 := by
    have : δ * V3.dot W (V3.cross A B) = 0 := by
      simp only [V3.dot, V3.cross]
      linear_combination (W.z * B.y - W.y * B.z) * a1 + (W.x * B.z - W.z * B.x) * a2 + (W.y * B.x - W.x * B.y) * a3
    exact (mul_eq_zero.1 this).resolve_right h
  have z2 : ε = 0 := by
    have : ε * V3.dot W (V3.cross A B) = 0 := by
      simp only [V3.dot, V3.cross]
      linear_combination (W.y * A.z - W.z * A.y) * a1 + (W.z * A.x - W.x * A.z) * a2 + (W.x * A.y - W.y * A.x) * a3
    exact (mul_eq_zero.1 this).resolve_right h
  apply Prod.ext <;> linarith

theorem planePoint_continuous (W A B : V3 ℝ) :
    Continuous (fun v => (planePoint W A B v).x) ∧ Continuous (fun v => (planePoint W A B v).y) ∧ Continuous fun v => (planePoint W A B v).z := by
  unfold planePoint
  simp only [V3.add_x, V3.add_y, V3.add_z, V3.smul_x, V3.smul_y, V3.smul_z]
  exact ⟨by fun_prop, by fun_prop, by fun_prop⟩

theorem view_area (W A B : V3 ℝ) (h : V3.dot W (V3.cross A B) ≠ 0) {T : Set (ℝ × ℝ)} (hT : MeasurableSet T) :
    volume (viewMap W A B '' (T ∩ {v | 0 < (planePoint W A B v).z})) = ∫⁻ v in T ∩ {v | 0 < (planePoint W A B v).z},
      ENNReal.ofReal (|(planePoint W A B v).z * V3.dot (planePoint W A B v) (V3.cross A B) / V3.dot (planePoint W A B v) (planePoint W A B v) ^ 2|) := by
  have hmeas : MeasurableSet (T ∩ {v | 0 < (planePoint W A B v).z}) :=
    hT.inter (measurableSet_lt measurable_const (planePoint_continuous W A B).2.2.measurable)
  have hpos : ∀ P : V3 ℝ, 0 < P.z → 0 < V3.dot P P := by
    intro P hP
    have := mul_pos hP hP
    simp only [V3.dot]
    nlinarith [mul_self_nonneg P.x, mul_self_nonneg P.y]
  have h1 := lintegral_abs_det_fderiv_eq_addHaar_image volume (f := viewMap W A B) (f' := fun v => viewDeriv A B (planePoint W A B v)) hmeas
    (fun v hv => (viewMap_deriv W A B (hpos _ hv.2)).hasFDerivWithinAt) ((viewMap_inj W A B h).mono fun v hv => hv.2)
  rw [← h1]
  refine setLIntegral_congr_fun hmeas fun v hv => ?_
  simp only [viewDeriv_det A B _ (hpos _ hv.2)]

/-- The components of a vector along three directions. -/
noncomputable def along (e1 e2 n w : V3 ℝ) : V3 ℝ := ⟨V3.dot w e1, V3.dot w e2, V3.dot w n⟩

theorem along_expand {e1 e2 n : V3 ℝ} (h : Orthonormal3 e1 e2 n) (w : V3 ℝ) :
    w = V3.dot w e1 • e1 + V3.dot w e2 • e2 + V3.dot w n • n := by
  obtain ⟨o1, o2, o3, o4, o5, o6⟩ := h
  have hM : (!![e1.x, e1.y, e1.z; e2.x, e2.y, e2.z; n.x, n.y, n.z] : Matrix (Fin 3) (Fin 3) ℝ) *
      !![e1.x, e2.x, n.x; e1.y, e2.y, n.y; e1.z, e2.z, n.z] = 1 := by
    simp only [V3.dot] at o1 o2 o3 o4 o5 o6
    ext i j
    fin_cases i <;> fin_cases j <;> simp [Matrix.mul_apply, Fin.sum_univ_three] <;> linarith
  have hM' := mul_eq_one_comm.1 hM
  have e := fun i j => congrFun (congrFun hM' i) j
  simp only [Matrix.mul_apply, Fin.sum_univ_three] at e
  have e00 := e 0 0
  have e01 := e 0 1
  have e02 := e 0 2
  have e11 := e 1 1
  have e12 := e 1 2
  have e22 := e 2 2
  simp at e00 e01 e02 e11 e12 e22
  apply V3.ext
  · simp [V3.dot]
    linear_combination -w.x * e00 - w.y * e01 - w.z * e02
  · simp [V3.dot]
    linear_combination -w.x * e01 - w.y * e11 - w.z * e12
  · simp [V3.dot]
    linear_combination -w.x * e02 - w.y * e12 - w.z * e22

theorem along_dot {e1 e2 n : V3 ℝ} (h : Orthonormal3 e1 e2 n) (v w : V3 ℝ) : V3.dot (along e1 e2 n v) (along e1 e2 n w) = V3.dot v w := by
  conv_rhs => rw [along_expand h w]
  simp [along, V3.dot]
  ring

/-- The triple product keeps its value up to the sign. -/
theorem along_triple {e1 e2 n : V3 ℝ} (h : Orthonormal3 e1 e2 n) (u v w : V3 ℝ) :
    |V3.dot (along e1 e2 n u) (V3.cross (along e1 e2 n v) (along e1 e2 n w))| = |V3.dot u (V3.cross v w)| := by
  have hd : V3.dot (along e1 e2 n u) (V3.cross (along e1 e2 n v) (along e1 e2 n w)) = V3.dot u (V3.cross v w) * V3.dot e1 (V3.cross e2 n) := by
    simp only [along, V3.dot, V3.cross]
    ring
  have hs : V3.dot e1 (V3.cross e2 n) ^ 2 = 1 := by
    obtain ⟨o1, o2, o3, o4, o5, o6⟩ := h
    have : V3.dot e1 (V3.cross e2 n) ^ 2 = V3.dot e1 e1 * (V3.dot e2 e2 * V3.dot n n - V3.dot e2 n ^ 2) - V3.dot e1 e2 * (V3.dot e1 e2 * V3.dot n n - V3.dot e2 n * V3.dot e1 n) +
        V3.dot e1 n * (V3.dot e1 e2 * V3.dot e2 n - V3.dot e2 e2 * V3.dot e1 n) := by
      simp only [V3.dot, V3.cross]
      ring
    rw [this, o1, o2, o3, o4, o5, o6]
    norm_num
  have h1 : |V3.dot e1 (V3.cross e2 n)| = 1 := by
    have := sq_abs (V3.dot e1 (V3.cross e2 n))
    rw [hs] at this
    nlinarith [abs_nonneg (V3.dot e1 (V3.cross e2 n))]
  rw [hd, abs_mul, h1, mul_one]

section
variable {S : V3 ℝ → Prop} {G : Tf ℝ} {p e1 e2 n : V3 ℝ}

theorem along_point (p e1 e2 n : V3 ℝ) (G : Tf ℝ) (v : ℝ × ℝ) :
    planePoint (along e1 e2 n (G.loc - p)) (along e1 e2 n G.rot.c1) (along e1 e2 n G.rot.c2) v = along e1 e2 n (G.point ⟨v.1, v.2, 0⟩ - p) := by
  apply V3.ext <;> simp [planePoint, along, Tf.point, M3.mulVec, V3.dot] <;> ring

theorem nusselt_image (hort : Orthonormal3 e1 e2 n) (hz : ∀ q, S q → q.z = 0) :
    nusselt (Placed G S) p e1 e2 n ∩ disk 1 = viewMap (along e1 e2 n (G.loc - p)) (along e1 e2 n G.rot.c1) (along e1 e2 n G.rot.c2) ''
      ({v | S ⟨v.1, v.2, 0⟩} ∩ {v | 0 < (planePoint (along e1 e2 n (G.loc - p)) (along e1 e2 n G.rot.c1) (along e1 e2 n G.rot.c2) v).z}) := by
  ext q
  constructor
  · rintro ⟨⟨t, ht, l, hl, he⟩, hq⟩
    have hq : q.1 ^ 2 + q.2 ^ 2 < 1 ^ 2 := hq
    have hz0 : 0 < √(1 - q.1 ^ 2 - q.2 ^ 2) := sqrt_pos.2 (by linarith)
    have hz2 : √(1 - q.1 ^ 2 - q.2 ^ 2) ^ 2 = 1 - q.1 ^ 2 - q.2 ^ 2 := sq_sqrt (by linarith)
    have hl2 : l = ⟨l.x, l.y, 0⟩ := by
      apply V3.ext
      · rfl
      · rfl
      · exact hz l hl
    have hw : along e1 e2 n (G.point ⟨l.x, l.y, 0⟩ - p) = ⟨t * q.1, t * q.2, t * √(1 - q.1 ^ 2 - q.2 ^ 2)⟩ := by
      rw [← hl2, show G.point l = _ from he.symm]
      generalize √(1 - q.1 ^ 2 - q.2 ^ 2) = z at *
      obtain ⟨o1, o2, o3, o4, o5, o6⟩ := hort
      simp only [V3.dot] at o1 o2 o3 o4 o5 o6
      apply V3.ext
      · simp [along, V3.dot]
        linear_combination t * q.1 * o1 + t * q.2 * o4 + t * z * o5
      · simp [along, V3.dot]
        linear_combination t * q.1 * o4 + t * q.2 * o2 + t * z * o6
      · simp [along, V3.dot]
        linear_combination t * q.1 * o5 + t * q.2 * o6 + t * z * o3
    refine ⟨(l.x, l.y), ⟨by rw [hl2] at hl; exact hl, ?_⟩, ?_⟩
    · show 0 < (planePoint _ _ _ _).z
      rw [along_point, hw]
      positivity
    · unfold viewMap
      rw [along_point, hw]
      have : √(V3.dot (⟨t * q.1, t * q.2, t * √(1 - q.1 ^ 2 - q.2 ^ 2)⟩ : V3 ℝ) ⟨t * q.1, t * q.2, t * √(1 - q.1 ^ 2 - q.2 ^ 2)⟩) = t := by
        rw [show V3.dot (⟨t * q.1, t * q.2, t * √(1 - q.1 ^ 2 - q.2 ^ 2)⟩ : V3 ℝ) ⟨t * q.1, t * q.2, t * √(1 - q.1 ^ 2 - q.2 ^ 2)⟩ = t ^ 2 by
          simp only [V3.dot]
          linear_combination t ^ 2 * hz2]
        exact sqrt_sq ht.le
      rw [this]
      apply Prod.ext
      · exact mul_div_cancel_left₀ _ ht.ne'
      · exact mul_div_cancel_left₀ _ ht.ne'
  · rintro ⟨v, ⟨hv, hvz⟩, rfl⟩
    have hvz : 0 < (planePoint _ _ _ _).z := hvz
    rw [along_point] at hvz
    unfold viewMap
    rw [along_point]
    set w := G.point ⟨v.1, v.2, 0⟩ - p with hw
    have hexp := along_expand hort w
    have ex : (along e1 e2 n w).x = V3.dot w e1 := rfl
    have ey : (along e1 e2 n w).y = V3.dot w e2 := rfl
    have ez : (along e1 e2 n w).z = V3.dot w n := rfl
    have hN : V3.dot (along e1 e2 n w) (along e1 e2 n w) = V3.dot w e1 ^ 2 + V3.dot w e2 ^ 2 + V3.dot w n ^ 2 := by
      simp only [along]
      show _ * _ + _ * _ + _ * _ = _
      ring
    rw [ez] at hvz
    have hpos : 0 < V3.dot (along e1 e2 n w) (along e1 e2 n w) := by
      rw [hN]
      positivity
    have hr := sqrt_pos.2 hpos
    have hr2 := (sq_sqrt hpos.le).trans hN
    rw [ex, ey]
    generalize √(V3.dot (along e1 e2 n w) (along e1 e2 n w)) = r at *
    generalize V3.dot w e1 = x at *
    generalize V3.dot w e2 = y at *
    generalize V3.dot w n = z at *
    have hone : 1 - (x / r) ^ 2 - (y / r) ^ 2 = (z / r) ^ 2 := by
      field_simp
      linarith
    refine ⟨⟨r, hr, ⟨v.1, v.2, 0⟩, hv, ?_⟩, ?_⟩
    · simp only
      rw [hone, sqrt_sq (by positivity)]
      have hpt : G.point ⟨v.1, v.2, 0⟩ = p + w := by
        rw [hw]
        apply V3.ext <;> simp
      rw [hpt, hexp]
      apply V3.ext <;> simp <;> field_simp
    · show (x / r) ^ 2 + (y / r) ^ 2 < 1 ^ 2
      have : 0 < (z / r) ^ 2 := by positivity
      linarith

/-- What a piece of a plane at `q`, with the unit normal `m`, counts for at `p`, where the normal is `n`. -/
noncomputable def kernel (n m p q : V3 ℝ) : ℝ := max 0 (V3.dot (q - p) n) * |V3.dot (q - p) m| / V3.dist2 q p ^ 2

/-- The area of the projection. -/
theorem nusselt_area (hort : Orthonormal3 e1 e2 n) (hG : G.Rigid) (hz : ∀ q, S q → q.z = 0) (hS : MeasurableSet {v : ℝ × ℝ | S ⟨v.1, v.2, 0⟩})
    (hd : V3.dot (G.loc - p) G.rot.c3 ≠ 0) :
    volume (nusselt (Placed G S) p e1 e2 n ∩ disk 1) =
      ∫⁻ v in {v : ℝ × ℝ | S ⟨v.1, v.2, 0⟩}, ENNReal.ofReal (kernel n G.rot.c3 p (G.point ⟨v.1, v.2, 0⟩)) := by
  have hc : V3.cross G.rot.c1 G.rot.c2 = G.rot.c3 := rot_cross hG
  have htri : ∀ w, |V3.dot (along e1 e2 n w) (V3.cross (along e1 e2 n G.rot.c1) (along e1 e2 n G.rot.c2))| = |V3.dot w G.rot.c3| := by
    intro w
    rw [along_triple hort, hc]
  have hne : V3.dot (along e1 e2 n (G.loc - p)) (V3.cross (along e1 e2 n G.rot.c1) (along e1 e2 n G.rot.c2)) ≠ 0 := by
    rw [← abs_ne_zero, htri]
    exact abs_ne_zero.2 hd
  rw [nusselt_image hort hz, view_area _ _ _ hne hS]
  simp only [along_point]
  have hfront : MeasurableSet {v : ℝ × ℝ | 0 < (along e1 e2 n (G.point ⟨v.1, v.2, 0⟩ - p)).z} := by
    simp only [← along_point]
    exact measurableSet_lt measurable_const (planePoint_continuous _ _ _).2.2.measurable
  rw [Set.inter_comm, ← Measure.restrict_restrict hfront, ← lintegral_indicator hfront]
  apply lintegral_congr
  intro v
  by_cases h : 0 < (along e1 e2 n (G.point ⟨v.1, v.2, 0⟩ - p)).z
  · rw [Set.indicator_of_mem (show v ∈ {v : ℝ × ℝ | 0 < (along e1 e2 n (G.point ⟨v.1, v.2, 0⟩ - p)).z} from h), abs_div, abs_mul, htri, along_dot hort, abs_of_pos h, abs_sq]
    have h : 0 < V3.dot (G.point ⟨v.1, v.2, 0⟩ - p) n := h
    unfold kernel V3.dist2
    rw [max_eq_right h.le]
    rfl
  · rw [Set.indicator_of_notMem (show v ∉ {v : ℝ × ℝ | 0 < (along e1 e2 n (G.point ⟨v.1, v.2, 0⟩ - p)).z} from h)]
    have h : ¬ 0 < V3.dot (G.point ⟨v.1, v.2, 0⟩ - p) n := h
    unfold kernel
    rw [max_eq_left (not_lt.1 h)]
    simp

end

end Tracer
