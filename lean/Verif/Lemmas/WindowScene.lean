import Verif.Lemmas.Window
import Verif.Lemmas.Rigid

/-! Rays between the two faces of a pane. -/

namespace Tracer

open Real

variable {E σ : Type _}

/-! ### Which of two surfaces a ray meets -/

section
variable {per : Surf σ ℝ E → Ray ℝ E → WithTop ℝ} {out : Surf σ ℝ E → Ray ℝ E → Bundle ℝ E} {s0 s1 : Surf σ ℝ E} {p : Ray ℝ E} {cut t : ℝ}

theorem children_first (h0 : per s0 p = (t : WithTop ℝ)) (hc : cut < t) (h1 : ∀ t' : ℝ, per s1 p = (t' : WithTop ℝ) → cut < t' → t < t') :
    childrenBeyond cut per out [s0, s1] p = out s0 p := by
  classical
  have hs : ∃ t, NearestBeyond cut per [s0, s1] s0 p t := by
    refine ⟨t, h0, hc, ?_⟩
    intro s' hs' t' ht' hlt
    rcases List.mem_cons.1 hs' with rfl | hs'
    · rw [h0] at ht'; exact le_of_eq (WithTop.coe_injective ht')
    · rw [List.mem_singleton] at hs'; subst hs'; exact (h1 t' ht' hlt).le
  have hn : ¬ ∃ t, NearestBeyond cut per [s0, s1] s1 p t := by
    rintro ⟨t', ht', hlt, hmin⟩
    exact absurd (hmin s0 (by simp) t h0 hc) (not_le.2 (h1 t' ht' hlt))
  unfold childrenBeyond
  simp only [List.flatMap_cons, List.flatMap_nil, if_pos hs, if_neg hn, List.append_nil]

theorem children_second (h1 : per s1 p = (t : WithTop ℝ)) (hc : cut < t) (h0 : ∀ t' : ℝ, per s0 p = (t' : WithTop ℝ) → cut < t' → t < t') :
    childrenBeyond cut per out [s0, s1] p = out s1 p := by
  classical
  have hs : ∃ t, NearestBeyond cut per [s0, s1] s1 p t := by
    refine ⟨t, h1, hc, ?_⟩
    intro s' hs' t' ht' hlt
    rcases List.mem_cons.1 hs' with rfl | hs'
    · exact (h0 t' ht' hlt).le
    · rw [List.mem_singleton] at hs'; subst hs'; rw [h1] at ht'; exact le_of_eq (WithTop.coe_injective ht')
  have hn : ¬ ∃ t, NearestBeyond cut per [s0, s1] s0 p t := by
    rintro ⟨t', ht', hlt, hmin⟩
    exact absurd (hmin s1 (by simp) t h1 hc) (not_le.2 (h0 t' ht' hlt))
  unfold childrenBeyond
  simp only [List.flatMap_cons, List.flatMap_nil, if_pos hs, if_neg hn, List.append_nil, List.nil_append]

theorem children_none (h0 : ∀ t' : ℝ, per s0 p = (t' : WithTop ℝ) → t' ≤ cut) (h1 : ∀ t' : ℝ, per s1 p = (t' : WithTop ℝ) → t' ≤ cut) :
    childrenBeyond cut per out [s0, s1] p = [] := by
  classical
  have hn0 : ¬ ∃ t, NearestBeyond cut per [s0, s1] s0 p t := by
    rintro ⟨t', ht', hlt, -⟩
    exact absurd (h0 t' ht') (not_le.2 hlt)
  have hn1 : ¬ ∃ t, NearestBeyond cut per [s0, s1] s1 p t := by
    rintro ⟨t', ht', hlt, -⟩
    exact absurd (h1 t' ht') (not_le.2 hlt)
  unfold childrenBeyond
  simp only [List.flatMap_cons, List.flatMap_nil, if_neg hn0, if_neg hn1, List.append_nil]

end

/-! ### Plates -/

theorem toLocal_rigid {F : Tf ℝ} (hF : F.Rigid) (p : V3 ℝ) :
    (toLocal F p).x = V3.dot (p - F.loc) F.rot.c1 ∧ (toLocal F p).y = V3.dot (p - F.loc) F.rot.c2 := by
  have hp := Tf.point_inv_point (M3.IsRotation.det_ne hF) p
  obtain ⟨⟨h11, h22, h33, h12, h13, h23⟩, -⟩ := (M3.isRotation_iff F.rot).1 hF
  unfold toLocal
  generalize F.inv.point p = l at *
  rw [← hp]
  simp only [Tf.point, V3.dot, V3.add_x, V3.add_y, V3.add_z, V3.sub_x, V3.sub_y, V3.sub_z, M3.mulVec_x, M3.mulVec_y, M3.mulVec_z] at *
  constructor
  · linear_combination (-l.x) * h11 - l.y * h12 - l.z * h13
  · linear_combination (-l.x) * h12 - l.y * h22 - l.z * h23

theorem rectOutside_eq {F : Tf ℝ} (hF : F.Rigid) {width height : ℝ} {p : V3 ℝ} :
    rectOutside width height F p = false ↔ OverPlate F width height p := by
  obtain ⟨h1, h2⟩ := toLocal_rigid hF p
  unfold rectOutside OverPlate
  simp only [h1, h2, Bool.or_eq_false_iff, decide_eq_false_iff_not, not_lt]

/-- Where a ray meets a plate. -/
theorem plate_single {F : Tf ℝ} (hF : F.Rigid) {width height : ℝ} {opt : Optics σ ℝ E} {r : Ray ℝ E} {t : ℝ} :
    (mkSurf (finiteFlatGM (rectOutside width height)) opt F).single r = (t : WithTop ℝ) ↔
      1 / 10 ^ 10 < |V3.dot r.dir F.rot.c3| ∧ t * V3.dot r.dir F.rot.c3 = -V3.dot (r.vertex - F.loc) F.rot.c3 ∧ 0 ≤ t ∧
        OverPlate F width height (r.at t) := by
  change finiteParam (rectOutside width height) F r.vertex r.dir = (t : WithTop ℝ) ↔ _
  rw [← rectOutside_eq hF]
  have hdot : V3.dot F.rot.c3 (r.vertex - F.loc) = V3.dot (r.vertex - F.loc) F.rot.c3 := V3.dot_comm' _ _
  unfold finiteParam flatParam
  simp only [hdot]
  generalize V3.dot (r.vertex - F.loc) F.rot.c3 = z
  generalize V3.dot r.dir F.rot.c3 = c
  by_cases hc : (parallelTol : ℝ) < |c|
  · have hc0 : c ≠ 0 := by
      rintro rfl
      rw [abs_zero] at hc
      unfold parallelTol at hc
      norm_num at hc
    have heq : ∀ t : ℝ, t * c = -z ↔ t = -z / c := fun t => (eq_div_iff hc0).symm
    rw [if_pos hc, heq]
    have hc' : 1 / 10 ^ 10 < |c| := hc
    by_cases hneg : -z / c < 0
    · rw [if_pos hneg]
      constructor
      · intro h; exact absurd h (by simp)
      · rintro ⟨-, rfl, h, -⟩; exact absurd h (not_le.2 hneg)
    · rw [if_neg hneg]
      change (if rectOutside width height F (r.vertex + (-z / c) • r.dir) = true then (⊤ : WithTop ℝ) else ((-z / c : ℝ) : WithTop ℝ)) = _ ↔ _
      unfold Ray.at
      split
      · rename_i ho
        constructor
        · intro h; exact absurd h (by simp)
        · rintro ⟨-, rfl, -, h⟩; rw [ho] at h; exact absurd h (by simp)
      · rename_i ho
        constructor
        · intro h
          obtain rfl := WithTop.coe_injective h
          exact ⟨hc', rfl, not_lt.1 hneg, by simpa using ho⟩
        · rintro ⟨-, rfl, -, -⟩; rfl
  · rw [if_neg hc]
    constructor
    · intro h; exact absurd h (by simp)
    · rintro ⟨h, -⟩; exact absurd h hc

/-! ### The two faces -/

/-- The frame of the lower face. -/
noncomputable def lowerFrame (T : Tf ℝ) (h : ℝ) : Tf ℝ := ⟨T.rot, T.loc - h • T.rot.c3⟩

section
variable {T : Tf ℝ} {h width height n1 n2 : ℝ}

theorem lowerFrame_rigid (hT : T.Rigid) : (lowerFrame T h).Rigid := hT

theorem lower_over (hT : T.Rigid) {p : V3 ℝ} : OverPlate (lowerFrame T h) width height p ↔ OverPlate T width height p := by
  obtain ⟨⟨h11, h22, h33, h12, h13, h23⟩, -⟩ := (M3.isRotation_iff T.rot).1 hT
  have e1 : V3.dot (p - (lowerFrame T h).loc) T.rot.c1 = V3.dot (p - T.loc) T.rot.c1 := by
    simp only [lowerFrame, V3.dot, V3.sub_x, V3.sub_y, V3.sub_z, V3.smul_x, V3.smul_y, V3.smul_z] at *
    linear_combination h * h13
  have e2 : V3.dot (p - (lowerFrame T h).loc) T.rot.c2 = V3.dot (p - T.loc) T.rot.c2 := by
    simp only [lowerFrame, V3.dot, V3.sub_x, V3.sub_y, V3.sub_z, V3.smul_x, V3.smul_y, V3.smul_z] at *
    linear_combination h * h23
  unfold OverPlate
  change |V3.dot (p - (lowerFrame T h).loc) T.rot.c1| ≤ _ ∧ |V3.dot (p - (lowerFrame T h).loc) T.rot.c2| ≤ _ ↔ _
  rw [e1, e2]

theorem lower_height (hT : T.Rigid) (p : V3 ℝ) :
    V3.dot (p - (lowerFrame T h).loc) T.rot.c3 = V3.dot (p - T.loc) T.rot.c3 + h := by
  obtain ⟨⟨h11, h22, h33, h12, h13, h23⟩, -⟩ := (M3.isRotation_iff T.rot).1 hT
  simp only [lowerFrame, V3.dot, V3.sub_x, V3.sub_y, V3.sub_z, V3.smul_x, V3.smul_y, V3.smul_z] at *
  linear_combination h * h33

/-- The upper and the lower face. -/
noncomputable def upperFace (width height n1 n2 : ℝ) (T : Tf ℝ) : Surf σ ℝ E :=
  mkSurf (finiteFlatGM (rectOutside width height)) (refractiveHomogenous n1 n2) T

@[inherit_doc upperFace]
noncomputable def lowerFace (width height n1 n2 h : ℝ) (T : Tf ℝ) : Surf σ ℝ E :=
  mkSurf (finiteFlatGM (rectOutside width height)) (refractiveHomogenous n1 n2) (lowerFrame T h)

theorem upper_single (hT : T.Rigid) {r : Ray ℝ E} {t : ℝ} :
    (upperFace width height n1 n2 T : Surf σ ℝ E).single r = (t : WithTop ℝ) ↔
      1 / 10 ^ 10 < |V3.dot r.dir T.rot.c3| ∧ t * V3.dot r.dir T.rot.c3 = -V3.dot (r.vertex - T.loc) T.rot.c3 ∧ 0 ≤ t ∧
        OverPlate T width height (r.at t) := plate_single hT

theorem lower_single (hT : T.Rigid) {r : Ray ℝ E} {t : ℝ} :
    (lowerFace width height n1 n2 h T : Surf σ ℝ E).single r = (t : WithTop ℝ) ↔
      1 / 10 ^ 10 < |V3.dot r.dir T.rot.c3| ∧ t * V3.dot r.dir T.rot.c3 = -(V3.dot (r.vertex - T.loc) T.rot.c3 + h) ∧ 0 ≤ t ∧
        OverPlate T width height (r.at t) := by
  rw [← lower_over (h := h) hT, ← lower_height hT]
  exact plate_single (lowerFrame_rigid hT)

variable {out : Surf σ ℝ E → Ray ℝ E → Bundle ℝ E} {cut : ℝ} {r : Ray ℝ E} {t : ℝ}

/-- A ray from above meets the upper face. -/
theorem from_above (hT : T.Rigid) (hh : 0 < h) (hc : cut < t) (h0 : 0 ≤ t) (hd : V3.dot r.dir T.rot.c3 < -(1 / 10 ^ 10))
    (hz : V3.dot (r.at t - T.loc) T.rot.c3 = 0) (ho : OverPlate T width height (r.at t)) :
    (upperFace width height n1 n2 T : Surf σ ℝ E).single r = (t : WithTop ℝ) ∧
    childrenBeyond cut Surf.single out [upperFace width height n1 n2 T, lowerFace width height n1 n2 h T] r =
      out (upperFace width height n1 n2 T) r := by
  have habs : 1 / 10 ^ 10 < |V3.dot r.dir T.rot.c3| := by
    rw [abs_of_neg (by linarith [show (0 : ℝ) < 1 / 10 ^ 10 by norm_num])]; linarith
  have hz' : t * V3.dot r.dir T.rot.c3 = -V3.dot (r.vertex - T.loc) T.rot.c3 := by
    simp only [Ray.at, V3.dot, V3.add_x, V3.add_y, V3.add_z, V3.sub_x, V3.sub_y, V3.sub_z, V3.smul_x, V3.smul_y, V3.smul_z] at hz ⊢
    linarith
  have hs := (upper_single (σ := σ) (n1 := n1) (n2 := n2) hT).2 ⟨habs, hz', h0, ho⟩
  refine ⟨hs, children_first hs hc ?_⟩
  intro t' ht' _
  obtain ⟨-, h2, -, -⟩ := (lower_single hT).1 ht'
  have hneg : V3.dot r.dir T.rot.c3 < 0 := by linarith [show (0 : ℝ) < 1 / 10 ^ 10 by norm_num]
  nlinarith

/-- Light at the upper face that goes down meets the lower one. -/
theorem pass_down (hT : T.Rigid) (hc0 : 0 ≤ cut) (hc : cut < t) (hd : V3.dot r.dir T.rot.c3 < -(1 / 10 ^ 10))
    (hz : V3.dot (r.vertex - T.loc) T.rot.c3 = 0) (ht : t * V3.dot r.dir T.rot.c3 = -h) (ho : OverPlate T width height (r.at t)) :
    (lowerFace width height n1 n2 h T : Surf σ ℝ E).single r = (t : WithTop ℝ) ∧
    childrenBeyond cut Surf.single out [upperFace width height n1 n2 T, lowerFace width height n1 n2 h T] r =
      out (lowerFace width height n1 n2 h T) r := by
  have hneg : V3.dot r.dir T.rot.c3 < 0 := by linarith [show (0 : ℝ) < 1 / 10 ^ 10 by norm_num]
  have habs : 1 / 10 ^ 10 < |V3.dot r.dir T.rot.c3| := by rw [abs_of_neg hneg]; linarith
  have hs := (lower_single (σ := σ) (h := h) (n1 := n1) (n2 := n2) hT).2 ⟨habs, by rw [hz, ht, zero_add], by linarith, ho⟩
  refine ⟨hs, children_second hs hc ?_⟩
  intro t' ht' hlt
  obtain ⟨-, h2, -, -⟩ := (upper_single hT).1 ht'
  rw [hz, neg_zero] at h2
  rcases mul_eq_zero.1 h2 with h3 | h3
  · linarith
  · linarith

/-- Light at the lower face that goes up meets the upper one. -/
theorem pass_up (hT : T.Rigid) (hc0 : 0 ≤ cut) (hc : cut < t) (hd : 1 / 10 ^ 10 < V3.dot r.dir T.rot.c3)
    (hz : V3.dot (r.vertex - T.loc) T.rot.c3 = -h) (ht : t * V3.dot r.dir T.rot.c3 = h) (ho : OverPlate T width height (r.at t)) :
    (upperFace width height n1 n2 T : Surf σ ℝ E).single r = (t : WithTop ℝ) ∧
    childrenBeyond cut Surf.single out [upperFace width height n1 n2 T, lowerFace width height n1 n2 h T] r =
      out (upperFace width height n1 n2 T) r := by
  have hpos : 0 < V3.dot r.dir T.rot.c3 := by linarith [show (0 : ℝ) < 1 / 10 ^ 10 by norm_num]
  have habs : 1 / 10 ^ 10 < |V3.dot r.dir T.rot.c3| := by rw [abs_of_pos hpos]; exact hd
  have hs := (upper_single (σ := σ) (n1 := n1) (n2 := n2) hT).2 ⟨habs, by rw [hz, ht, neg_neg], by linarith, ho⟩
  refine ⟨hs, children_first hs hc ?_⟩
  intro t' ht' hlt
  obtain ⟨-, h2, -, -⟩ := (lower_single hT).1 ht'
  rw [hz, neg_add_cancel, neg_zero] at h2
  rcases mul_eq_zero.1 h2 with h3 | h3
  · linarith
  · linarith

/-- Light that leaves the pane meets nothing. -/
theorem leaves (hT : T.Rigid) (hh : 0 < h) (hc0 : 0 ≤ cut)
    (hcase : (0 < V3.dot r.dir T.rot.c3 ∧ V3.dot (r.vertex - T.loc) T.rot.c3 = 0) ∨
      (V3.dot r.dir T.rot.c3 < 0 ∧ V3.dot (r.vertex - T.loc) T.rot.c3 = -h)) :
    childrenBeyond cut Surf.single out
      [(upperFace width height n1 n2 T : Surf σ ℝ E), lowerFace width height n1 n2 h T] r = [] := by
  refine children_none ?_ ?_
  · intro t' ht'
    obtain ⟨-, h2, h3, -⟩ := (upper_single hT).1 ht'
    rcases hcase with ⟨hd, hz⟩ | ⟨hd, hz⟩
    · rw [hz] at h2
      have : t' = 0 := by rcases mul_eq_zero.1 (by linarith : t' * V3.dot r.dir T.rot.c3 = 0) with h | h <;> linarith
      linarith
    · rw [hz] at h2; nlinarith
  · intro t' ht'
    obtain ⟨-, h2, h3, -⟩ := (lower_single hT).1 ht'
    rcases hcase with ⟨hd, hz⟩ | ⟨hd, hz⟩
    · rw [hz] at h2; nlinarith
    · rw [hz] at h2
      have : t' = 0 := by rcases mul_eq_zero.1 (by linarith : t' * V3.dot r.dir T.rot.c3 = 0) with h | h <;> linarith
      linarith

end

end Tracer
