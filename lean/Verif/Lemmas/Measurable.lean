import Verif.Props.CurvedMirrors
import Verif.Spec.MonteCarlo
import Mathlib.MeasureTheory.Constructions.BorelSpace.Real
import Mathlib.MeasureTheory.Constructions.BorelSpace.Order
import Mathlib.Analysis.SpecialFunctions.Sqrt

/-! Where a ray meets the surfaces of the package, and how it is reflected there, depends measurably on the ray. -/

namespace Tracer

open MeasureTheory Real

variable {E σ δ : Type _} [MeasurableSpace δ]

section vectors
variable {v w : δ → V3 ℝ} {t : δ → ℝ}

theorem V3M.const (a : V3 ℝ) : V3M (fun _ : δ => a) := ⟨measurable_const, measurable_const, measurable_const⟩

theorem V3M.add (hv : V3M v) (hw : V3M w) : V3M fun d => v d + w d :=
  ⟨hv.x.add hw.x, hv.y.add hw.y, hv.z.add hw.z⟩

theorem V3M.sub (hv : V3M v) (hw : V3M w) : V3M fun d => v d - w d :=
  ⟨hv.x.sub hw.x, hv.y.sub hw.y, hv.z.sub hw.z⟩

theorem V3M.neg (hv : V3M v) : V3M fun d => -v d := ⟨hv.x.neg, hv.y.neg, hv.z.neg⟩

theorem V3M.smul (ht : Measurable t) (hv : V3M v) : V3M fun d => t d • v d :=
  ⟨ht.mul hv.x, ht.mul hv.y, ht.mul hv.z⟩

theorem V3M.dot (hv : V3M v) (hw : V3M w) : Measurable fun d => V3.dot (v d) (w d) :=
  ((hv.x.mul hw.x).add (hv.y.mul hw.y)).add (hv.z.mul hw.z)

theorem V3M.mulVec (m : M3 ℝ) (hv : V3M v) : V3M fun d => m.mulVec (v d) := by
  have hx := hv.x
  have hy := hv.y
  have hz := hv.z
  unfold M3.mulVec
  exact ⟨by fun_prop, by fun_prop, by fun_prop⟩

theorem V3M.point (f : Tf ℝ) (hv : V3M v) : V3M fun d => f.point (v d) := (hv.mulVec f.rot).add (V3M.const _)

theorem _root_.Measurable.congr' {f g : δ → ℝ} (hf : Measurable f) (h : ∀ d, g d = f d) : Measurable g :=
  (funext h : g = f) ▸ hf

theorem absM {f : δ → ℝ} (hf : Measurable f) : Measurable fun d => |f d| := continuous_abs.measurable.comp hf

theorem V3M.ite {p : δ → Prop} [DecidablePred p] (hp : MeasurableSet {d | p d}) (hv : V3M v) (hw : V3M w) :
    V3M fun d => if p d then v d else w d := by
  refine ⟨?_, ?_, ?_⟩
  · have h : Measurable fun d => if p d then (v d).x else (w d).x := Measurable.ite hp hv.x hw.x
    refine h.congr' fun d => ?_
    split <;> rfl
  · have h : Measurable fun d => if p d then (v d).y else (w d).y := Measurable.ite hp hv.y hw.y
    refine h.congr' fun d => ?_
    split <;> rfl
  · have h : Measurable fun d => if p d then (v d).z else (w d).z := Measurable.ite hp hv.z hw.z
    refine h.congr' fun d => ?_
    split <;> rfl

end vectors

section tops
variable {f g : δ → WithTop ℝ}

theorem TopM.congr (hf : TopM f) (h : ∀ d, g d = f d) : TopM g := by
  obtain ⟨p, t, h1, h2, h3, h4⟩ := hf
  exact ⟨p, t, h1, h2, fun d hd => (h d).trans (h3 d hd), fun d hd => (h d).trans (h4 d hd)⟩

theorem TopM.top : TopM (fun _ : δ => (⊤ : WithTop ℝ)) :=
  ⟨fun _ => False, fun _ => 0, by simp, measurable_const, fun _ h => h.elim, fun _ _ => rfl⟩

theorem TopM.coe {t : δ → ℝ} (ht : Measurable t) : TopM (fun d => ((t d : ℝ) : WithTop ℝ)) :=
  ⟨fun _ => True, t, by simp, ht, fun _ _ => rfl, fun _ h => absurd trivial h⟩

theorem TopM.ite {p : δ → Prop} [DecidablePred p] (hp : MeasurableSet {d | p d}) (hf : TopM f) (hg : TopM g) :
    TopM fun d => if p d then f d else g d := by
  classical
  obtain ⟨p1, t1, m1, e1, a1, b1⟩ := hf
  obtain ⟨p2, t2, m2, e2, a2, b2⟩ := hg
  refine ⟨fun d => (p d ∧ p1 d) ∨ (¬ p d ∧ p2 d), fun d => if p d then t1 d else t2 d, (hp.inter m1).union (hp.compl.inter m2),
    Measurable.ite hp e1 e2, ?_, ?_⟩
  · rintro d (⟨h, h'⟩ | ⟨h, h'⟩)
    · simp only [if_pos h, a1 d h']
    · simp only [if_neg h, a2 d h']
  · intro d hd
    by_cases h : p d
    · simp only [if_pos h]
      exact b1 d fun h' => hd (Or.inl ⟨h, h'⟩)
    · simp only [if_neg h]
      exact b2 d fun h' => hd (Or.inr ⟨h, h'⟩)

end tops

section geometry
variable {v d : δ → V3 ℝ} (hv : V3M v) (hd : V3M d) (frame : Tf ℝ)
include hv hd

theorem flatParam_measurable : TopM fun x => flatParam frame (v x) (d x) := by
  have h1 := hd.dot (V3M.const frame.rot.c3)
  have h2 := (V3M.const frame.rot.c3).dot (hv.sub (V3M.const frame.loc))
  unfold flatParam
  refine TopM.ite (measurableSet_lt measurable_const (absM h1)) (TopM.ite ?_ TopM.top (TopM.coe ?_)) TopM.top
  · exact measurableSet_lt (h2.neg.div h1) measurable_const
  · exact h2.neg.div h1

theorem finiteParam_measurable {out : Tf ℝ → V3 ℝ → Bool}
    (ho : ∀ q : δ → V3 ℝ, V3M q → MeasurableSet {x | out frame (q x) = true}) :
    TopM fun x => finiteParam out frame (v x) (d x) := by
  obtain ⟨p, t, h1, h2, h3, h4⟩ := flatParam_measurable hv hd frame
  classical
  have h5 := ho _ (hv.add (hd.smul h2))
  refine (TopM.ite h1 (TopM.ite h5 TopM.top (TopM.coe h2)) TopM.top).congr ?_
  intro x
  unfold finiteParam
  by_cases h : p x
  · rw [show flatParam frame (v x) (d x) = _ from h3 x h, if_pos h]
  · rw [show flatParam frame (v x) (d x) = _ from h4 x h, if_neg h]

theorem flatNormal_measurable : V3M fun x => flatNormal frame (v x) (d x) := by
  unfold flatNormal
  exact V3M.ite (measurableSet_lt measurable_const (hd.dot (V3M.const _))) (V3M.const _) (V3M.const _)

omit hd in
theorem rectOutside_measurable (a b : ℝ) : MeasurableSet {x | rectOutside a b frame (v x) = true} := by
  have h := hv.point frame.inv
  have e : {x | rectOutside a b frame (v x) = true} =
      {x | a / 2 < |(frame.inv.point (v x)).x|} ∪ {x | b / 2 < |(frame.inv.point (v x)).y|} := by
    ext x
    unfold rectOutside toLocal
    simp only [Set.mem_setOf_eq, Set.mem_union, Bool.or_eq_true]
    exact or_congr decide_eq_true_iff decide_eq_true_iff
  rw [e]
  exact (measurableSet_lt measurable_const (absM h.x)).union (measurableSet_lt measurable_const (absM h.y))

omit hd in
theorem roundOutside_measurable (R : ℝ) : MeasurableSet {x | roundOutside R frame (v x) = true} := by
  have h := hv.point frame.inv
  have e : {x | roundOutside R frame (v x) = true} = {x | R ^ 2 < (frame.inv.point (v x)).x ^ 2 + (frame.inv.point (v x)).y ^ 2} := by
    ext x
    exact decide_eq_true_iff
  rw [e]
  exact measurableSet_lt measurable_const ((h.x.pow_const 2).add (h.y.pow_const 2))

omit hd in
theorem triOutside_measurable (a b : V3 ℝ) : MeasurableSet {x | triOutside a b frame (v x) = true} := by
  have h := hv.sub (V3M.const frame.loc)
  have h1 := h.dot (V3M.const (frame.point a - frame.loc))
  have h2 := h.dot (V3M.const (frame.point b - frame.loc))
  have hs : Measurable fun x => (V3.dot a b * V3.dot (v x - frame.loc) (frame.point b - frame.loc) -
      V3.dot b b * V3.dot (v x - frame.loc) (frame.point a - frame.loc)) / (V3.dot a b ^ 2 - V3.dot a a * V3.dot b b) := by
    fun_prop
  have ht : Measurable fun x => (V3.dot a b * V3.dot (v x - frame.loc) (frame.point a - frame.loc) -
      V3.dot a a * V3.dot (v x - frame.loc) (frame.point b - frame.loc)) / (V3.dot a b ^ 2 - V3.dot a a * V3.dot b b) := by
    fun_prop
  refine (((measurableSet_lt hs (measurable_const (a := (0 : ℝ)))).union (measurableSet_lt ht (measurable_const (a := (0 : ℝ))))).union
    (measurableSet_lt (measurable_const (a := (1 : ℝ))) (hs.add ht))).congr ?_
  ext x
  simp only [triOutside, Bool.or_eq_true, Set.mem_union, Set.mem_setOf_eq]
  exact (or_congr (or_congr decide_eq_true_iff decide_eq_true_iff) decide_eq_true_iff).symm

/-- The chosen crossing of a quadric. -/
theorem chosenParam_measurable {abc : V3 ℝ → V3 ℝ → ℝ × ℝ × ℝ} {test : V3 ℝ → Bool}
    (ha : Measurable fun x => (abc (v x) (d x)).1) (hb : Measurable fun x => (abc (v x) (d x)).2.1)
    (hc : Measurable fun x => (abc (v x) (d x)).2.2)
    (ht : ∀ q : δ → V3 ℝ, V3M q → MeasurableSet {x | test (q x) = true}) :
    TopM fun x => chosenParam (trimPick test) (candidate (abc (v x) (d x)) (v x) (d x)) := by
  classical
  have two : ∀ t0 t1 : δ → ℝ, Measurable t0 → Measurable t1 →
      TopM fun x => chosenParam (trimPick test) (some ⟨t0 x, t1 x, v x + t0 x • d x, v x + t1 x • d x⟩) := by
    intro t0 t1 h0 h1
    have m0 := (ht _ (hv.add (hd.smul h0))).inter (measurableSet_lt (measurable_const (a := (0 : ℝ))) h0)
    have m1 := (ht _ (hv.add (hd.smul h1))).inter (measurableSet_lt (measurable_const (a := (0 : ℝ))) h1)
    refine (TopM.ite (p := fun x => test (v x + t0 x • d x) = true ∧ 0 < t0 x) m0 (TopM.coe h0)
      (TopM.ite (p := fun x => test (v x + t1 x • d x) = true ∧ 0 < t1 x) m1 (TopM.coe h1) TopM.top)).congr ?_
    intro x
    unfold chosenParam trimPick pick Cand.choose
    by_cases a0 : test (v x + t0 x • d x) = true ∧ 0 < t0 x <;> by_cases a1 : test (v x + t1 x • d x) = true ∧ 0 < t1 x <;>
      simp [a0, a1]
  have hdelta : Measurable fun x => (abc (v x) (d x)).2.1 ^ 2 - 4 * (abc (v x) (d x)).1 * (abc (v x) (d x)).2.2 := by fun_prop
  have hroot : Measurable fun x => √((abc (v x) (d x)).2.1 ^ 2 - 4 * (abc (v x) (d x)).1 * (abc (v x) (d x)).2.2) :=
    Real.continuous_sqrt.measurable.comp hdelta
  refine (TopM.ite (p := fun x => 0 ≤ (abc (v x) (d x)).2.1 ^ 2 - 4 * (abc (v x) (d x)).1 * (abc (v x) (d x)).2.2)
    (measurableSet_le measurable_const hdelta)
    (TopM.ite (p := fun x => (abc (v x) (d x)).1 ≤ planarTol) (measurableSet_le ha measurable_const)
      (TopM.ite (p := fun x => (abc (v x) (d x)).2.1 = 0) (measurableSet_eq_fun hb measurable_const) TopM.top
        (two (fun x => -(abc (v x) (d x)).2.2 / (abc (v x) (d x)).2.1) (fun x => -(abc (v x) (d x)).2.2 / (abc (v x) (d x)).2.1)
          (hc.neg.div hb) (hc.neg.div hb)))
      (two _ _ (((hb.neg.add (hroot.const_mul (-1))).div (ha.const_mul 2))) ((hb.neg.add (hroot.const_mul 1)).div (ha.const_mul 2))))
    TopM.top).congr ?_
  intro x
  unfold candidate
  simp only
  split
  · split
    · split <;> rfl
    · rfl
  · rfl

omit hd in
theorem dishTest_measurable (h : ℝ) : MeasurableSet {x | dishTest h frame (v x) = true} := by
  have hp := hv.point frame.inv
  simp only [dishTest, decide_eq_true_eq]
  exact measurableSet_le hp.z measurable_const

omit hd in
theorem hexagonTest_measurable (R : ℝ) : MeasurableSet {x | hexagonTest R frame (v x) = true} := by
  have hp := hv.point frame.inv
  have e : {x | hexagonTest R frame (v x) = true} = ({x | √3 * R / 2 < |(frame.inv.point (v x)).x|} ∪
      {x | R - tan (π / 6) * |(frame.inv.point (v x)).x| < |(frame.inv.point (v x)).y|})ᶜ := by
    ext x
    simp [hexagonTest]
  rw [e]
  exact ((measurableSet_lt measurable_const (absM hp.x)).union
    (measurableSet_lt (measurable_const.sub ((absM hp.x).const_mul _)) (absM hp.y))).compl

omit hd in
theorem heightTest_measurable (h : ℝ) : MeasurableSet {x | decide (|(frame.inv.point (v x)).z| ≤ h) = true} := by
  have hp := hv.point frame.inv
  simp only [decide_eq_true_eq]
  exact measurableSet_le (absM hp.z) measurable_const

omit hv in
theorem localDir_measurable : V3M fun x => localDir frame (d x) := hd.mulVec _

theorem sphereABC_measurable (R : ℝ) : Measurable (fun x => (sphereABC R frame (v x) (d x)).1) ∧
    Measurable (fun x => (sphereABC R frame (v x) (d x)).2.1) ∧ Measurable (fun x => (sphereABC R frame (v x) (d x)).2.2) := by
  have hw := hv.sub (V3M.const frame.loc)
  have h1 := hw.x; have h2 := hw.y; have h3 := hw.z; have h4 := hd.x; have h5 := hd.y; have h6 := hd.z
  unfold sphereABC
  simp only
  exact ⟨by fun_prop, by fun_prop, by fun_prop⟩

theorem paraboloidABC_measurable (a b : ℝ) : Measurable (fun x => (paraboloidABC a b frame (v x) (d x)).1) ∧
    Measurable (fun x => (paraboloidABC a b frame (v x) (d x)).2.1) ∧ Measurable (fun x => (paraboloidABC a b frame (v x) (d x)).2.2) := by
  have hw := hv.point frame.inv
  have hl := localDir_measurable hd frame
  have h1 := hw.x; have h2 := hw.y; have h3 := hw.z; have h4 := hl.x; have h5 := hl.y; have h6 := hl.z
  unfold paraboloidABC
  simp only
  exact ⟨by fun_prop, by fun_prop, by fun_prop⟩

theorem cylinderABC_measurable (R : ℝ) : Measurable (fun x => (cylinderABC R frame (v x) (d x)).1) ∧
    Measurable (fun x => (cylinderABC R frame (v x) (d x)).2.1) ∧ Measurable (fun x => (cylinderABC R frame (v x) (d x)).2.2) := by
  have hw := hv.point frame.inv
  have hl := localDir_measurable hd frame
  have h1 := hw.x; have h2 := hw.y; have h3 := hw.z; have h4 := hl.x; have h5 := hl.y; have h6 := hl.z
  unfold cylinderABC
  simp only
  exact ⟨by fun_prop, by fun_prop, by fun_prop⟩

omit hv hd in
theorem norm_measurable {n : δ → V3 ℝ} (hn : V3M n) : Measurable fun x => √((n x).x ^ 2 + (n x).y ^ 2 + (n x).z ^ 2) :=
  Real.continuous_sqrt.measurable.comp (((hn.x.pow_const 2).add (hn.y.pow_const 2)).add (hn.z.pow_const 2))

theorem sphereNormal_measurable : V3M fun x => sphereNormal frame (v x) (d x) := by
  have hw := (V3M.const frame.loc).sub hv
  have hside : Measurable fun x => (frame.loc - v x).x * (d x).x + (frame.loc - v x).y * (d x).y + (frame.loc - v x).z * (d x).z :=
    ((hw.x.mul hd.x).add (hw.y.mul hd.y)).add (hw.z.mul hd.z)
  have hn := V3M.ite (measurableSet_lt hside (measurable_const (a := (0 : ℝ))))
    ((hv.sub (V3M.const frame.loc)).smul (measurable_const (a := (-1 : ℝ)))) (hv.sub (V3M.const frame.loc))
  exact hn.smul (measurable_const.div (norm_measurable hn))

theorem paraboloidNormal_measurable (a b : ℝ) : V3M fun x => paraboloidNormal a b frame (v x) (d x) := by
  have hp := hv.point frame.inv
  have hl := localDir_measurable hd frame
  have hn : V3M fun x => (⟨-(2 * (frame.inv.point (v x)).x * a), -(2 * (frame.inv.point (v x)).y * b), 1⟩ : V3 ℝ) :=
    ⟨((hp.x.const_mul 2).mul_const a).neg, ((hp.y.const_mul 2).mul_const b).neg, measurable_const⟩
  have hu := hn.smul ((measurable_const (a := (1 : ℝ))).div (norm_measurable hn))
  exact (V3M.ite (measurableSet_lt (measurable_const (a := (0 : ℝ)))
    (((hl.x.mul hu.x).add (hl.y.mul hu.y)).add (hl.z.mul hu.z))) (hu.smul (measurable_const (a := (-1 : ℝ)))) hu).mulVec frame.rot

theorem cylinderNormal_measurable : V3M fun x => cylinderNormal frame (v x) (d x) := by
  have hp := hv.point frame.inv
  have hl := localDir_measurable hd frame
  have hs : Measurable fun x => √((frame.inv.point (v x)).x ^ 2 + (frame.inv.point (v x)).y ^ 2) :=
    Real.continuous_sqrt.measurable.comp ((hp.x.pow_const 2).add (hp.y.pow_const 2))
  have hn : V3M fun x => (⟨(frame.inv.point (v x)).x / √((frame.inv.point (v x)).x ^ 2 + (frame.inv.point (v x)).y ^ 2),
      (frame.inv.point (v x)).y / √((frame.inv.point (v x)).x ^ 2 + (frame.inv.point (v x)).y ^ 2),
      0 / √((frame.inv.point (v x)).x ^ 2 + (frame.inv.point (v x)).y ^ 2)⟩ : V3 ℝ) :=
    ⟨hp.x.div hs, hp.y.div hs, measurable_const.div hs⟩
  exact (V3M.ite (measurableSet_lt (measurable_const (a := (0 : ℝ)))
    ((hn.x.mul hl.x).add (hn.y.mul hl.y))) (hn.smul (measurable_const (a := (-1 : ℝ)))) hn).mulVec frame.rot

end geometry

/-- The surfaces of the package are met at a parameter, and have a normal, that depend measurably on the ray. -/
theorem PlainGeometry.measurable {g : Geometry ℝ E} (h : PlainGeometry g) (frame : Tf ℝ) : ∃ f, g.PerRay f ∧
    ∀ v d : δ → V3 ℝ, V3M v → V3M d → (TopM fun x => f frame (v x) (d x)) ∧ V3M fun x => g.normal frame (v x) (d x) := by
  cases h with
  | flat => exact ⟨_, flatGM_perRay, fun v d hv hd => ⟨flatParam_measurable hv hd frame, flatNormal_measurable hv hd frame⟩⟩
  | rect width height _ hg =>
    rw [rect_eq hg]
    exact ⟨_, finiteFlatGM_perRay _, fun v d hv hd => ⟨finiteParam_measurable hv hd frame fun q hq => rectOutside_measurable hq frame _ _,
      flatNormal_measurable hv hd frame⟩⟩
  | round R _ hg =>
    rw [round_eq hg]
    exact ⟨_, finiteFlatGM_perRay _, fun v d hv hd => ⟨finiteParam_measurable hv hd frame fun q hq => roundOutside_measurable hq frame _,
      flatNormal_measurable hv hd frame⟩⟩
  | triangle a b =>
    exact ⟨_, finiteFlatGM_perRay _, fun v d hv hd => ⟨finiteParam_measurable hv hd frame fun q hq => triOutside_measurable hq frame _ _,
      flatNormal_measurable hv hd frame⟩⟩
  | sphere R _ hg =>
    unfold sphereGM at hg
    split at hg
    · cases hg
    · rename_i R' _
      cases hg
      refine ⟨fun frame v d => chosenParam (trimPick fun _ => true) (candidate (sphereABC R' frame v d) v d),
        fun frame rays => find_default _ rays, fun v d hv hd => ⟨?_, sphereNormal_measurable hv hd frame⟩⟩
      obtain ⟨h1, h2, h3⟩ := sphereABC_measurable hv hd frame R'
      exact chosenParam_measurable hv hd (abc := sphereABC R' frame) h1 h2 h3 fun _ _ => by simp
  | paraboloid a b =>
    refine ⟨fun frame v d => chosenParam (trimPick fun _ => true) (candidate (paraboloidABC (1 / a ^ 2) (1 / b ^ 2) frame v d) v d),
        fun frame rays => find_default _ rays, fun v d hv hd => ⟨?_, paraboloidNormal_measurable hv hd frame _ _⟩⟩
    obtain ⟨h1, h2, h3⟩ := paraboloidABC_measurable hv hd frame (1 / a ^ 2) (1 / b ^ 2)
    exact chosenParam_measurable hv hd (abc := paraboloidABC (1 / a ^ 2) (1 / b ^ 2) frame) h1 h2 h3 fun _ _ => by simp
  | dish diameter focal =>
    refine ⟨fun frame v d => chosenParam (trimPick (dishTest ((diameter / 2 / (2 * (Real.sqrt focal))) ^ 2) frame)) (candidate (paraboloidABC (1 / (2 * (Real.sqrt focal)) ^ 2) (1 / (2 * (Real.sqrt focal)) ^ 2) frame v d) v d),
      fun frame rays => find_trim _ _ rays, fun v d hv hd => ⟨?_, paraboloidNormal_measurable hv hd frame _ _⟩⟩
    obtain ⟨h1, h2, h3⟩ := paraboloidABC_measurable hv hd frame (1 / (2 * (Real.sqrt focal)) ^ 2) (1 / (2 * (Real.sqrt focal)) ^ 2)
    exact chosenParam_measurable hv hd (abc := paraboloidABC _ _ frame) h1 h2 h3 fun q hq => dishTest_measurable hq frame _
  | hexagonal diameter focal =>
    refine ⟨fun frame v d => chosenParam (trimPick (hexagonTest (diameter / 2) frame)) (candidate (paraboloidABC (1 / (2 * (Real.sqrt focal)) ^ 2) (1 / (2 * (Real.sqrt focal)) ^ 2) frame v d) v d),
      fun frame rays => find_trim _ _ rays, fun v d hv hd => ⟨?_, paraboloidNormal_measurable hv hd frame _ _⟩⟩
    obtain ⟨h1, h2, h3⟩ := paraboloidABC_measurable hv hd frame (1 / (2 * (Real.sqrt focal)) ^ 2) (1 / (2 * (Real.sqrt focal)) ^ 2)
    exact chosenParam_measurable hv hd (abc := paraboloidABC _ _ frame) h1 h2 h3 fun q hq => hexagonTest_measurable hq frame _
  | cylinder diameter =>
    refine ⟨fun frame v d => chosenParam (trimPick fun _ => true) (candidate (cylinderABC (diameter / 2) frame v d) v d),
        fun frame rays => find_default _ rays, fun v d hv hd => ⟨?_, cylinderNormal_measurable hv hd frame⟩⟩
    obtain ⟨h1, h2, h3⟩ := cylinderABC_measurable hv hd frame (diameter / 2)
    exact chosenParam_measurable hv hd (abc := cylinderABC _ frame) h1 h2 h3 fun _ _ => by simp
  | finiteCylinder diameter height =>
    refine ⟨fun frame v d => chosenParam (trimPick (fun p => decide (|(frame.inv.point p).z| ≤ height / 2))) (candidate (cylinderABC (diameter / 2) frame v d) v d),
      fun frame rays => quadricFind_map _ (cylinderSelect_eq _ _) rays, fun v d hv hd => ⟨?_, cylinderNormal_measurable hv hd frame⟩⟩
    obtain ⟨h1, h2, h3⟩ := cylinderABC_measurable hv hd frame (diameter / 2)
    exact chosenParam_measurable hv hd (abc := cylinderABC _ frame) (test := fun p => decide (|(frame.inv.point p).z| ≤ height / 2)) h1 h2 h3
      fun q hq => heightTest_measurable hq frame _

end Tracer
