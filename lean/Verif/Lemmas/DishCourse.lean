import Verif.Lemmas.TubeScene

/-! Light from a dish into a tube. -/

set_option linter.unusedSectionVars false

namespace Tracer

open Real

variable {E σ : Type _}

/-- What is used of a dish with focal length `f` of which the part `S` is there, up to the height `rim`. -/
structure IsDish (s : Surf σ ℝ E) (w : σ) (f rim eff : ℝ) (S : V3 ℝ → Prop) : Prop where
  first : ∀ r : Ray ℝ E, r.dir ≠ 0 → (1 / 10 ^ 10 < (r.dir.x ^ 2 + r.dir.y ^ 2) / (4 * f) ∨ r.dir.x ^ 2 + r.dir.y ^ 2 = 0) →
    FirstAmong (0 < ·) (fun q => dishSet f q ∧ S q) r.vertex r.dir (s.single r)
  out : ∀ (r : Ray ℝ E) (t : ℝ), r.dir = ⟨0, 0, -1⟩ → s.single r = (t : WithTop ℝ) →
    ∃ o, s.alone w r = [o] ∧ o.vertex = dishPoint f r.vertex ∧ o.dir = dishDir f r.vertex ∧ o.energy = r.energy * eff
  rim : ∀ q, dishSet f q → S q → q.z ≤ rim

theorem offAxis_one (d : V3 ℝ) : offAxis 1 d = d.x ^ 2 + d.y ^ 2 := by
  unfold offAxis
  have : (1 : Tf ℝ).rot.c3 = ⟨0, 0, 1⟩ := rfl
  rw [this]
  simp [V3.dot, V3.cross]
  ring

theorem placed_one (S : V3 ℝ → Prop) : Placed (1 : Tf ℝ) S = S := by
  funext p; unfold Placed; simp [Tf.one_point]

theorem dish_out {diameter f : ℝ} (hf : 0 < f) {eff : ℝ} {S : V3 ℝ → Prop} {g : Geometry ℝ E} (hper : ∃ p, g.PerRay p)
    (hn : g.normal = (parabolicDishGM diameter f : Geometry ℝ E).normal) (w : σ) {r : Ray ℝ E} {t : ℝ} (hd : r.dir = ⟨0, 0, -1⟩)
    (hfirst : FirstAmong (0 < ·) (fun q => dishSet f q ∧ S q) r.vertex r.dir (t : WithTop ℝ))
    (ht : (mkSurf g (reflective (1 - eff)) 1 : Surf σ ℝ E).single r = (t : WithTop ℝ)) :
    ∃ o, (mkSurf g (reflective (1 - eff)) 1 : Surf σ ℝ E).alone w r = [o] ∧ o.vertex = dishPoint f r.vertex ∧ o.dir = dishDir f r.vertex ∧
      o.energy = r.energy * eff := by
  obtain ⟨_, ⟨hon, _⟩, _⟩ := hfirst
  obtain ⟨p, hp⟩ := hper
  have hat : r.at t = dishPoint f r.vertex := by
    have hx : (r.at t).x = r.vertex.x := by unfold Ray.at; simp [hd]
    have hy : (r.at t).y = r.vertex.y := by unfold Ray.at; simp [hd]
    have hz : (r.at t).z = ((r.at t).x ^ 2 + (r.at t).y ^ 2) / (4 * f) := hon
    rw [hx, hy] at hz
    exact V3.ext hx hy hz
  obtain ⟨h1, h2⟩ := C37_focus (E := E) (diameter := diameter) (frame := 1) Tf.Rigid.one hf (p := r.at t) (by rw [placed_one]; exact hon)
  have hi : (1 : Tf ℝ).inv.point (r.at t) = r.at t := by
    have := Tf.point_inv_point (t := (1 : Tf ℝ)) (M3.IsRotation.det_ne Tf.Rigid.one) (r.at t)
    rwa [Tf.one_point] at this
  rw [Tf.one_point, Tf.one_dir, hi, ← hd, ← hn] at h1
  rw [hi] at h2
  refine ⟨_, alone_reflective hp w ht, hat, ?_, ?_⟩
  · change reflection r.dir (g.normal 1 (r.at t) r.dir) = _
    unfold dishDir
    rw [← hat, h1]
    generalize reflection r.dir (g.normal 1 (r.at t) r.dir) = d
    have hne := h2.ne'
    apply V3.ext <;> simp <;> field_simp
  · change r.energy * (1 - (1 - eff)) = _
    ring

theorem dish_rim {f rim x y z : ℝ} (hf : 0 < f) (hz : z = (x ^ 2 + y ^ 2) / (4 * f)) (h : x ^ 2 + y ^ 2 ≤ rim * (4 * f)) : z ≤ rim := by
  rw [hz, div_le_iff₀ (by positivity)]
  exact h

theorem PlainGeometry.perRay_dish (diameter f : ℝ) : ∃ p, (parabolicDishGM diameter f : Geometry ℝ E).PerRay p :=
  ⟨fun frame v d => chosenParam (trimPick (dishTest ((diameter / 2 / (2 * (Real.sqrt f))) ^ 2) frame))
    (candidate (paraboloidABC (1 / (2 * (Real.sqrt f)) ^ 2) (1 / (2 * (Real.sqrt f)) ^ 2) frame v d) v d), fun frame rays => find_trim _ _ rays⟩

theorem PlainGeometry.perRay_hexagonal (diameter f : ℝ) : ∃ p, (hexagonalDishGM diameter f : Geometry ℝ E).PerRay p :=
  ⟨fun frame v d => chosenParam (trimPick (hexagonTest (diameter / 2) frame))
    (candidate (paraboloidABC (1 / (2 * (Real.sqrt f)) ^ 2) (1 / (2 * (Real.sqrt f)) ^ 2) frame v d) v d), fun frame rays => find_trim _ _ rays⟩

/-- The hexagon is in the circle of the same diameter. -/
theorem hexagon_circle {R : ℝ} {q : V3 ℝ} (h : hexagon R q) : q.x ^ 2 + q.y ^ 2 ≤ R ^ 2 := by
  have hi : (1 : Tf ℝ).inv.point q = q := by
    have := Tf.point_inv_point (t := (1 : Tf ℝ)) (M3.IsRotation.det_ne Tf.Rigid.one) q
    rwa [Tf.one_point] at this
  have h1 := (hexagon_iff R 1 q).2 (by rw [hi]; exact h)
  unfold hexagonTest at h1
  simp only [hi, tan_pi_div_six, Bool.not_eq_true', Bool.or_eq_false_iff, decide_eq_false_iff_not, not_lt] at h1
  obtain ⟨h2, h3⟩ := h1
  have hs : 0 < √3 := Real.sqrt_pos.2 (by norm_num)
  have hss : √3 * √3 = 3 := Real.mul_self_sqrt (by norm_num)
  rw [← sq_abs q.x, ← sq_abs q.y]
  have hx := abs_nonneg q.x
  have hy := abs_nonneg q.y
  generalize |q.x| = u at *
  generalize |q.y| = v at *
  have hv : v ^ 2 ≤ (R - 1 / √3 * u) ^ 2 := pow_le_pow_left₀ hy h3 2
  have hk : (1 / √3) * √3 = 1 := by field_simp
  generalize 1 / √3 = k at *
  have hk2 : k * k = 1 / 3 := by nlinarith
  have hk0 : 0 < k := by
    by_contra hc
    push Not at hc
    nlinarith
  have h4 : 2 * u ≤ √3 * R := by linarith
  have h5 : k * (2 * u) ≤ R := by
    have := mul_le_mul_of_nonneg_left h4 hk0.le
    nlinarith
  have h6 : u * k * (k * (2 * u)) ≤ u * k * R := mul_le_mul_of_nonneg_left h5 (by positivity)
  nlinarith

theorem dish_isDish {diameter f : ℝ} (hf : 0 < f) (eff : ℝ) (w : σ) :
    IsDish (mkSurf (parabolicDishGM diameter f) (reflective (1 - eff)) 1 : Surf σ ℝ E) w f (diameter ^ 2 / (16 * f)) eff
      (fun q => q.x ^ 2 + q.y ^ 2 ≤ (diameter / 2) ^ 2) := by
  have hfirst : ∀ r : Ray ℝ E, r.dir ≠ 0 → (1 / 10 ^ 10 < (r.dir.x ^ 2 + r.dir.y ^ 2) / (4 * f) ∨ r.dir.x ^ 2 + r.dir.y ^ 2 = 0) →
      FirstAmong (0 < ·) (fun q => dishSet f q ∧ q.x ^ 2 + q.y ^ 2 ≤ (diameter / 2) ^ 2) r.vertex r.dir
        ((mkSurf (parabolicDishGM diameter f) (reflective (1 - eff)) 1 : Surf σ ℝ E).single r) := by
    intro r hd hA
    obtain ⟨q, h1, h2⟩ := C37_dish (diameter := diameter) Tf.Rigid.one hf [r] 0 r rfl hd (by rw [offAxis_one]; exact hA)
    rw [single_of_find h1]
    rw [placed_one] at h2
    exact h2
  refine ⟨hfirst, ?_, ?_⟩
  · intro r t hd ht
    have h1 := hfirst r (by rw [hd]; intro h; have := congrArg V3.z h; simp at this) (Or.inr (by rw [hd]; simp))
    rw [ht] at h1
    exact dish_out (diameter := diameter) hf (PlainGeometry.perRay_dish diameter f) rfl w hd h1 ht
  · intro q hq hS
    refine dish_rim hf hq (hS.trans (le_of_eq ?_))
    field_simp
    ring

theorem hexagonalDish_isDish {diameter f : ℝ} (hf : 0 < f) (eff : ℝ) (w : σ) :
    IsDish (mkSurf (hexagonalDishGM diameter f) (reflective (1 - eff)) 1 : Surf σ ℝ E) w f (diameter ^ 2 / (16 * f)) eff
      (hexagon (diameter / 2)) := by
  have hfirst : ∀ r : Ray ℝ E, r.dir ≠ 0 → (1 / 10 ^ 10 < (r.dir.x ^ 2 + r.dir.y ^ 2) / (4 * f) ∨ r.dir.x ^ 2 + r.dir.y ^ 2 = 0) →
      FirstAmong (0 < ·) (fun q => dishSet f q ∧ hexagon (diameter / 2) q) r.vertex r.dir
        ((mkSurf (hexagonalDishGM diameter f) (reflective (1 - eff)) 1 : Surf σ ℝ E).single r) := by
    intro r hd hA
    obtain ⟨q, h1, h2⟩ := C38_hexagonal_dish (diameter := diameter) Tf.Rigid.one hf [r] 0 r rfl hd (by rw [offAxis_one]; exact hA)
    rw [single_of_find h1]
    rw [placed_one] at h2
    exact h2
  refine ⟨hfirst, ?_, ?_⟩
  · intro r t hd ht
    have h1 := hfirst r (by rw [hd]; intro h; have := congrArg V3.z h; simp at this) (Or.inr (by rw [hd]; simp))
    rw [ht] at h1
    exact dish_out (diameter := diameter) hf (PlainGeometry.perRay_hexagonal diameter f) rfl w hd h1 ht
  · intro q hq hS
    refine dish_rim hf hq ((hexagon_circle hS).trans (le_of_eq ?_))
    field_simp
    ring

section
variable {objs : List (Obj σ ℝ E)} {pol : Nat → Policy ℝ E} {w : σ} {x y lo hi eff : ℝ} {ws : Nat → Surf σ ℝ E}
  {front back refl : Surf σ ℝ E} {f rim deff : ℝ} {S : V3 ℝ → Prop}

/-- A chord through the focus ends above the focus if it begins below it. -/
theorem focal_chord {f z u q : ℝ} (hf : 0 < f) (hz : 0 ≤ z) (hu : 0 < u) (hq : q = z + u * (f - z)) (hon : q = z * (1 - u) ^ 2) :
    q * z = f ^ 2 := by
  have h1 : u * (f + z - u * z) = 0 := by rw [hq] at hon; linarith
  have h2 : u * z = f + z := by
    rcases mul_eq_zero.1 h1 with h | h
    · exact absurd h hu.ne'
    · linarith
  rw [hq]
  linear_combination (f - z) * h2

/-- A ray from the dish to the focus does not meet the dish again. -/
theorem IsDish.once (hD : IsDish refl w f rim deff S) (hf : 0 < f) (hrim : rim < f) {r : Ray ℝ E} {v : V3 ℝ} (hS : S (dishPoint f v))
    (hv : r.vertex = dishPoint f v) (hd : r.dir = dishDir f v) (hsl : 1 / 10 ^ 10 < ((dishDir f v).x ^ 2 + (dishDir f v).y ^ 2) / (4 * f))
    (t : ℝ) : refl.single r ≠ (t : WithTop ℝ) := by
  intro ht
  have hne : r.dir ≠ 0 := by
    intro h0
    rw [← hd, h0] at hsl
    norm_num at hsl
  have h1 := hD.first r hne (Or.inl (by rw [hd]; exact hsl))
  rw [ht] at h1
  obtain ⟨ht0, ⟨hon, hSq⟩, _⟩ := h1
  have hr1 := hD.rim _ hon hSq
  have hr0 := hD.rim _ (show dishSet f (dishPoint f v) from rfl) hS
  have hz0 : 0 ≤ (dishPoint f v).z := by unfold dishPoint; positivity
  set z := (dishPoint f v).z with hz
  have hzf : 0 < z + f := by linarith
  have hq0 : 0 ≤ (r.vertex + t • r.dir).z := by rw [show (r.vertex + t • r.dir).z = _ from hon]; positivity
  have hxy : 4 * f * z = v.x ^ 2 + v.y ^ 2 := by rw [hz]; unfold dishPoint; field_simp
  have key := focal_chord (f := f) (z := z) (u := t / (z + f)) (q := (r.vertex + t • r.dir).z) hf hz0 (by positivity)
    (by
      rw [hv, hd]
      unfold dishDir
      simp only [V3.add_z, V3.smul_z, V3.sub_z, ← hz]
      field_simp)
    (by
      have e : (r.vertex + t • r.dir).z = ((r.vertex + t • r.dir).x ^ 2 + (r.vertex + t • r.dir).y ^ 2) / (4 * f) := hon
      rw [e, hv, hd]
      unfold dishDir
      simp only [V3.add_x, V3.smul_x, V3.sub_x, V3.add_y, V3.smul_y, V3.sub_y, ← hz]
      have e1 : (dishPoint f v).x = v.x := rfl
      have e2 : (dishPoint f v).y = v.y := rfl
      rw [e1, e2, div_eq_iff (by positivity)]
      linear_combination (-(1 - t / (z + f)) ^ 2) * hxy)
  nlinarith

/-- The whole way of light that comes down on the dish. -/
theorem IsTube.dish_course (h : IsTube objs pol w x y lo hi eff ws front back refl) (h0 : 0 ≤ eff) (h1 : eff ≤ 1) {minE : ℝ} (hm : 0 ≤ minE)
    (hD : IsDish refl w f rim deff S) (hde : 0 ≤ deff) (hf : 0 < f) (hrim : rim < f) (hlo : rim ≤ lo) {r : Ray ℝ E}
    (hr : ComesDown x y lo hi f S r.vertex r.dir) (he : 0 ≤ r.energy)
    (hmin : minE < r.energy * deff * eff ^ reflections x y (crossing hi (dishPoint f r.vertex) (dishDir f r.vertex))) :
    ∃ P q τ, Course Surf.single (Surf.alone w) pol (Tracer.sites objs) minE ⟨r, none⟩ P ∧
      P.length = reflections x y (crossing hi (dishPoint f r.vertex) (dishDir f r.vertex)) + 2 ∧ toFront P = [(q, τ)] ∧
      q.energy = r.energy * deff * eff ^ reflections x y (crossing hi (dishPoint f r.vertex) (dishDir f r.vertex)) ∧
      q.at τ = foldPoint x y (crossing hi (dishPoint f r.vertex) (dishDir f r.vertex)) := by
  obtain ⟨hdown, hon, hhigh, hbeside, hslant, s, T, hs0, hs1, hent⟩ := hr
  have hup : 0 < (dishDir f r.vertex).z := lt_trans (by norm_num) hent.up
  have hcr := crossing_eq (v := dishPoint f r.vertex) (d := dishDir f r.vertex) (s := s) (T := T) hup hent.reach
  have hrx : ∀ t : ℝ, (r.at t).x = r.vertex.x := by intro t; unfold Ray.at; simp [hdown]
  have hry : ∀ t : ℝ, (r.at t).y = r.vertex.y := by intro t; unfold Ray.at; simp [hdown]
  have hrz : ∀ t : ℝ, (r.at t).z = r.vertex.z - t := by intro t; unfold Ray.at; simp [hdown]; ring
  have hne : r.dir ≠ 0 := by rw [hdown]; intro h; have := congrArg V3.z h; simp at this
  -- the dish is met
  set t := r.vertex.z - (dishPoint f r.vertex).z with htdef
  have ht : 1 / 10 ^ 6 < t := by linarith
  have hat : r.at t = dishPoint f r.vertex := by
    apply V3.ext
    · exact hrx t
    · exact hry t
    · rw [hrz, htdef]; ring
  have hsingle : refl.single r = (t : WithTop ℝ) := by
    have hfirst := hD.first r hne (Or.inr (by rw [hdown]; simp))
    have hmem : dishSet f (r.at t) ∧ S (r.at t) := by rw [hat]; exact ⟨rfl, hon⟩
    cases hp : refl.single r with
    | top => rw [hp] at hfirst; exact absurd hmem (hfirst t (lt_trans (by norm_num) ht))
    | coe u =>
      rw [hp] at hfirst
      obtain ⟨_, ⟨hu, _⟩, _⟩ := hfirst
      have e : (r.at u).z = ((r.at u).x ^ 2 + (r.at u).y ^ 2) / (4 * f) := hu
      rw [hrx, hry, hrz] at e
      congr 1
      have : (dishPoint f r.vertex).z = (r.vertex.x ^ 2 + r.vertex.y ^ 2) / (4 * f) := rfl
      linarith
  have honly : (⟨r, none⟩ : Going ℝ E).Only Surf.single pol (Tracer.sites objs) ⟨5, 0, refl⟩ t := by
    refine ⟨(h.sites _).2 (Or.inr (Or.inr (Or.inr rfl))), fun o j hl => by simp at hl, hsingle, by unfold dropTol; exact ht, ?_⟩
    intro z hz hne' _ t' ht' _
    rcases (h.sites z).1 hz with ⟨j, hj, rfl⟩ | rfl | rfl | rfl
    · have : V3.dot r.dir (tubeNormal j) = 0 := by
        rw [hdown]
        obtain rfl | rfl | rfl | rfl : j = 0 ∨ j = 1 ∨ j = 2 ∨ j = 3 := by omega
        all_goals simp [tubeNormal, V3.dot]
      have := (h.walls j hj).along r this
      simp only at ht'
      rw [this] at ht'
      exact absurd ht'.symm WithTop.coe_ne_top
    · obtain ⟨_, e1, e2⟩ := h.frontOn r t' ht'
      rw [hrx] at e1
      rw [hry] at e2
      rcases hbeside with hb | hb <;> linarith
    · obtain ⟨_, e1, e2⟩ := h.backOn r t' ht'
      rw [hrx] at e1
      rw [hry] at e2
      rcases hbeside with hb | hb <;> linarith
    · exact absurd ⟨rfl, rfl⟩ hne'
  obtain ⟨o, ho1, ho2, ho3, ho4⟩ := hD.out r t hdown hsingle
  -- later rays
  have hR : ∀ q : Ray ℝ E, lo ≤ q.vertex.z → |q.dir.x| = |(dishDir f r.vertex).x| → |q.dir.y| = |(dishDir f r.vertex).y| →
      q.dir.z = (dishDir f r.vertex).z → ∀ t : ℝ, refl.single q = (t : WithTop ℝ) → t ≤ selfTol := by
    intro q hq hx hy hz u hu
    exfalso
    have hqne : q.dir ≠ 0 := by intro h0; rw [h0] at hz; simp at hz; linarith
    have hfirst := hD.first q hqne (Or.inl (by rw [← sq_abs q.dir.x, ← sq_abs q.dir.y, hx, hy, sq_abs, sq_abs]; exact hslant))
    rw [hu] at hfirst
    obtain ⟨hu0, ⟨e1, e2⟩, _⟩ := hfirst
    have := hD.rim _ e1 e2
    simp only [V3.add_z, V3.smul_z, hz] at this
    have := mul_pos hu0 hup
    linarith
  have hos : o.at s = dishPoint f r.vertex + s • dishDir f r.vertex := by unfold Ray.at; rw [ho2, ho3]
  have hb : bounces x y (o.at s) o.dir T = reflections x y (crossing hi (dishPoint f r.vertex) (dishDir f r.vertex)) := by
    unfold bounces reflections
    rw [hcr, hos, ho3]
  generalize hN : reflections x y (crossing hi (dishPoint f r.vertex) (dishDir f r.vertex)) = N at *
  have hoe : 0 ≤ o.energy := by rw [ho4]; positivity
  obtain ⟨P, q, τ, c1, c2, c3, c4, c5⟩ := h.course h0 h1 hm hR N o (some (5, 0)) s T
    ⟨hs0, by
      rcases hs1 with hs1 | hs1
      · exact Or.inl hs1
      · rw [hos]; exact Or.inr ⟨hs1.le, hent.insideX, hent.insideY⟩⟩
    (by rw [hos, ho3]; exact hent.inTube) (by rw [ho3]) (by rw [ho3]) (by rw [ho3]) (Or.inr (Or.inl rfl))
    (fun u hu => absurd hu (hD.once hf hrim hon ho2 ho3 hslant u)) hb hoe (by rw [ho4]; exact hmin)
  have hlt : minE < o.energy := by
    rw [ho4]
    refine lt_of_lt_of_le hmin (mul_le_of_le_one_right (by positivity) (pow_le_one₀ h0 h1))
  refine ⟨⟨⟨r, none⟩, ⟨5, 0, refl⟩, t⟩ :: P, q, τ, .step _ _ _ o _ honly ho1 hlt c1, by simp [c2], ?_, by rw [c4, ho4], ?_⟩
  · unfold toFront at c3 ⊢
    simpa using c3
  · rw [c5, hos, ho3]
    unfold arrival foldPoint
    rw [hcr]

end
end Tracer
