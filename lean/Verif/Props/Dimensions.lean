import Verif.Props.Collectors
import Verif.Spec.Dimensions

/-!
# External dimensions of collectors (C78)
-/

set_option linter.unusedSectionVars false

namespace Tracer
open Real

variable {E σ : Type _}

theorem first_mem {I : ℝ → Prop} {S : V3 ℝ → Prop} {v d : V3 ℝ} {p : WithTop ℝ} {t : ℝ} (h : FirstAmong I S v d p) (hp : p = (t : WithTop ℝ)) :
    S (v + t • d) := by
  subst hp
  exact h.2.1

theorem mirror_meets {o : SceneObj σ ℝ E} {S : V3 ℝ → Prop} {front : V3 ℝ} {a f : ℝ} (h : o.IsMirror S front a) {s : SceneSurf σ ℝ E}
    (hs : s ∈ o.surfs) {p : V3 ℝ} (hp : s.Meets f p) : S p := by
  obtain ⟨s', hs', hreg⟩ := h.surface
  rw [hs', List.mem_singleton] at hs
  subst hs
  obtain ⟨rays, i, r, t, hr, _, _, hreg', rfl⟩ := hp
  obtain ⟨q, hq, h1, h2, _⟩ := hreg rays i r hr
  rw [hq] at hreg'
  have hqt := Option.some.inj hreg'
  by_cases hc : 1 / 10 ^ 10 < |V3.dot r.dir front|
  · exact first_mem (h1 hc) hqt
  · have := h2 (not_lt.1 hc)
    rw [this] at hqt
    exact absurd hqt (WithTop.top_ne_coe)

theorem plate_meets {s : SceneSurf σ ℝ E} {S : V3 ℝ → Prop} {front : V3 ℝ} {f : ℝ} (h : s.IsPlate S front) {p : V3 ℝ} (hp : s.Meets f p) : S p := by
  obtain ⟨hrig, hfr, w, l, hg, hS⟩ := h
  obtain ⟨rays, i, r, t, hr, _, _, hreg', rfl⟩ := hp
  obtain ⟨q, hq, h1, h2⟩ := C31_rect_plate hrig hg rays i r hr
  have hreg'' : (s.data.1.find s.temp rays)[i]? = some (t : WithTop ℝ) := hreg'
  rw [hq] at hreg''
  have hqt := Option.some.inj hreg''
  by_cases hc : 1 / 10 ^ 10 < |V3.dot r.dir s.temp.rot.c3|
  · exact (hS _).1 (first_mem (h1 hc) hqt)
  · have := h2 (not_lt.1 hc)
    rw [this] at hqt
    exact absurd hqt (WithTop.top_ne_coe)

theorem forall₂_left {α β : Type _} {R : α → β → Prop} {l : List α} {l' : List β} (h : List.Forall₂ R l l') : ∀ a ∈ l, ∃ b ∈ l', R a b := by
  induction h with
  | nil => intro a ha; cases ha
  | cons h1 _ ih =>
    intro a ha
    rcases List.mem_cons.1 ha with rfl | ha
    · exact ⟨_, List.mem_cons_self, h1⟩
    · obtain ⟨b, hb, h'⟩ := ih a ha
      exact ⟨b, List.mem_cons_of_mem _ hb, h'⟩

/-- What bounds a dish of the given aperture bounds a collector whose parts fit into it. -/
theorem collector_bounded {f d pos x y depth eff : ℝ} {get : σ → Account ℝ} {set : Account ℝ → σ → σ} (hx : 0 < x) (hy : 0 < y)
    (hfit : x ^ 2 + y ^ 2 ≤ d ^ 2) (hdp : depth ≤ pos) (hrim : d ^ 2 / (16 * f) ≤ pos) (hf : 0 < f)
    {walls : List (SceneObj σ ℝ E)} {receiver refl : SceneObj σ ℝ E} {dish : SceneSurf σ ℝ E} {aperture : V3 ℝ → Prop}
    (hap : ∀ q, aperture q → q.x ^ 2 + q.y ^ 2 ≤ (d / 2) ^ 2)
    (hw : List.Forall₂ (fun o s => ObjNode.IsMirror o s.1 s.2 eff) walls (hangingSides x y (pos - depth) pos))
    (hr : receiver.IsReceiver x y pos get set) (hl : refl.surfs = [dish])
    (hdish : ∀ p, dish.Meets f p → dishSet f p ∧ aperture p) :
    ∀ o ∈ walls ++ [receiver, refl], ∀ s ∈ o.surfs, ∀ p, s.Meets f p → cylinderXYZ d 0 (pos + 1 / 10 ^ 10) p := by
  have hbox : ∀ q : V3 ℝ, |q.x| ≤ x / 2 → |q.y| ≤ y / 2 → q.x ^ 2 + q.y ^ 2 ≤ (d / 2) ^ 2 := by
    intro q h1 h2
    have e1 : q.x ^ 2 ≤ (x / 2) ^ 2 := by
      rw [← sq_abs q.x]; exact pow_le_pow_left₀ (abs_nonneg _) h1 2
    have e2 : q.y ^ 2 ≤ (y / 2) ^ 2 := by
      rw [← sq_abs q.y]; exact pow_le_pow_left₀ (abs_nonneg _) h2 2
    linarith
  have hpos : 0 ≤ pos := le_trans (by positivity) hrim
  have htiny : (0 : ℝ) < 1 / 10 ^ 10 := by norm_num
  intro o ho s hs p hp
  rcases List.mem_append.1 ho with ho | ho
  · obtain ⟨side, hside, hm⟩ := forall₂_left hw o ho
    have hS := mirror_meets hm hs hp
    have hx2 : |x / 2| = x / 2 := abs_of_pos (by linarith)
    have hy2 : |y / 2| = y / 2 := abs_of_pos (by linarith)
    simp only [hangingSides, List.mem_cons, List.not_mem_nil, or_false] at hside
    rcases hside with rfl | rfl | rfl | rfl
    · exact ⟨hbox p (by rw [hS.1, hx2]) hS.2.1, by linarith [hS.2.2.1], by linarith [hS.2.2.2]⟩
    · exact ⟨hbox p (by rw [hS.1, abs_neg, hx2]) hS.2.1, by linarith [hS.2.2.1], by linarith [hS.2.2.2]⟩
    · exact ⟨hbox p hS.2.1 (by rw [hS.1, abs_neg, hy2]), by linarith [hS.2.2.1], by linarith [hS.2.2.2]⟩
    · exact ⟨hbox p hS.2.1 (by rw [hS.1, hy2]), by linarith [hS.2.2.1], by linarith [hS.2.2.2]⟩
  · simp only [List.mem_cons, List.not_mem_nil, or_false] at ho
    rcases ho with rfl | rfl
    · obtain ⟨front, back, hsurf, hfr, _, hbk, _⟩ := hr
      rw [hsurf] at hs
      simp only [List.mem_cons, List.not_mem_nil, or_false] at hs
      rcases hs with rfl | rfl
      · have h := plate_meets hfr hp
        exact ⟨hbox p h.2.1 h.2.2, by rw [h.1]; exact hpos, by rw [h.1]; linarith⟩
      · have h := plate_meets hbk hp
        exact ⟨hbox p h.2.1 h.2.2, by rw [h.1]; linarith, by rw [h.1]⟩
    · rw [hl, List.mem_singleton] at hs
      subst hs
      obtain ⟨h1, h2⟩ := hdish p hp
      have h3 := hap p h2
      have hz : p.z = (p.x ^ 2 + p.y ^ 2) / (4 * f) := h1
      refine ⟨h3, by rw [hz]; positivity, ?_⟩
      have : p.z ≤ d ^ 2 / (16 * f) := by
        rw [hz, div_le_div_iff₀ (by positivity) (by positivity)]
        have := mul_le_mul_of_nonneg_right h3 (by positivity : (0:ℝ) ≤ 16 * f)
        nlinarith
      linarith

/-- A dish is met in each point of its set. -/
theorem dish_meets {f : ℝ} (hf : 0 < f) (e : E) {dish : SceneSurf σ ℝ E} {aperture : V3 ℝ → Prop}
    (hdish : ∀ (rays : Bundle ℝ E) (i : Nat) (r : Ray ℝ E), rays[i]? = some r → r.dir ≠ 0 →
      (1 / 10 ^ 10 < offAxis 1 r.dir / (4 * f) ∨ offAxis 1 r.dir = 0) →
      ∃ p, (dish.surf.register rays)[i]? = some p ∧ FirstAmong (0 < ·) (fun q => dishSet f q ∧ aperture q) r.vertex r.dir p)
    (p : V3 ℝ) : dish.Meets f p ↔ dishSet f p ∧ aperture p := by
  constructor
  · rintro ⟨rays, i, r, t, hr, hne, hA, hreg, rfl⟩
    obtain ⟨q, hq, hfirst⟩ := hdish rays i r hr hne hA
    rw [hq] at hreg
    exact first_mem hfirst (Option.some.inj hreg)
  · intro hp
    have hne : (⟨0, 0, -1⟩ : V3 ℝ) ≠ 0 := by
      intro h; have := congrArg V3.z h; simp at this
    have hA : offAxis 1 (⟨0, 0, -1⟩ : V3 ℝ) = 0 := by
      unfold offAxis V3.dot V3.cross
      simp
    let r : Ray ℝ E := ⟨⟨p.x, p.y, p.z + 1⟩, ⟨0, 0, -1⟩, 1, 0, none, e⟩
    obtain ⟨q, hq, hfirst⟩ := hdish [r] 0 r rfl hne (Or.inr hA)
    have hat : r.vertex + (1 : ℝ) • r.dir = p := by
      apply V3.ext <;> simp [r]
    cases q with
    | top => exact absurd (by rw [hat]; exact hp) (hfirst 1 one_pos)
    | coe t =>
      refine ⟨[r], 0, r, t, rfl, hne, Or.inr hA, hq, ?_⟩
      have h1 : dishSet f (r.vertex + t • r.dir) := hfirst.2.1.1
      have h2 : dishSet f p := hp.1
      unfold dishSet at h1 h2
      simp only [r, V3.add_x, V3.add_y, V3.add_z, V3.smul_x, V3.smul_y, V3.smul_z, mul_zero, add_zero, mul_neg, mul_one] at h1
      rw [← h2] at h1
      have ht : t = 1 := by linarith
      rw [ht, hat]

/-- A plate that faces down is met in each of its points. -/
theorem plate_meets_iff {s : SceneSurf σ ℝ E} {S : V3 ℝ → Prop} {f : ℝ} (e : E) (h : s.IsPlate S ⟨0, 0, -1⟩) {z : ℝ} (hz : ∀ p, S p → p.z = z) {p : V3 ℝ} (hp : S p) :
    s.Meets f p := by
  have hrig := h.1
  have hfr := h.2.1
  obtain ⟨w, l, hg, hS⟩ := h.2.2
  have hne : (⟨0, 0, -1⟩ : V3 ℝ) ≠ 0 := by
    intro h; have := congrArg V3.z h; simp at this
  have hA : offAxis 1 (⟨0, 0, -1⟩ : V3 ℝ) = 0 := by
    unfold offAxis V3.dot V3.cross
    simp
  let r : Ray ℝ E := ⟨⟨p.x, p.y, p.z + 1⟩, ⟨0, 0, -1⟩, 1, 0, none, e⟩
  obtain ⟨q, hq, h1, _⟩ := C31_rect_plate hrig hg [r] 0 r rfl
  have hfirst := h1 (by rw [hfr]; simp [r, V3.dot]; norm_num)
  have hat : r.vertex + (1 : ℝ) • r.dir = p := by
    apply V3.ext <;> simp [r]
  cases q with
  | top => exact absurd (by rw [hat]; exact (hS p).2 hp) (hfirst 1 zero_le_one)
  | coe t =>
    refine ⟨[r], 0, r, t, rfl, hne, Or.inr hA, hq, ?_⟩
    have h2 := hz _ ((hS _).1 hfirst.2.1)
    have h3 := hz _ hp
    simp only [r, V3.add_z, V3.smul_z, mul_neg, mul_one] at h2
    have ht : t = 1 := by linarith
    rw [ht, hat]

/-- C78: if the receiver fits into the aperture and nothing of the homogenizer or the dish is below the dish's base or above the receiver,
then the external dimensions of a minidish are those of the smallest upright cylinder around it, but for the plate behind
the receiver's surface. -/
theorem C78_minidish {diameter focal side depth aspect receiverPos : ℝ} (hdia : 0 ≤ diameter) (hf : 0 < focal) (hs : 0 < side) (hd : 0 < depth) (ha : 0 < aspect)
    (hfit : side ^ 2 + (side * aspect) ^ 2 ≤ diameter ^ 2) (hdp : depth ≤ receiverPos) (hrim : diameter ^ 2 / (16 * focal) ≤ receiverPos)
    (dishEff homogEff : ℝ) (get : σ → Account ℝ) (set : Account ℝ → σ → σ) (junk : M3 ℝ) (e : E) :
    ∃ a : SceneAsm σ ℝ E, miniDish diameter focal dishEff receiverPos side depth homogEff aspect get set junk = .ok a ∧
      (∀ o ∈ a.getObjects, ∀ s ∈ o.surfs, ∀ p, s.Meets focal p →
        cylinderXYZ (externalDimensions diameter receiverPos).1 0 ((externalDimensions diameter receiverPos).2 + 1 / 10 ^ 10) p) ∧
      ∀ D lo hi, 0 ≤ D → (∀ o ∈ a.getObjects, ∀ s ∈ o.surfs, ∀ p, s.Meets focal p → cylinderXYZ D lo hi p) →
        (externalDimensions diameter receiverPos).1 ≤ D ∧ lo ≤ 0 ∧ (externalDimensions diameter receiverPos).2 ≤ hi := by
  obtain ⟨a, walls, receiver, refl, h1, h2, h3, h4, h5⟩ := C68_layout (σ := σ) (E := E)
    (Surface.new (parabolicDishGM diameter focal) (reflective (1 - dishEff)) 1) receiverPos hs (mul_pos hs ha) hd homogEff get set junk
  have hmeets := dish_meets (σ := σ) hf e (aperture := fun q => q.x ^ 2 + q.y ^ 2 ≤ (diameter / 2) ^ 2)
    (dish := ⟨1, 1, (parabolicDishGM diameter focal, reflective (1 - dishEff))⟩) (by
      intro rays i r hr hne hA
      obtain ⟨p, hp, hfirst⟩ := C37_dish (Tf.Rigid.one) hf rays i r hr hne hA (diameter := diameter)
      refine ⟨p, hp, ?_⟩
      have e : (Placed (1 : Tf ℝ) fun q => dishSet focal q ∧ q.x ^ 2 + q.y ^ 2 ≤ (diameter / 2) ^ 2) =
          fun q => dishSet focal q ∧ q.x ^ 2 + q.y ^ 2 ≤ (diameter / 2) ^ 2 := by
        funext q
        unfold Placed
        simp [Tf.one_point]
      rwa [e] at hfirst)
  refine ⟨a, h1, ?_, ?_⟩
  · rw [h2]
    exact collector_bounded hs (mul_pos hs ha) hfit hdp hrim hf (fun q hq => hq) h3 h4 h5 fun p hp => (hmeets p).1 hp
  · intro D lo hi hD hall
    rw [h2] at hall
    have hrefl : ∀ p, dishSet focal p → p.x ^ 2 + p.y ^ 2 ≤ (diameter / 2) ^ 2 → cylinderXYZ D lo hi p := by
      intro p hp1 hp2
      refine hall refl (by simp) _ (by rw [h5]; exact List.mem_singleton.2 rfl) p ((hmeets p).2 ⟨hp1, hp2⟩)
    have hr0 := hrefl ⟨0, 0, 0⟩ (by unfold dishSet; simp) (by simp; positivity)
    have hr1 := hrefl ⟨diameter / 2, 0, (diameter / 2) ^ 2 / (4 * focal)⟩ (by unfold dishSet; simp) (by simp)
    obtain ⟨front, back, hsurf, hfr, _⟩ := h4
    have hr2 := hall receiver (by simp) front (by rw [hsurf]; simp) ⟨0, 0, receiverPos⟩
      (plate_meets_iff e hfr (z := receiverPos) (fun p hp => hp.1) ⟨rfl, by simp; positivity, by simp; positivity⟩)
    refine ⟨?_, hr0.2.1, hr2.2.2⟩
    have := hr1.1
    simp only at this
    have h' : (diameter / 2) ^ 2 ≤ (D / 2) ^ 2 := by linarith
    have h'' := (sq_le_sq₀ (by positivity) (by positivity)).1 h'
    show diameter ≤ D
    linarith

example : ∃ a : SceneAsm (Account ℝ) ℝ Unit, miniDish 22 13 (9 / 10) 14 1 (1 / 2) (9 / 10) 2 id (fun a _ => a) 1 = .ok a ∧
    ∀ o ∈ a.getObjects, ∀ s ∈ o.surfs, ∀ p, s.Meets 13 p → cylinderXYZ 22 0 (14 + 1 / 10 ^ 10) p := by
  obtain ⟨a, h1, h2, _⟩ := C78_minidish (σ := Account ℝ) (E := Unit) (diameter := 22) (focal := 13) (side := 1) (depth := 1 / 2) (aspect := 2) (receiverPos := 14)
    (by norm_num) (by norm_num) (by norm_num) (by norm_num) (by norm_num) (by norm_num) (by norm_num) (by norm_num) (9 / 10) (9 / 10) id (fun a _ => a) 1 ()
  exact ⟨a, h1, h2⟩

theorem hexagon_circle {R : ℝ} {q : V3 ℝ} (h : hexagon R q) : q.x ^ 2 + q.y ^ 2 ≤ R ^ 2 := by
  have hs : √3 * √3 = 3 := Real.mul_self_sqrt (by norm_num)
  have h3 : (0 : ℝ) < √3 := Real.sqrt_pos.2 (by norm_num)
  have k0 := h 0
  have k1 := h 1
  have k2 := h 2
  have k3 := h 3
  have k4 := h 4
  have k5 := h 5
  have c2 : cos (2 * (π / 3)) = -(1 / 2) := by
    rw [show 2 * (π / 3) = π - π / 3 by ring, cos_pi_sub, cos_pi_div_three]
  have s2 : sin (2 * (π / 3)) = √3 / 2 := by
    rw [show 2 * (π / 3) = π - π / 3 by ring, sin_pi_sub, sin_pi_div_three]
  have c3 : cos (3 * (π / 3)) = -1 := by rw [show 3 * (π / 3) = π by ring, cos_pi]
  have s3 : sin (3 * (π / 3)) = 0 := by rw [show 3 * (π / 3) = π by ring, sin_pi]
  have c4 : cos (4 * (π / 3)) = -(1 / 2) := by
    rw [show 4 * (π / 3) = π / 3 + π by ring, cos_add_pi, cos_pi_div_three]
  have s4 : sin (4 * (π / 3)) = -(√3 / 2) := by
    rw [show 4 * (π / 3) = π / 3 + π by ring, sin_add_pi, sin_pi_div_three]
  have c5 : cos (5 * (π / 3)) = 1 / 2 := by
    rw [show 5 * (π / 3) = 2 * π - π / 3 by ring, cos_two_pi_sub, cos_pi_div_three]
  have s5 : sin (5 * (π / 3)) = -(√3 / 2) := by
    rw [show 5 * (π / 3) = 2 * π - π / 3 by ring, sin_two_pi_sub, sin_pi_div_three]
  norm_num [cos_pi_div_six, cos_pi_div_three, sin_pi_div_three, c2, s2, c3, s3, c4, s4, c5, s5] at k0 k1 k2 k3 k4 k5
  -- with a = |x| and b = |y|: a ≤ R √3 / 2 and a / 2 + b √3 / 2 ≤ R √3 / 2
  have hx : |q.x| ≤ R * (√3 / 2) := abs_le.2 ⟨by linarith, by linarith⟩
  have hxy : |q.x| * (1 / 2) + |q.y| * (√3 / 2) ≤ R * (√3 / 2) := by
    rcases abs_cases q.x with ⟨e1, _⟩ | ⟨e1, _⟩ <;> rcases abs_cases q.y with ⟨e2, _⟩ | ⟨e2, _⟩ <;> rw [e1, e2] <;> linarith
  rw [← sq_abs q.x, ← sq_abs q.y]
  have ha := abs_nonneg q.x
  have hb := abs_nonneg q.y
  generalize |q.x| = a at hx hxy ha ⊢
  generalize |q.y| = b at hxy hb ⊢
  have hR : 0 ≤ R := by
    by_contra hc
    have : R * (√3 / 2) < 0 := mul_neg_of_neg_of_pos (not_le.1 hc) (by positivity)
    linarith
  have hb' : b ≤ R - a * √3 / 3 := by
    have : b * (√3 / 2) ≤ (R - a * √3 / 3) * (√3 / 2) := by
      have e : (R - a * √3 / 3) * (√3 / 2) = R * (√3 / 2) - a * (√3 * √3) / 6 := by ring
      rw [e, hs]; linarith
    exact le_of_mul_le_mul_right this (by positivity)
  have h1 : b ^ 2 ≤ (R - a * √3 / 3) ^ 2 := pow_le_pow_left₀ hb hb' 2
  have h2 : (R - a * √3 / 3) ^ 2 = R ^ 2 - 2 * a * R * √3 / 3 + a ^ 2 * (√3 * √3) / 9 := by ring
  have h4 : a * a ≤ a * (R * (√3 / 2)) := mul_le_mul_of_nonneg_left hx ha
  rw [h2, hs] at h1
  nlinarith

theorem hexagon_corner {R : ℝ} (hR : 0 ≤ R) (z : ℝ) : hexagon R ⟨0, R, z⟩ := by
  intro k
  simp only [zero_mul, zero_add, cos_pi_div_six]
  refine mul_le_mul_of_nonneg_left ?_ hR
  have s2 : sin (2 * (π / 3)) = √3 / 2 := by
    rw [show 2 * (π / 3) = π - π / 3 by ring, sin_pi_sub, sin_pi_div_three]
  have s3 : sin (3 * (π / 3)) = 0 := by rw [show 3 * (π / 3) = π by ring, sin_pi]
  have s4 : sin (4 * (π / 3)) = -(√3 / 2) := by
    rw [show 4 * (π / 3) = π / 3 + π by ring, sin_add_pi, sin_pi_div_three]
  have s5 : sin (5 * (π / 3)) = -(√3 / 2) := by
    rw [show 5 * (π / 3) = 2 * π - π / 3 by ring, sin_two_pi_sub, sin_pi_div_three]
  have h3 : (0 : ℝ) ≤ √3 := Real.sqrt_nonneg _
  fin_cases k <;> norm_num [sin_pi_div_three, s2, s3, s4, s5] <;> linarith

/-- C78: the same for a PETAL collector, whose diameter is that of the circle around its hexagon. -/
theorem C78_petal {diameter focal side depth aspect receiverPos : ℝ} (hdia : 0 ≤ diameter) (hf : 0 < focal) (hs : 0 < side) (hd : 0 < depth) (ha : 0 < aspect)
    (hfit : side ^ 2 + (side * aspect) ^ 2 ≤ diameter ^ 2) (hdp : depth ≤ receiverPos) (hrim : diameter ^ 2 / (16 * focal) ≤ receiverPos)
    (dishEff homogEff : ℝ) (get : σ → Account ℝ) (set : Account ℝ → σ → σ) (junk : M3 ℝ) (e : E) :
    ∃ a : SceneAsm σ ℝ E, petal diameter focal dishEff receiverPos side depth homogEff aspect get set junk = .ok a ∧
      (∀ o ∈ a.getObjects, ∀ s ∈ o.surfs, ∀ p, s.Meets focal p →
        cylinderXYZ (externalDimensions diameter receiverPos).1 0 ((externalDimensions diameter receiverPos).2 + 1 / 10 ^ 10) p) ∧
      ∀ D lo hi, 0 ≤ D → (∀ o ∈ a.getObjects, ∀ s ∈ o.surfs, ∀ p, s.Meets focal p → cylinderXYZ D lo hi p) →
        (externalDimensions diameter receiverPos).1 ≤ D ∧ lo ≤ 0 ∧ (externalDimensions diameter receiverPos).2 ≤ hi := by
  obtain ⟨a, walls, receiver, refl, dish, h1, h2, h3, h4, h5, h6, _⟩ := C68_petal (σ := σ) (E := E) diameter hf hs hd ha dishEff receiverPos homogEff get set junk
  have hmeets := dish_meets (σ := σ) hf e h6
  refine ⟨a, h1, ?_, ?_⟩
  · rw [h2]
    exact collector_bounded hs (mul_pos hs ha) hfit hdp hrim hf (fun q hq => hexagon_circle hq) h3 h4 h5 fun p hp => (hmeets p).1 hp
  · intro D lo hi hD hall
    rw [h2] at hall
    have hrefl : ∀ p, dishSet focal p → hexagon (diameter / 2) p → cylinderXYZ D lo hi p := by
      intro p hp1 hp2
      refine hall refl (by simp) _ (by rw [h5]; exact List.mem_singleton.2 rfl) p ((hmeets p).2 ⟨hp1, hp2⟩)
    have hr0 := hrefl ⟨0, 0, 0⟩ (by unfold dishSet; simp) (by
      intro k
      simp only [zero_mul, zero_add, cos_pi_div_six]
      positivity)
    have hr1 := hrefl ⟨0, diameter / 2, (diameter / 2) ^ 2 / (4 * focal)⟩ (by unfold dishSet; simp) (hexagon_corner (by positivity) _)
    obtain ⟨front, back, hsurf, hfr, _⟩ := h4
    have hr2 := hall receiver (by simp) front (by rw [hsurf]; simp) ⟨0, 0, receiverPos⟩
      (plate_meets_iff e hfr (z := receiverPos) (fun p hp => hp.1) ⟨rfl, by simp; positivity, by simp; positivity⟩)
    refine ⟨?_, hr0.2.1, hr2.2.2⟩
    have := hr1.1
    simp only at this
    have h' : (diameter / 2) ^ 2 ≤ (D / 2) ^ 2 := by linarith
    have h'' := (sq_le_sq₀ (by positivity) (by positivity)).1 h'
    show diameter ≤ D
    linarith

/-- The hypotheses are met by a collector of the PETAL's size. -/
example : ∃ a : SceneAsm (Account ℝ) ℝ Unit, petal 22 13 (9 / 10) 14 1 (1 / 2) (9 / 10) 2 id (fun a _ => a) 1 = .ok a ∧
    ∀ o ∈ a.getObjects, ∀ s ∈ o.surfs, ∀ p, s.Meets 13 p → cylinderXYZ 22 0 (14 + 1 / 10 ^ 10) p := by
  obtain ⟨a, h1, h2, _⟩ := C78_petal (σ := Account ℝ) (E := Unit) (diameter := 22) (focal := 13) (side := 1) (depth := 1 / 2) (aspect := 2) (receiverPos := 14)
    (by norm_num) (by norm_num) (by norm_num) (by norm_num) (by norm_num) (by norm_num) (by norm_num) (by norm_num) (9 / 10) (9 / 10) id (fun a _ => a) 1 ()
  exact ⟨a, h1, h2⟩

/-- C78: standard minidishes whose receiver is smaller than the square inscribed in their aperture meet the conditions of `C78_minidish`. -/
theorem C78_standard_minidish {diameter concentration virtSources : ℝ} (hd : 0 < diameter) (hc : π / 2 ≤ concentration) (hv : 0 ≤ virtSources)
    (hn : (virtSources + 1) * (diameter / 2 * √(π / concentration)) < diameter)
    (dishEff homogEff : ℝ) (get : σ → Account ℝ) (set : Account ℝ → σ → σ) (junk : M3 ℝ) (e : E) :
    ∃ (a : SceneAsm σ ℝ E) (f W H : ℝ), standardMinidish diameter concentration virtSources dishEff homogEff get set junk = .ok (a, f, W, H) ∧
      (∀ o ∈ a.getObjects, ∀ s ∈ o.surfs, ∀ p, s.Meets f p →
        cylinderXYZ (externalDimensions diameter (f + H)).1 0 ((externalDimensions diameter (f + H)).2 + 1 / 10 ^ 10) p) ∧
      ∀ D lo hi, 0 ≤ D → (∀ o ∈ a.getObjects, ∀ s ∈ o.surfs, ∀ p, s.Meets f p → cylinderXYZ D lo hi p) →
        (externalDimensions diameter (f + H)).1 ≤ D ∧ lo ≤ 0 ∧ (externalDimensions diameter (f + H)).2 ≤ hi := by
  have hcpos : 0 < concentration := lt_of_lt_of_le (by positivity) hc
  obtain ⟨f, W, H, hm, hf, hW, hH, _⟩ := C63_measures hd hcpos hv hn
  have hpc : 0 < π / concentration := div_pos pi_pos hcpos
  have hm' := hm
  unfold standardMinidishMeasures at hm'
  simp only at hm'
  rw [if_neg hcpos.ne', if_neg (not_lt.2 hpc.le), if_neg (by linarith)] at hm'
  simp only [Except.ok.injEq, Prod.mk.injEq] at hm'
  have hs2 : √2 * √2 = 2 := Real.mul_self_sqrt (by norm_num)
  have h2pos : (0 : ℝ) ≤ √2 := Real.sqrt_nonneg _
  have h21 : 1 < √2 := by
    rw [Real.lt_sqrt (by norm_num)]; norm_num
  have hf4 : 4 * f * (√2 - 1) = diameter := by
    have hne : √2 - 1 ≠ 0 := by linarith
    rw [← hm'.1]; field_simp
  have hfit : W ^ 2 + (W * 1) ^ 2 ≤ diameter ^ 2 := by
    rw [← hm'.2.1, mul_one]
    have : (diameter / 2 * √(π / concentration)) ^ 2 = diameter ^ 2 / 4 * (π / concentration) := by
      rw [mul_pow, Real.sq_sqrt hpc.le]; ring
    rw [this]
    have h2 : π / concentration ≤ 2 := by rw [div_le_iff₀ hcpos]; linarith
    nlinarith [sq_nonneg diameter]
  have hrim : diameter ^ 2 / (16 * f) ≤ f + H := by
    have : diameter ^ 2 / (16 * f) ≤ f := by
      rw [div_le_iff₀ (by positivity), ← hf4]
      have : (√2 - 1) ^ 2 ≤ 1 := by nlinarith
      nlinarith [mul_le_mul_of_nonneg_left this (by positivity : (0:ℝ) ≤ 16 * f * f)]
    linarith
  obtain ⟨a, h1, h2, h3⟩ := C78_minidish (σ := σ) (E := E) hd.le hf hW hH one_pos hfit (by linarith : H ≤ f + H) hrim dishEff homogEff get set junk e
  refine ⟨a, f, W, H, ?_, h2, h3⟩
  unfold standardMinidish
  rw [hm]
  simp only
  rw [h1]

/-- The hypotheses are met by the minidish of the package's examples: concentration 500, one virtual source. -/
example : ∃ (a : SceneAsm (Account ℝ) ℝ Unit) (f W H : ℝ), standardMinidish 1 500 1 (9 / 10) (9 / 10) id (fun a _ => a) 1 = .ok (a, f, W, H) ∧
    ∀ o ∈ a.getObjects, ∀ s ∈ o.surfs, ∀ p, s.Meets f p → cylinderXYZ 1 0 (f + H + 1 / 10 ^ 10) p := by
  have hpi := pi_le_four
  obtain ⟨a, f, W, H, h1, h2, _⟩ := C78_standard_minidish (σ := Account ℝ) (E := Unit) (diameter := 1) (concentration := 500) (virtSources := 1)
    (by norm_num) (by linarith) (by norm_num) (by
      have : √(π / 500) < 1 := by
        rw [Real.sqrt_lt' one_pos]; rw [div_lt_iff₀ (by norm_num)]; linarith
      linarith) (9 / 10) (9 / 10) id (fun a _ => a) 1 ()
  exact ⟨a, f, W, H, h1, h2⟩

end Tracer
