import Verif.Props.Following
import Verif.Props.Collectors

/-!
# How much of the sun's light a standard minidish absorbs (C105)
-/

namespace Tracer

open Real

variable {E σ : Type _}

/-! ## Where the light crosses the plane of the receiver -/

theorem natAbs_cellOf_le {w : ℝ} (hw : 0 < w) (u : ℝ) : ((cellOf w u).natAbs : ℝ) ≤ |u| / w + 1 / 2 := by
  have h1 := Int.floor_le (u / w + 1 / 2)
  have h2 := Int.lt_floor_add_one (u / w + 1 / 2)
  have h3 : |u| / w = |u / w| := by rw [abs_div, abs_of_pos hw]
  have h4 := neg_abs_le (u / w)
  have h5 := le_abs_self (u / w)
  rw [h3, Nat.cast_natAbs, Int.cast_abs]
  unfold cellOf
  exact abs_le.2 ⟨by linarith, by linarith⟩

theorem abs_foldInto_le {w : ℝ} (hw : 0 < w) (u : ℝ) : |foldInto w u| ≤ w / 2 := by
  have h1 := Int.floor_le (u / w + 1 / 2)
  have h2 := Int.lt_floor_add_one (u / w + 1 / 2)
  have e : u = u / w * w := by field_simp
  have h3 : (cellOf w u : ℝ) * w ≤ u + w / 2 := by
    have := mul_le_mul_of_nonneg_right h1 hw.le
    unfold cellOf
    linarith
  have h4 : u + w / 2 < ((cellOf w u : ℝ) + 1) * w := by
    have := mul_lt_mul_of_pos_right h2 hw
    unfold cellOf
    linarith
  unfold foldInto
  split
  · exact abs_le.2 ⟨by linarith, by linarith⟩
  · exact abs_le.2 ⟨by linarith, by linarith⟩

/-- Light that is parallel to the axis of a dish with a rim angle of 45 degrees crosses a plane beyond the focus no farther from the axis than the
plane is from the focus. -/
theorem crossing_within {f R H : ℝ} (hf : 0 < f) (hR : 0 ≤ R) (hH : 0 ≤ H) (hrim : R = f - R ^ 2 / (4 * f)) {v : V3 ℝ} (hv : v.x ^ 2 + v.y ^ 2 ≤ R ^ 2) :
    (crossing (f + H) (dishPoint f v) (dishDir f v)).x ^ 2 + (crossing (f + H) (dishPoint f v) (dishDir f v)).y ^ 2 ≤ H ^ 2 ∧
      (crossing (f + H) (dishPoint f v) (dishDir f v)).z = f + H := by
  have hz0 : 0 ≤ (v.x ^ 2 + v.y ^ 2) / (4 * f) := by positivity
  have hz1 : (v.x ^ 2 + v.y ^ 2) / (4 * f) ≤ R ^ 2 / (4 * f) := div_le_div_of_nonneg_right hv (by positivity)
  have hRlt : 0 < f - R ^ 2 / (4 * f) := by
    rcases hR.eq_or_lt with h | h
    · subst h
      simpa using hf
    · linarith
  unfold crossing dishDir dishPoint
  simp only [V3.add_x, V3.add_y, V3.add_z, V3.smul_x, V3.smul_y, V3.smul_z, V3.sub_x, V3.sub_y, V3.sub_z]
  generalize hz : (v.x ^ 2 + v.y ^ 2) / (4 * f) = z at *
  have hfz : 0 < f - z := by linarith
  have hzf : 0 < z + f := by linarith
  have ex : ∀ x : ℝ, x + (f + H - z) / (1 / (z + f) * (f - z)) * (1 / (z + f) * (0 - x)) = -(x * (H / (f - z))) := by
    intro x
    field_simp
    ring
  refine ⟨?_, by field_simp; ring⟩
  rw [ex, ex]
  have h1 : R ≤ f - z := by linarith
  have h2 : v.x ^ 2 + v.y ^ 2 ≤ (f - z) ^ 2 := hv.trans (pow_le_pow_left₀ hR h1 2)
  have e : (-(v.x * (H / (f - z)))) ^ 2 + (-(v.y * (H / (f - z)))) ^ 2 = (v.x ^ 2 + v.y ^ 2) * H ^ 2 / (f - z) ^ 2 := by
    field_simp
  rw [e, div_le_iff₀ (by positivity), mul_comm (H ^ 2)]
  exact mul_le_mul_of_nonneg_right h2 (sq_nonneg H)

theorem reflections_le {W H : ℝ} (hW : 0 < W) (hH : 0 ≤ H) {u : V3 ℝ} (hu : u.x ^ 2 + u.y ^ 2 ≤ H ^ 2) :
    reflections W W u ≤ ⌊√2 * (H / W) + 1⌋₊ := by
  apply Nat.le_floor
  unfold reflections
  push_cast
  have h1 := natAbs_cellOf_le hW u.x
  have h2 := natAbs_cellOf_le hW u.y
  have h3 : |u.x| + |u.y| ≤ √2 * H := by
    apply abs_le_of_sq_le_sq' _ (by positivity) |>.2
    rw [mul_pow, sq_sqrt (by norm_num)]
    nlinarith [sq_nonneg (|u.x| - |u.y|), sq_abs u.x, sq_abs u.y]
  have h4 : |u.x| / W + |u.y| / W ≤ √2 * (H / W) := by
    rw [← add_div, ← mul_div_assoc]
    exact div_le_div_of_nonneg_right h3 hW.le
  linarith

/-! ## The standard minidish -/

/-- C105: a ray of parallel light is reflected at most `√2 H / W + 1` times in the homogenizer of a standard minidish, where `H` is the length of
the homogenizer and `W` its width. -/
theorem C105_reflections {diameter concentration virtSources f W H : ℝ} (hD : 0 < diameter) (hc : 0 < concentration) (hv : 0 ≤ virtSources)
    (hn : (virtSources + 1) * (diameter / 2 * √(π / concentration)) < diameter)
    (hme : standardMinidishMeasures diameter concentration virtSources = .ok (f, W, H)) {v : V3 ℝ} (hin : v.x ^ 2 + v.y ^ 2 ≤ (diameter / 2) ^ 2) :
    reflections W W (crossing (f + H) (dishPoint f v) (dishDir f v)) ≤ ⌊√2 * (H / W) + 1⌋₊ := by
  obtain ⟨f', W', H', hme', hf, hW, hH, hrim, _⟩ := C63_measures hD hc hv hn
  rw [hme] at hme'
  cases hme'
  obtain ⟨_, hr⟩ := hrim ⟨diameter / 2, 0, (diameter / 2) ^ 2 / (4 * f)⟩ (by unfold dishSet; simp) (by simp)
  have e : √((diameter / 2) ^ 2 + 0 ^ 2) = diameter / 2 := by
    rw [zero_pow two_ne_zero, add_zero, sqrt_sq (by linarith)]
  rw [tan_pi_div_four, one_mul, e] at hr
  exact reflections_le hW hH.le (crossing_within hf (by linarith) hH.le hr hin).1

/-- C105: a standard minidish that points at the sun. -/
theorem C105_efficiency {diameter concentration virtSources dishEff homogEff minE f W H : ℝ} (hD : 0 < diameter) (hc : 0 < concentration)
    (hv : 0 ≤ virtSources) (hn : (virtSources + 1) * (diameter / 2 * √(π / concentration)) < diameter)
    (hde : 0 ≤ dishEff) (h0 : 0 ≤ homogEff) (h1 : homogEff ≤ 1) (hm : 0 ≤ minE) {get : σ → Account ℝ} {set : Account ℝ → σ → σ}
    (hmem : Memory get set) {w : σ} (hw : get w = Account.reset) (junk : M3 ℝ) {T : Tf ℝ} (hT : T.Rigid) (before : List (Tf ℝ))
    {b : Bundle ℝ E} {reps : Nat}
    (hme : standardMinidishMeasures diameter concentration virtSources = .ok (f, W, H))
    (hin : ∀ r ∈ b, ComesDown W W f (f + H) f (fun q => q.x ^ 2 + q.y ^ 2 ≤ (diameter / 2) ^ 2) r.vertex r.dir)
    (hen : ∀ r ∈ b, 0 ≤ r.energy ∧ minE < r.energy * dishEff * homogEff ^ ⌊√2 * (H / W) + 1⌋₊) (hreps : ⌊√2 * (H / W) + 1⌋₊ + 2 ≤ reps) :
    ∃ a res es ps, standardMinidish diameter concentration virtSources dishEff homogEff get set junk = .ok (a, f, W, H) ∧
      rayTracer (a.turned before T).scene w (b.map (Ray.move T)) reps minE true = .ok res ∧
      (get res.world).getAllHits = .ok (es, ps) ∧ es.length = b.length ∧ ps.length = b.length ∧
      dishEff * homogEff ^ ⌊√2 * (H / W) + 1⌋₊ * (b.map Ray.energy).sum ≤ es.sum ∧ es.sum ≤ dishEff * (b.map Ray.energy).sum ∧
      (homogEff = 1 → es.sum = dishEff * (b.map Ray.energy).sum) ∧
      ∀ p ∈ ps, ∃ q : V3 ℝ, p = T.point q ∧ |q.x| ≤ W / 2 ∧ |q.y| ≤ W / 2 ∧ q.z = f + H := by
  obtain ⟨f', W', H', hme', hf, hW, hH, hrim, _⟩ := C63_measures hD hc hv hn
  rw [hme] at hme'
  cases hme'
  obtain ⟨hlt, hr⟩ := hrim ⟨diameter / 2, 0, (diameter / 2) ^ 2 / (4 * f)⟩ (by unfold dishSet; simp) (by simp)
  have e : √((diameter / 2) ^ 2 + 0 ^ 2) = diameter / 2 := by
    rw [zero_pow two_ne_zero, add_zero, sqrt_sq (by linarith)]
  rw [tan_pi_div_four, one_mul, e] at hr
  have hlt' : diameter ^ 2 / (16 * f) < f := by
    have e : diameter ^ 2 / (16 * f) = (diameter / 2) ^ 2 / (4 * f) := by field_simp; ring
    rw [e]
    exact hlt
  have h4 : diameter < 4 * f := by
    have : 0 < (diameter / 2) ^ 2 / (4 * f) := by positivity
    simp only at hr
    linarith
  set N := ⌊√2 * (H / W) + 1⌋₊ with hN
  have hrefl : ∀ r ∈ b, reflections W W (crossing (f + H) (dishPoint f r.vertex) (dishDir f r.vertex)) ≤ N := fun r hr' =>
    C105_reflections hD hc hv hn hme (by simpa only [dishPoint] using (hin r hr').onDish)
  have hpow : ∀ r ∈ b, homogEff ^ N ≤ homogEff ^ reflections W W (crossing (f + H) (dishPoint f r.vertex) (dishDir f r.vertex)) ∧
      homogEff ^ reflections W W (crossing (f + H) (dishPoint f r.vertex) (dishDir f r.vertex)) ≤ 1 := fun r hr' =>
    ⟨pow_le_pow_of_le_one h0 h1 (hrefl r hr'), pow_le_one₀ h0 h1⟩
  obtain ⟨a, res, es, ps, e1, e2, e3, e4, e5⟩ := C103_minidish (T := T) (b := b) (w := w) (reps := reps) (minE := minE) (aspect := 1) (side := W) (depth := H)
    (receiverPos := f + H) (focal := f) (dishEff := dishEff) (homogEff := homogEff) hD hW hH one_pos h4
    (by rw [add_sub_cancel_right]; exact hlt'.le) hde h0 h1 hm hmem hw junk hT before
    (by simpa only [mul_one, add_sub_cancel_right] using hin)
    (by
      intro r hr'
      rw [mul_one]
      refine ⟨(hen r hr').1, (hen r hr').2.trans_le ?_, by have := hrefl r hr'; omega⟩
      exact mul_le_mul_of_nonneg_left (hpow r hr').1 (mul_nonneg (hen r hr').1 hde))
  rw [mul_one] at e5
  have hes : es.Perm (b.map fun r => r.energy * dishEff * homogEff ^ reflections W W (crossing (f + H) (dishPoint f r.vertex) (dishDir f r.vertex))) := by
    have := e5.map Prod.fst
    rwa [List.map_fst_zip e4.le, List.map_map] at this
  have hps : ps.Perm (b.map fun r => T.point (foldPoint W W (crossing (f + H) (dishPoint f r.vertex) (dishDir f r.vertex)))) := by
    have := e5.map Prod.snd
    rwa [List.map_snd_zip e4.ge, List.map_map] at this
  refine ⟨a, res, es, ps, ?_, e2, e3, by simpa using hes.length_eq, by simpa using hps.length_eq, ?_, ?_, ?_, ?_⟩
  · unfold standardMinidish
    rw [hme]
    simp only
    rw [e1]
  · rw [hes.sum_eq, ← List.sum_map_mul_left]
    refine List.sum_le_sum fun r hr' => ?_
    have := mul_le_mul_of_nonneg_left (hpow r hr').1 (mul_nonneg (hen r hr').1 hde)
    linarith
  · rw [hes.sum_eq, ← List.sum_map_mul_left]
    refine List.sum_le_sum fun r hr' => ?_
    have := mul_le_mul_of_nonneg_left (hpow r hr').2 (mul_nonneg (hen r hr').1 hde)
    linarith
  · rintro rfl
    rw [hes.sum_eq, ← List.sum_map_mul_left]
    refine congrArg List.sum (List.map_congr_left fun r _ => ?_)
    rw [one_pow]
    ring
  · intro p hp
    obtain ⟨r, hr', rfl⟩ := List.mem_map.1 (hps.mem_iff.1 hp)
    exact ⟨_, rfl, abs_foldInto_le hW _, abs_foldInto_le hW _,
      (crossing_within hf (by linarith) hH.le hr (by simpa only [dishPoint] using (hin r hr').onDish)).2⟩

/-! ## A concrete case -/

/-- The standard minidish of the example to `C86_standard_minidish`, turned and moved: a ray of energy 10 beside its receiver. -/
example : ∃ (H : ℝ) (a : SceneAsm (Account ℝ) ℝ Unit) (res : TraceResult (Account ℝ) ℝ Unit) (es : List ℝ) (ps : List (V3 ℝ)),
    standardMinidish (4 * (√2 - 1)) (π * (2 * (√2 - 1)) ^ 2 * 25) 0 (9 / 10) (1 / 2) id (fun acc _ => acc) (1 : M3 ℝ) = .ok (a, 1, 1 / 5, H) ∧
    rayTracer (a.turned [rotx 1, roty 2] (translate 1 2 3 * rotx 4)).scene (Account.reset : Account ℝ)
      ([(⟨⟨4 / 5, 0, 2⟩, ⟨0, 0, -1⟩, 10, 0, none, ()⟩ : Ray ℝ Unit)].map (Ray.move (translate 1 2 3 * rotx 4)))
      (⌊√2 * (H / (1 / 5)) + 1⌋₊ + 2) 0 true = .ok res ∧
    res.world.getAllHits = .ok (es, ps) ∧ es.length = 1 ∧ 9 * (1 / 2) ^ ⌊√2 * (H / (1 / 5)) + 1⌋₊ ≤ es.sum ∧ es.sum ≤ 9 := by
  obtain ⟨H, h1, h2, h3, h4, h5⟩ := Examples.standard_example
  have hT : (translate 1 2 3 * rotx 4).Rigid := ((C26_rigid 4 1 2 3).2.2.2.1).mul (C26_rigid 4 0 0 0).1
  obtain ⟨a, res, es, ps, e1, e2, e3, e4, _, e5, e6, _⟩ := C105_efficiency (get := id) (set := fun acc (_ : Account ℝ) => acc) (minE := 0)
    (dishEff := 9 / 10) (homogEff := 1 / 2) (w := Account.reset) (b := [(⟨⟨4 / 5, 0, 2⟩, ⟨0, 0, -1⟩, 10, 0, none, ()⟩ : Ray ℝ Unit)])
    h1 h2 le_rfl h3 (by norm_num) (by norm_num) (by norm_num) le_rfl ⟨fun _ _ => rfl, fun _ _ _ => rfl, fun _ => rfl⟩ rfl 1 hT [rotx 1, roty 2] h4
    (by
      intro r hr
      rw [List.mem_singleton] at hr
      subst hr
      exact h5)
    (by
      intro r hr
      rw [List.mem_singleton] at hr
      subst hr
      exact ⟨by norm_num, by positivity⟩) le_rfl
  refine ⟨H, a, res, es, ps, e1, e2, e3, e4, ?_, ?_⟩
  · simp only [List.map_cons, List.map_nil, List.sum_cons, List.sum_nil] at e5
    linarith
  · simp only [List.map_cons, List.map_nil, List.sum_cons, List.sum_nil] at e6
    linarith

end Tracer
