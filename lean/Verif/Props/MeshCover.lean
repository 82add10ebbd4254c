import Verif.Props.Mesh
import Verif.Props.Sources

/-!
# Meshes leave no gaps (C64)
-/

namespace Tracer

open Real

theorem mgridAxis_cover {step : ℝ} (h : 0 < step) {start stop x : ℝ} (h0 : start ≤ x) (h1 : x < stop) :
    ∃ y ∈ mgridAxis start stop step, y ≤ x ∧ x < y + step ∧ start ≤ y := by
  have hq : 0 ≤ (x - start) / step := div_nonneg (by linarith) h.le
  have e : (x - start) / step * step = x - start := div_mul_cancel₀ _ h.ne'
  have f1 := Nat.floor_le hq
  have f2 := Nat.lt_floor_add_one ((x - start) / step)
  have g1 : (⌊(x - start) / step⌋₊ : ℝ) * step ≤ x - start := by
    exact (mul_le_mul_of_nonneg_right f1 h.le).trans e.le
  have g2 : x - start < ((⌊(x - start) / step⌋₊ : ℝ) + 1) * step := by
    exact lt_of_le_of_lt e.ge (mul_lt_mul_of_pos_right f2 h)
  have g3 : 0 ≤ (⌊(x - start) / step⌋₊ : ℝ) * step := mul_nonneg (Nat.cast_nonneg _) h.le
  refine ⟨start + (⌊(x - start) / step⌋₊ : ℝ) * step, (mem_mgridAxis h _ _ _).2 ⟨by linarith, _, rfl⟩, by linarith, ?_,
    by linarith⟩
  linarith

theorem linspace_cover {a b : ℝ} (hab : a < b) {n : Nat} (hn : 2 ≤ n) {x : ℝ} (h0 : a ≤ x) (h1 : x ≤ b) :
    ∃ y ∈ linspace a b n, |x - y| ≤ (b - a) / n := by
  have hn' : (2 : ℝ) ≤ (n : ℝ) := by exact_mod_cast hn
  set s := (b - a) / ((n : ℝ) - 1) with hs
  have hs0 : 0 < s := div_pos (by linarith) (by linarith)
  have e : s * ((n : ℝ) - 1) = b - a := div_mul_cancel₀ _ (by linarith)
  -- the nearest point
  have hq : 0 ≤ (x - a) / s + 1 / 2 := add_nonneg (div_nonneg (by linarith) hs0.le) (by norm_num)
  have f1 := Nat.floor_le hq
  have f2 := Nat.lt_floor_add_one ((x - a) / s + 1 / 2)
  have ex : (x - a) / s * s = x - a := div_mul_cancel₀ _ hs0.ne'
  have hle : (x - a) / s ≤ (n : ℝ) - 1 := by rw [div_le_iff₀ hs0]; linarith
  have hlt : ⌊(x - a) / s + 1 / 2⌋₊ < n := by
    rw [Nat.floor_lt hq]; linarith
  refine ⟨a + (⌊(x - a) / s + 1 / 2⌋₊ : ℝ) * s, List.mem_map.2 ⟨_, List.mem_range.2 hlt, rfl⟩, ?_⟩
  have hb : s / 2 ≤ (b - a) / n := by
    rw [le_div_iff₀ (by linarith)]
    nlinarith
  refine le_trans ?_ hb
  generalize (⌊(x - a) / s + 1 / 2⌋₊ : ℝ) = k at *
  generalize (x - a) / s = r at *
  rw [abs_le]
  constructor <;> nlinarith

theorem polar_dist {r r' t t' R step : ℝ} (hR : 0 < R) (h0 : 0 ≤ r') (h1 : r' ≤ r) (h2 : r ≤ R) (h3 : r - r' ≤ step)
    (ht : |t - t'| ≤ step / R) :
    (r * cos t - r' * cos t') ^ 2 + (r * sin t - r' * sin t') ^ 2 ≤ 2 * step ^ 2 := by
  have hc := one_sub_sq_div_two_le_cos (x := t - t')
  have e : (r * cos t - r' * cos t') ^ 2 + (r * sin t - r' * sin t') ^ 2 = (r - r') ^ 2 + 2 * (r * r') * (1 - cos (t - t')) := by
    rw [cos_sub]
    linear_combination r ^ 2 * sin_sq_add_cos_sq t + r' ^ 2 * sin_sq_add_cos_sq t'
  have a1 : (r - r') ^ 2 ≤ step ^ 2 := by
    apply pow_le_pow_left₀ (by linarith) h3
  have a2 : (t - t') ^ 2 ≤ (step / R) ^ 2 := by
    rw [← sq_abs (t - t')]
    exact pow_le_pow_left₀ (abs_nonneg _) ht 2
  have a3 : r * r' ≤ R ^ 2 := by nlinarith
  have a4 : 0 ≤ r * r' := mul_nonneg (by linarith) h0
  have a5 : 2 * (r * r') * (1 - cos (t - t')) ≤ r * r' * (step / R) ^ 2 := by
    have : 1 - cos (t - t') ≤ (step / R) ^ 2 / 2 := by linarith
    nlinarith
  have a6 : r * r' * (step / R) ^ 2 ≤ R ^ 2 * (step / R) ^ 2 := mul_le_mul_of_nonneg_right a3 (sq_nonneg _)
  have a7 : R ^ 2 * (step / R) ^ 2 = step ^ 2 := by field_simp
  rw [e]
  linarith

/-- The polar coordinates of a point, on a grid of angles that goes round. -/
theorem polar_cover {R resolution : ℝ} (hR : 0 < R) (hres : 0 < resolution) {stop : ℝ} (hs : 2 * π ≤ stop) (x y : ℝ) :
    ∃ t, x = √(x ^ 2 + y ^ 2) * cos t ∧ y = √(x ^ 2 + y ^ 2) * sin t ∧
      ∃ t' ∈ mgridAxis 0 stop (1 / (R * resolution)), |t - t'| ≤ 1 / resolution / R := by
  obtain ⟨t, h0, h1, hx, hy⟩ := exists_azimuth x y
  have hst : 0 < 1 / (R * resolution) := by positivity
  obtain ⟨t', hm, g1, g2, _⟩ := mgridAxis_cover hst h0 (lt_of_lt_of_le h1 hs)
  have e : 1 / (R * resolution) = 1 / resolution / R := by field_simp
  refine ⟨t, by linarith, by linarith, t', hm, ?_⟩
  rw [← e, abs_le]
  constructor <;> linarith

/-- C64: the mesh of a rectangle has at least `resolution` points per unit length (and two), less than one more than that, and
leaves no gap. -/
theorem C64_rect_covers {width height resolution : ℝ} (hw : 0 < width) (hh : 0 < height) (hres : 0 < resolution) :
    (rectMesh width height resolution).Covers (rectXY width height) resolution ∧
    (rectMesh width height resolution).length = max 2 ⌈resolution * width⌉₊ ∧
    ∀ row ∈ rectMesh width height resolution, row.length = max 2 ⌈resolution * height⌉₊ := by
  have hn : ∀ d : ℝ, meshPoints resolution (d / 2) = max 2 ⌈resolution * d⌉₊ := by
    intro d
    unfold meshPoints
    rw [show resolution * (d / 2) * 2 = resolution * d by ring]
  have h2 : ∀ d : ℝ, 2 ≤ meshPoints resolution d := fun d => le_max_left _ _
  have near : ∀ d x : ℝ, 0 < d → |x| ≤ d / 2 → ∃ y ∈ linspace (-(d / 2)) (d / 2) (meshPoints resolution (d / 2)),
      (x - y) ^ 2 ≤ (1 / resolution) ^ 2 := by
    intro d x hd hx
    obtain ⟨y, hy, hxy⟩ := linspace_cover (a := -(d / 2)) (b := d / 2) (by linarith) (h2 (d / 2)) (abs_le.1 hx).1 (abs_le.1 hx).2
    refine ⟨y, hy, ?_⟩
    rw [← sq_abs (x - y)]
    refine pow_le_pow_left₀ (abs_nonneg _) (hxy.trans ?_) 2
    rw [hn d]
    have hc : resolution * d ≤ ((max 2 ⌈resolution * d⌉₊ : Nat) : ℝ) :=
      (Nat.le_ceil _).trans (by exact_mod_cast le_max_right _ _)
    have hp : 0 < ((max 2 ⌈resolution * d⌉₊ : Nat) : ℝ) := lt_of_lt_of_le (by positivity) hc
    rw [div_le_div_iff₀ hp hres]
    linarith
  refine ⟨?_, ?_, ?_⟩
  · rintro p ⟨hz, hx, hy⟩
    obtain ⟨x, hxm, hx'⟩ := near width p.x hw hx
    obtain ⟨y, hym, hy'⟩ := near height p.y hh hy
    refine ⟨⟨x, y, 0⟩, ⟨_, List.mem_map_of_mem hxm, List.mem_map_of_mem hym⟩, ?_⟩
    simp only [V3.dot, V3.sub_x, V3.sub_y, V3.sub_z, hz]
    linarith
  · unfold rectMesh
    simp [linspace, hn]
  · intro row hrow
    obtain ⟨x, _, rfl⟩ := List.mem_map.1 hrow
    simp [linspace, hn]

/-- C64: the mesh of a round plate leaves no gap. -/
theorem C64_round_covers {R resolution : ℝ} (hR : 0 < R) (hres : 0 < resolution) {m : Mesh}
    (h : roundMesh R resolution = .ok m) : m.Covers (diskXY R) resolution := by
  unfold roundMesh at h
  rw [if_neg hres.ne'] at h
  simp only [Except.ok.injEq] at h
  rintro p ⟨hz, hp⟩
  obtain ⟨t, hx, hy, t', ht', hd⟩ := polar_cover hR hres le_rfl p.x p.y
  have hr0 := sqrt_nonneg (p.x ^ 2 + p.y ^ 2)
  have hrR : √(p.x ^ 2 + p.y ^ 2) ≤ R := by rw [sqrt_le_left hR.le]; exact hp
  have hst : 0 < 1 / resolution := by positivity
  obtain ⟨r', hr', g1, g2, g3⟩ := mgridAxis_cover (stop := R + 1 / 100 / resolution) hst hr0
    (lt_of_le_of_lt hrR (by have : 0 < 1 / 100 / resolution := by positivity
                            linarith))
  refine ⟨⟨r' * cos t', r' * sin t', 0⟩, ?_, ?_⟩
  · rw [← h]
    exact ⟨_, List.mem_map_of_mem hr', List.mem_map_of_mem ht'⟩
  · have := polar_dist hR g3 g1 hrR (by linarith) hd
    rw [← hx, ← hy] at this
    simp only [V3.dot, V3.sub_x, V3.sub_y, V3.sub_z, hz]
    linarith

/-- C64: the mesh of a parabolic dish leaves no gap in its aperture. -/
theorem C64_dish_covers {diameter focal resolution : ℝ} (hd : 0 < diameter) (hres : 0 < resolution) {m : Mesh}
    (h : dishMesh diameter focal resolution = .ok m) : m.CoversXY (dishWithin diameter focal) resolution := by
  have hR : 0 < diameter / 2 := by linarith
  unfold dishMesh at h
  simp only at h
  rw [if_neg (mul_pos hR hres).ne'] at h
  simp only [Except.ok.injEq] at h
  rintro p ⟨_, hp⟩
  obtain ⟨t, hx, hy, t', ht', hdt⟩ := polar_cover hR hres (stop := 2 * π + 1 / (diameter / 2 * resolution))
    (by have : 0 < 1 / (diameter / 2 * resolution) := by positivity
        linarith) p.x p.y
  have hr0 := sqrt_nonneg (p.x ^ 2 + p.y ^ 2)
  have hrR : √(p.x ^ 2 + p.y ^ 2) ≤ diameter / 2 := by rw [sqrt_le_left hR.le]; exact hp
  have hst : 0 < 1 / resolution := by positivity
  obtain ⟨r', hr', g1, g2, g3⟩ := mgridAxis_cover (stop := diameter / 2 + 1 / 100 / resolution) hst hr0
    (lt_of_le_of_lt hrR (by have : 0 < 1 / 100 / resolution := by positivity
                            linarith))
  refine ⟨⟨r' * cos t', r' * sin t', 1 / (2 * √focal) ^ 2 * (r' * cos t') ^ 2 + 1 / (2 * √focal) ^ 2 * (r' * sin t') ^ 2⟩,
    ?_, ?_⟩
  · rw [← h]
    exact ⟨_, List.mem_map_of_mem hr', List.mem_map_of_mem ht'⟩
  · have := polar_dist hR g3 g1 hrR (by linarith) hdt
    rw [← hx, ← hy] at this
    exact this

/-- C64: the mesh of a finite cylinder leaves no gap. -/
theorem C64_cylinder_covers {diameter height resolution : ℝ} (hd : 0 < diameter) (hres : 0 < resolution) {m : Mesh}
    (h : cylinderMesh diameter height resolution = .ok m) : m.Covers (finiteCylinderSet (diameter / 2) height) resolution := by
  have hR : 0 < diameter / 2 := by linarith
  unfold cylinderMesh at h
  simp only at h
  rw [if_neg (mul_pos hR hres).ne'] at h
  simp only [Except.ok.injEq] at h
  rintro p ⟨hp, hz⟩
  obtain ⟨t, hx, hy, t', ht', hdt⟩ := polar_cover hR hres (stop := 2 * π + 1 / (diameter / 2 * resolution))
    (by have : 0 < 1 / (diameter / 2 * resolution) := by positivity
        linarith) p.x p.y
  have hst : 0 < 1 / resolution := by positivity
  obtain ⟨z', hz', g1, g2, g3⟩ := mgridAxis_cover (stop := height / 2 + 1 / 2 / resolution) hst (abs_le.1 hz).1
    (lt_of_le_of_lt (abs_le.1 hz).2 (by have : 0 < 1 / 2 / resolution := by positivity
                                        linarith))
  have hr : √(p.x ^ 2 + p.y ^ 2) = diameter / 2 := by
    rw [hp, sqrt_sq hR.le]
  rw [hr] at hx hy
  refine ⟨⟨diameter / 2 * cos t', diameter / 2 * sin t', z'⟩, ?_, ?_⟩
  · rw [← h]
    exact ⟨_, List.mem_map_of_mem hz', List.mem_map_of_mem ht'⟩
  · have e : (diameter / 2 * cos t - diameter / 2 * cos t') ^ 2 + (diameter / 2 * sin t - diameter / 2 * sin t') ^ 2 ≤
        (1 / resolution) ^ 2 := by
      have hc := one_sub_sq_div_two_le_cos (x := t - t')
      have a2 : (t - t') ^ 2 ≤ (1 / resolution / (diameter / 2)) ^ 2 := by
        rw [← sq_abs (t - t')]
        exact pow_le_pow_left₀ (abs_nonneg _) hdt 2
      have a3 : (diameter / 2) ^ 2 * (1 / resolution / (diameter / 2)) ^ 2 = (1 / resolution) ^ 2 := by
        rw [← mul_pow, mul_div_cancel₀ _ hR.ne']
      rw [← a3]
      have e' : (diameter / 2 * cos t - diameter / 2 * cos t') ^ 2 + (diameter / 2 * sin t - diameter / 2 * sin t') ^ 2 =
          (diameter / 2) ^ 2 * (2 * (1 - cos (t - t'))) := by
        rw [cos_sub]
        linear_combination (diameter / 2) ^ 2 * (sin_sq_add_cos_sq t + sin_sq_add_cos_sq t')
      rw [e']
      exact mul_le_mul_of_nonneg_left (by linarith) (sq_nonneg _)
    have ez : (p.z - z') ^ 2 ≤ (1 / resolution) ^ 2 := pow_le_pow_left₀ (by linarith) (by linarith) 2
    rw [← hx, ← hy] at e
    simp only [V3.dot, V3.sub_x, V3.sub_y, V3.sub_z]
    linarith

theorem sphere_dist {R step t t' s s' : ℝ} (hR : 0 < R) (ht : |t - t'| ≤ step / R) (hs : |s - s'| ≤ step / R) :
    (R * sin t * cos s - R * sin t' * cos s') ^ 2 + (R * sin t * sin s - R * sin t' * sin s') ^ 2 +
      (R * cos t - R * cos t') ^ 2 ≤ 2 * step ^ 2 := by
  have e : (R * sin t * cos s - R * sin t' * cos s') ^ 2 + (R * sin t * sin s - R * sin t' * sin s') ^ 2 +
      (R * cos t - R * cos t') ^ 2 =
      R ^ 2 * (2 * (1 - cos (t - t')) + 2 * (sin t * sin t') * (1 - cos (s - s'))) := by
    rw [cos_sub, cos_sub]
    linear_combination R ^ 2 * (sin t ^ 2 * sin_sq_add_cos_sq s + sin t' ^ 2 * sin_sq_add_cos_sq s' +
      sin_sq_add_cos_sq t + sin_sq_add_cos_sq t')
  have a1 : 1 - cos (t - t') ≤ (step / R) ^ 2 / 2 := by
    have := one_sub_sq_div_two_le_cos (x := t - t')
    have a2 : (t - t') ^ 2 ≤ (step / R) ^ 2 := by
      rw [← sq_abs (t - t')]; exact pow_le_pow_left₀ (abs_nonneg _) ht 2
    linarith
  have b1 : 1 - cos (s - s') ≤ (step / R) ^ 2 / 2 := by
    have := one_sub_sq_div_two_le_cos (x := s - s')
    have a2 : (s - s') ^ 2 ≤ (step / R) ^ 2 := by
      rw [← sq_abs (s - s')]; exact pow_le_pow_left₀ (abs_nonneg _) hs 2
    linarith
  have b0 : 0 ≤ 1 - cos (s - s') := by linarith [cos_le_one (s - s')]
  have c1 : sin t * sin t' ≤ 1 := by
    have := sin_sq_add_cos_sq t
    have := sin_sq_add_cos_sq t'
    nlinarith [sq_nonneg (sin t - sin t'), sq_nonneg (cos t), sq_nonneg (cos t')]
  have c2 : sin t * sin t' * (1 - cos (s - s')) ≤ 1 - cos (s - s') := by nlinarith
  have a7 : R ^ 2 * (step / R) ^ 2 = step ^ 2 := by rw [← mul_pow, mul_div_cancel₀ _ hR.ne']
  rw [e, ← a7, show 2 * (R ^ 2 * (step / R) ^ 2) = R ^ 2 * (2 * (step / R) ^ 2) by ring]
  exact mul_le_mul_of_nonneg_left (by linarith) (sq_nonneg _)

/-- Spherical coordinates of a point of the sphere, and grid points near them. -/
theorem sphere_cover {R resolution start : ℝ} (hR : 0 < R) (hres : 0 < resolution) {p : V3 ℝ} (hp : sphereSet R p)
    (hstart : start ≤ arccos (p.z / R)) :
    ∃ t' ∈ mgridAxis start (π + 1 / (R * resolution)) (1 / (R * resolution)),
    ∃ s' ∈ mgridAxis 0 (2 * (π + 1 / (R * resolution))) (1 / (R * resolution)),
      V3.dot (p - ⟨R * sin t' * cos s', R * sin t' * sin s', R * cos t'⟩)
        (p - ⟨R * sin t' * cos s', R * sin t' * sin s', R * cos t'⟩) ≤ 2 * (1 / resolution) ^ 2 := by
  have hst : 0 < 1 / (R * resolution) := by positivity
  have est : 1 / (R * resolution) = 1 / resolution / R := by field_simp
  unfold sphereSet at hp
  obtain ⟨s, hx, hy, s', hs', hds⟩ := polar_cover hR hres (stop := 2 * (π + 1 / (R * resolution))) (by linarith) p.x p.y
  obtain ⟨t', ht', g1, g2, _⟩ := mgridAxis_cover (stop := π + 1 / (R * resolution)) hst hstart
    (lt_of_le_of_lt (arccos_le_pi _) (by linarith))
  have hzR : p.z ^ 2 ≤ R ^ 2 := by nlinarith [sq_nonneg p.x, sq_nonneg p.y]
  have hz := abs_le.1 (abs_le_of_sq_le_sq hzR hR.le)
  have hcos : R * cos (arccos (p.z / R)) = p.z := by
    rw [cos_arccos (by rw [le_div_iff₀ hR]; linarith) (by rw [div_le_iff₀ hR]; linarith)]
    field_simp
  have hsin : R * sin (arccos (p.z / R)) = √(p.x ^ 2 + p.y ^ 2) := by
    rw [sin_arccos, ← sqrt_sq hR.le, ← sqrt_mul (sq_nonneg R), sqrt_sq hR.le]
    congr 1
    field_simp
    linarith
  refine ⟨t', ht', s', hs', ?_⟩
  have := sphere_dist hR (t := arccos (p.z / R)) (t' := t') (step := 1 / resolution) (by
    rw [← est, abs_le]; constructor <;> linarith) hds
  rw [hcos, hsin, ← hx, ← hy] at this
  simp only [V3.dot, V3.sub_x, V3.sub_y, V3.sub_z]
  linarith

/-- C64: the mesh of a sphere leaves no gap. -/
theorem C64_sphere_covers {R resolution : ℝ} (hR : 0 < R) (hres : 0 < resolution) {m : Mesh}
    (h : sphereMesh R resolution = .ok m) : m.Covers (sphereSet R) resolution := by
  unfold sphereMesh at h
  rw [if_neg (mul_pos hR hres).ne'] at h
  simp only [Except.ok.injEq] at h
  intro p hp
  obtain ⟨t', ht', s', hs', hd⟩ := sphere_cover (start := 0) hR hres hp (arccos_nonneg _)
  refine ⟨_, ?_, hd⟩
  rw [← h]
  exact ⟨_, List.mem_map_of_mem ht', List.mem_map_of_mem hs'⟩

/-- C64: the mesh of a hemisphere leaves no gap in the lower half. -/
theorem C64_hemisphere_covers {R resolution : ℝ} (hR : 0 < R) (hres : 0 < resolution) {m : Mesh}
    (h : hemisphereMesh R resolution = .ok m) : m.Covers (lowerHalf R) resolution := by
  unfold hemisphereMesh at h
  rw [if_neg (mul_pos hR hres).ne'] at h
  simp only [Except.ok.injEq] at h
  rintro p ⟨hp, hz⟩
  obtain ⟨t', ht', s', hs', hd⟩ := sphere_cover (start := π / 2) hR hres hp (by
    have := arcsin_nonpos.2 (div_nonpos_of_nonpos_of_nonneg hz hR.le)
    unfold arccos
    linarith)
  refine ⟨_, ?_, hd⟩
  rw [← h]
  exact ⟨_, List.mem_map_of_mem ht', List.mem_map_of_mem hs'⟩

/-- C64: in barycentric coordinates, the mesh of a triangle leaves no gap of more than two steps. -/
theorem C64_triangle_covers {a b : V3 ℝ} {resolution : Nat} {m : Mesh} (h : triangleMesh a b resolution = .ok m)
    {u v : ℝ} (hu : 0 ≤ u) (hv : 0 ≤ v) (huv : u + v ≤ 1) :
    ∃ u' v', m.Has (v' • b + u' • a) ∧ |u - u'| ≤ 2 / resolution ∧ |v - v'| ≤ 2 / resolution := by
  have hr : 2 ≤ resolution := by
    by_contra hc
    unfold triangleMesh at h
    rw [if_pos (by omega)] at h
    cases h
  unfold triangleMesh at h
  rw [if_neg (by omega)] at h
  simp only [Except.ok.injEq] at h
  obtain ⟨al, hal, ha⟩ := linspace_cover zero_lt_one hr (add_nonneg hu hv) huv
  obtain ⟨be0, hb0, hb1, hb⟩ : ∃ be0 : ℝ, 0 ≤ be0 ∧ be0 ≤ 1 ∧ u = (u + v) * be0 := by
    rcases (add_nonneg hu hv).eq_or_lt with h0 | h0
    · exact ⟨0, le_rfl, zero_le_one, by linarith⟩
    · exact ⟨u / (u + v), div_nonneg hu h0.le, (div_le_one h0).2 (by linarith), (mul_div_cancel₀ _ h0.ne').symm⟩
  obtain ⟨be, hbe, hbd⟩ := linspace_cover zero_lt_one hr hb0 hb1
  obtain ⟨q0, q1⟩ := mem_linspace zero_le_one hr hbe
  have hn : (0 : ℝ) < resolution := by exact_mod_cast (by omega : 0 < resolution)
  have e2 : (2 : ℝ) / resolution = (1 - 0) / resolution + (1 - 0) / resolution := by ring
  refine ⟨al * be, al * (1 - be), ?_, ?_, ?_⟩
  · rw [← h]
    exact ⟨_, List.mem_map_of_mem hbe, List.mem_map_of_mem hal⟩
  · have e : u - al * be = (u + v) * (be0 - be) + (u + v - al) * be := by linear_combination hb
    rw [e, e2]
    refine (abs_add_le _ _).trans (add_le_add ?_ ?_)
    · rw [abs_mul, abs_of_nonneg (add_nonneg hu hv)]
      nlinarith [abs_nonneg (be0 - be)]
    · rw [abs_mul, abs_of_nonneg q0]
      nlinarith [abs_nonneg (u + v - al)]
  · have e : v - al * (1 - be) = -((u + v) * (be0 - be)) + (u + v - al) * (1 - be) := by linear_combination -hb
    rw [e, e2]
    refine (abs_add_le _ _).trans (add_le_add ?_ ?_)
    · rw [abs_neg, abs_mul, abs_of_nonneg (add_nonneg hu hv)]
      nlinarith [abs_nonneg (be0 - be)]
    · rw [abs_mul, abs_of_nonneg (by linarith : 0 ≤ 1 - be)]
      nlinarith [abs_nonneg (u + v - al)]

example : (rectMesh 2 1 10).Covers (rectXY 2 1) 10 ∧ (rectMesh 2 1 10).length = max 2 ⌈(10 : ℝ) * 2⌉₊ ∧
    ∀ row ∈ rectMesh 2 1 10, row.length = max 2 ⌈(10 : ℝ) * 1⌉₊ :=
  C64_rect_covers (by norm_num) (by norm_num) (by norm_num)

example : ∃ m, sphereMesh 2 5 = .ok m ∧ m.Covers (sphereSet 2) 5 := by
  obtain ⟨m, h, _⟩ := C64_sphere (R := 2) (resolution := 5) (by norm_num) (by norm_num)
  exact ⟨m, h, C64_sphere_covers (by norm_num) (by norm_num) h⟩

example : (∃ m, roundMesh 1 10 = .ok m ∧ m.Covers (diskXY 1) 10) ∧ (∃ m, dishMesh 2 1 10 = .ok m ∧ m.CoversXY (dishWithin 2 1) 10) ∧
    (∃ m, cylinderMesh 2 3 10 = .ok m ∧ m.Covers (finiteCylinderSet (2 / 2) 3) 10) ∧
    (∃ m, hemisphereMesh 1 10 = .ok m ∧ m.Covers (lowerHalf 1) 10) ∧
    ∃ m, triangleMesh ⟨1, 0, 0⟩ ⟨0, 1, 0⟩ 5 = .ok m ∧ ∃ u' v' : ℝ, m.Has (v' • ⟨0, 1, 0⟩ + u' • ⟨1, 0, 0⟩) ∧
      |1 / 3 - u'| ≤ 2 / (5 : ℕ) ∧ |1 / 2 - v'| ≤ 2 / (5 : ℕ) := by
  obtain ⟨m1, h1, _⟩ := C64_round_partial (R := 1) (resolution := 10) one_pos (by norm_num)
  obtain ⟨m2, h2, _⟩ := C64_dish_partial (diameter := 2) (focal := 1) (resolution := 10) two_pos one_pos (by norm_num)
  obtain ⟨m3, h3, _⟩ := C64_cylinder_partial (diameter := 2) (height := 3) (resolution := 10) two_pos (by norm_num) (by norm_num)
  obtain ⟨m4, h4, _⟩ := C64_hemisphere_partial (R := 1) (resolution := 10) one_pos (by norm_num)
  obtain ⟨m5, h5, _⟩ := (C64_triangle ⟨1, 0, 0⟩ ⟨0, 1, 0⟩ 5).2 (by norm_num)
  exact ⟨⟨m1, h1, C64_round_covers one_pos (by norm_num) h1⟩, ⟨m2, h2, C64_dish_covers two_pos (by norm_num) h2⟩,
    ⟨m3, h3, C64_cylinder_covers two_pos (by norm_num) h3⟩, ⟨m4, h4, C64_hemisphere_covers one_pos (by norm_num) h4⟩,
    m5, h5, C64_triangle_covers h5 (by norm_num) (by norm_num) (by norm_num)⟩

end Tracer
