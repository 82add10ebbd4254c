import Verif.Spec.Mesh
import Verif.Props.Stagger
import Mathlib.Analysis.Real.Pi.Bounds

/-!
# Meshes (C64)
-/

set_option linter.unusedSectionVars false

namespace Tracer

open Real

theorem mem_mgridAxis {step : ℝ} (h : 0 < step) (start stop x : ℝ) :
    x ∈ mgridAxis start stop step ↔ x < stop ∧ ∃ i : Nat, x = start + (i : ℝ) * step := by
  rw [List.mem_iff_getElem?]
  constructor
  · rintro ⟨i, hi⟩
    obtain ⟨h1, h2⟩ := (mgridAxis_pos h _ _ _ _).1 hi
    exact ⟨h1, i, h2⟩
  · rintro ⟨h1, i, h2⟩
    exact ⟨i, (mgridAxis_pos h _ _ _ _).2 ⟨h1, h2⟩⟩

theorem mem_linspace {a b : ℝ} (h : a ≤ b) {n : Nat} (hn : 2 ≤ n) {x : ℝ} (hx : x ∈ linspace a b n) : a ≤ x ∧ x ≤ b := by
  unfold linspace at hx
  obtain ⟨i, hi, rfl⟩ := List.mem_map.1 hx
  rw [List.mem_range] at hi
  have h1 : (0 : ℝ) < (n : ℝ) - 1 := by
    have : (2 : ℝ) ≤ (n : ℝ) := by exact_mod_cast hn
    linarith
  have h2 : (i : ℝ) ≤ (n : ℝ) - 1 := by
    have : ((i + 1 : Nat) : ℝ) ≤ (n : ℝ) := by exact_mod_cast hi
    push_cast at this; linarith
  have h3 : 0 ≤ (b - a) / ((n : ℝ) - 1) := div_nonneg (by linarith) h1.le
  have h4 : (i : ℝ) * ((b - a) / ((n : ℝ) - 1)) ≤ ((n : ℝ) - 1) * ((b - a) / ((n : ℝ) - 1)) :=
    mul_le_mul_of_nonneg_right h2 h3
  have h5 : ((n : ℝ) - 1) * ((b - a) / ((n : ℝ) - 1)) = b - a := by field_simp
  have h6 : 0 ≤ (i : ℝ) * ((b - a) / ((n : ℝ) - 1)) := mul_nonneg (by positivity) h3
  constructor <;> linarith

theorem linspace_ends (a b : ℝ) {n : Nat} (hn : 2 ≤ n) : a ∈ linspace a b n ∧ b ∈ linspace a b n := by
  unfold linspace
  constructor
  · exact List.mem_map.2 ⟨0, List.mem_range.2 (by omega), by simp⟩
  · refine List.mem_map.2 ⟨n - 1, List.mem_range.2 (by omega), ?_⟩
    have h1 : ((n - 1 : Nat) : ℝ) = (n : ℝ) - 1 := by rw [Nat.cast_sub (by omega)]; simp
    have h2 : (n : ℝ) - 1 ≠ 0 := by
      have : (2 : ℝ) ≤ (n : ℝ) := by exact_mod_cast hn
      linarith
    rw [h1]
    field_simp
    ring

/-- C64, rectangular plates: the mesh lies on the plate, whatever the resolution, and reaches its corners. -/
theorem C64_rect {width height : ℝ} (hw : 0 < width) (hh : 0 < height) (resolution : ℝ) :
    (rectMesh width height resolution).LiesOn (rectXY width height) ∧
    ∀ sx ∈ [-1, 1], ∀ sy ∈ [-1, 1], (rectMesh width height resolution).Has ⟨sx * (width / 2), sy * (height / 2), 0⟩ := by
  have h2 : ∀ d : ℝ, 2 ≤ meshPoints resolution d := fun d => le_max_left _ _
  unfold rectMesh
  constructor
  · intro row hrow p hp
    obtain ⟨x, hx, rfl⟩ := List.mem_map.1 hrow
    obtain ⟨y, hy, rfl⟩ := List.mem_map.1 hp
    obtain ⟨a, b⟩ := mem_linspace (by linarith) (h2 _) hx
    obtain ⟨c, d⟩ := mem_linspace (by linarith) (h2 _) hy
    exact ⟨rfl, abs_le.2 ⟨a, b⟩, abs_le.2 ⟨c, d⟩⟩
  · intro sx hsx sy hsy
    have hxs := linspace_ends (-(width / 2)) (width / 2) (h2 (width / 2))
    have hys := linspace_ends (-(height / 2)) (height / 2) (h2 (height / 2))
    have mx : sx * (width / 2) ∈ linspace (-(width / 2)) (width / 2) (meshPoints resolution (width / 2)) := by
      rcases List.mem_cons.1 hsx with rfl | hsx
      · rw [neg_one_mul]; exact hxs.1
      · rw [List.mem_singleton.1 hsx, one_mul]; exact hxs.2
    have my : sy * (height / 2) ∈ linspace (-(height / 2)) (height / 2) (meshPoints resolution (height / 2)) := by
      rcases List.mem_cons.1 hsy with rfl | hsy
      · rw [neg_one_mul]; exact hys.1
      · rw [List.mem_singleton.1 hsy, one_mul]; exact hys.2
    exact ⟨_, List.mem_map_of_mem mx, List.mem_map_of_mem my⟩

/-- C64, triangular faces: the mesh lies on the triangle and reaches its vertices; fewer than two points per edge
raise `ValueError`. -/
theorem C64_triangle (a b : V3 ℝ) (resolution : Nat) :
    (resolution < 2 → triangleMesh a b resolution = .error .value) ∧
    (2 ≤ resolution → ∃ m, triangleMesh a b resolution = .ok m ∧ m.LiesOn (triangle a b) ∧
      m.Has 0 ∧ m.Has a ∧ m.Has b) := by
  constructor
  · intro h; unfold triangleMesh; rw [if_pos h]
  · intro h
    unfold triangleMesh
    rw [if_neg (by omega)]
    obtain ⟨e0, e1⟩ := linspace_ends 0 1 h
    refine ⟨_, rfl, ?_, ?_, ?_, ?_⟩
    · intro row hrow p hp
      obtain ⟨beta, hb, rfl⟩ := List.mem_map.1 hrow
      obtain ⟨alpha, ha, rfl⟩ := List.mem_map.1 hp
      obtain ⟨b0, b1⟩ := mem_linspace zero_le_one h hb
      obtain ⟨a0, a1⟩ := mem_linspace zero_le_one h ha
      refine ⟨alpha * beta, alpha * (1 - beta), mul_nonneg a0 b0, mul_nonneg a0 (by linarith), ?_, ?_⟩
      · linarith [show alpha * beta + alpha * (1 - beta) = alpha by ring]
      · apply V3.ext <;> simp <;> ring
    · refine ⟨_, List.mem_map_of_mem e0, List.mem_map.2 ⟨0, e0, ?_⟩⟩
      apply V3.ext <;> simp
    · refine ⟨_, List.mem_map_of_mem e1, List.mem_map.2 ⟨1, e1, ?_⟩⟩
      apply V3.ext <;> simp
    · refine ⟨_, List.mem_map_of_mem e0, List.mem_map.2 ⟨1, e1, ?_⟩⟩
      apply V3.ext <;> simp

/-- C64, spheres: the mesh lies on the sphere, and reaches the upper pole (also for a `CutSphereGM` whose bounding
volume leaves it out, as the mesh is inherited). -/
theorem C64_sphere {R resolution : ℝ} (hR : 0 < R) (hres : 0 < resolution) :
    ∃ m, sphereMesh R resolution = .ok m ∧ m.LiesOn (sphereSet R) ∧ m.Has ⟨0, 0, R⟩ := by
  have hpos : 0 < R * resolution := mul_pos hR hres
  unfold sphereMesh
  rw [if_neg hpos.ne']
  refine ⟨_, rfl, ?_, ?_⟩
  · intro row hrow p hp
    obtain ⟨t, _, rfl⟩ := List.mem_map.1 hrow
    obtain ⟨s, _, rfl⟩ := List.mem_map.1 hp
    unfold sphereSet
    simp only
    linear_combination (R * sin t) ^ 2 * sin_sq_add_cos_sq s + R ^ 2 * sin_sq_add_cos_sq t
  · have hst : 0 < 1 / (R * resolution) := by positivity
    have m1 : (0 : ℝ) ∈ mgridAxis 0 (π + 1 / (R * resolution)) (1 / (R * resolution)) :=
      (mem_mgridAxis hst _ _ _).2 ⟨by have := pi_pos; linarith, 0, by simp⟩
    have m2 : (0 : ℝ) ∈ mgridAxis 0 (2 * (π + 1 / (R * resolution))) (1 / (R * resolution)) :=
      (mem_mgridAxis hst _ _ _).2 ⟨by have := pi_pos; linarith, 0, by simp⟩
    refine ⟨_, List.mem_map_of_mem m1, List.mem_map.2 ⟨0, m2, ?_⟩⟩
    apply V3.ext <;> simp

/-- C64, hemispheres: the mesh lies on the sphere; it lies in the lower half if the resolution is at least `1/(π R)`.
What is missing: at coarser resolutions it may not (`C64_hemisphere_counterexample`). -/
theorem C64_hemisphere_partial {R resolution : ℝ} (hR : 0 < R) (hres : 0 < resolution) :
    ∃ m, hemisphereMesh R resolution = .ok m ∧ m.LiesOn (sphereSet R) ∧
      (1 ≤ π * (R * resolution) → m.LiesOn (lowerHalf R)) := by
  have hpos : 0 < R * resolution := mul_pos hR hres
  unfold hemisphereMesh
  rw [if_neg hpos.ne']
  have hsph : ∀ t s : ℝ, sphereSet R ⟨R * sin t * cos s, R * sin t * sin s, R * cos t⟩ := by
    intro t s
    unfold sphereSet
    simp only
    linear_combination (R * sin t) ^ 2 * sin_sq_add_cos_sq s + R ^ 2 * sin_sq_add_cos_sq t
  refine ⟨_, rfl, ?_, ?_⟩
  · intro row hrow p hp
    obtain ⟨t, _, rfl⟩ := List.mem_map.1 hrow
    obtain ⟨s, _, rfl⟩ := List.mem_map.1 hp
    exact hsph t s
  · intro hfine row hrow p hp
    obtain ⟨t, ht, rfl⟩ := List.mem_map.1 hrow
    obtain ⟨s, _, rfl⟩ := List.mem_map.1 hp
    refine ⟨hsph t s, ?_⟩
    have hst : 0 < 1 / (R * resolution) := by positivity
    have hst2 : 1 / (R * resolution) ≤ π := by
      rw [div_le_iff₀ hpos]; exact hfine
    generalize 1 / (R * resolution) = d at *
    obtain ⟨h1, i, h2⟩ := (mem_mgridAxis hst _ _ _).1 ht
    have hi0 : (0 : ℝ) ≤ (i : ℝ) * d := by positivity
    have hle : t ≤ π + π / 2 := by
      rcases Nat.lt_or_ge i 2 with hi | hi
      · have : (i : ℝ) ≤ 1 := by exact_mod_cast Nat.le_of_lt_succ hi
        have := mul_le_mul_of_nonneg_right this hst.le
        linarith
      · have : (2 : ℝ) ≤ (i : ℝ) := by exact_mod_cast hi
        have := mul_le_mul_of_nonneg_right this hst.le
        linarith
    have hc : cos t ≤ 0 := cos_nonpos_of_pi_div_two_le_of_le (by linarith) hle
    exact mul_nonpos_of_nonneg_of_nonpos hR.le hc

/-- C64 fails for a coarse mesh of a hemisphere: radius 1, one point in four units of length. -/
theorem C64_hemisphere_counterexample :
    ∃ m, hemisphereMesh 1 (1 / 4) = .ok m ∧ ∃ p, m.Has p ∧ 0 < p.z := by
  have hst : (0 : ℝ) < 1 / (1 * (1 / 4)) := by norm_num
  have m1 : (π / 2 + 4 : ℝ) ∈ mgridAxis (π / 2) (π + 1 / (1 * (1 / 4))) (1 / (1 * (1 / 4))) :=
    (mem_mgridAxis hst _ _ _).2 ⟨by have := pi_pos; norm_num; linarith, 1, by norm_num⟩
  have m2 : (0 : ℝ) ∈ mgridAxis 0 (2 * (π + 1 / (1 * (1 / 4)))) (1 / (1 * (1 / 4))) :=
    (mem_mgridAxis hst _ _ _).2 ⟨by have := pi_pos; norm_num; linarith, 0, by simp⟩
  unfold hemisphereMesh
  rw [if_neg (by norm_num)]
  refine ⟨_, rfl, _, ⟨_, List.mem_map_of_mem m1, List.mem_map_of_mem m2⟩, ?_⟩
  simp only [one_mul]
  rw [add_comm, cos_add_pi_div_two]
  have : sin (4 - π) = - sin 4 := by rw [sin_sub_pi]
  rw [← this]
  exact sin_pos_of_pos_of_lt_pi (by linarith [pi_lt_four]) (by linarith [pi_gt_three])

theorem fract_steps {x c : ℝ} (hx : 0 ≤ x) :
    (∀ i : Nat, (i : ℝ) < x + c → (i : ℝ) ≤ x) ↔ Int.fract x ≤ 1 - c := by
  constructor
  · intro h
    by_contra hc
    push Not at hc
    have h2 := Int.self_sub_floor x
    have hfl : 0 ≤ ⌊x⌋ := Int.floor_nonneg.2 hx
    have hcast : ((⌊x⌋.toNat + 1 : Nat) : ℝ) = (⌊x⌋ : ℝ) + 1 := by
      have : ((⌊x⌋.toNat : Nat) : ℝ) = (⌊x⌋ : ℝ) := by
        have := Int.toNat_of_nonneg hfl
        exact_mod_cast this
      push_cast; rw [this]
    have := h (⌊x⌋.toNat + 1) (by rw [hcast]; linarith)
    rw [hcast] at this
    have := Int.lt_floor_add_one x
    linarith
  · intro h i hi
    by_contra hc
    push Not at hc
    have h2 := Int.self_sub_floor x
    have : ⌊x⌋ < (i : Int) := Int.floor_lt.2 (by exact_mod_cast hc)
    have : (⌊x⌋ : ℝ) + 1 ≤ (i : ℝ) := by exact_mod_cast this
    linarith

theorem radii {R resolution : ℝ} (hres : 0 < resolution) (r : ℝ) :
    r ∈ mgridAxis 0 (R + 1 / 100 / resolution) (1 / resolution) ↔
      ∃ i : Nat, (i : ℝ) < R * resolution + 1 / 100 ∧ r = (i : ℝ) / resolution := by
  rw [mem_mgridAxis (by positivity)]
  constructor
  · rintro ⟨h1, i, rfl⟩
    refine ⟨i, ?_, by ring⟩
    have := mul_lt_mul_of_pos_right h1 hres
    field_simp at this
    linarith
  · rintro ⟨i, h1, rfl⟩
    refine ⟨?_, i, by ring⟩
    rw [div_lt_iff₀ hres]
    have : (R + 1 / 100 / resolution) * resolution = R * resolution + 1 / 100 := by field_simp
    linarith

theorem polar_sq (r t : ℝ) : (r * cos t) ^ 2 + (r * sin t) ^ 2 = r ^ 2 := by
  linear_combination r ^ 2 * sin_sq_add_cos_sq t

/-- Radii of a mesh and the edge: all are within `R` exactly if `R` is not too close below a multiple of the step. -/
theorem radii_within {R resolution : ℝ} (hR : 0 < R) (hres : 0 < resolution) :
    (∀ r ∈ mgridAxis 0 (R + 1 / 100 / resolution) (1 / resolution), r ^ 2 ≤ R ^ 2) ↔
      Int.fract (R * resolution) ≤ 1 - 1 / 100 := by
  rw [← fract_steps (mul_pos hR hres).le]
  constructor
  · intro h i hi
    have := h _ ((radii hres _).2 ⟨i, hi, rfl⟩)
    have := (sq_le_sq₀ (by positivity) hR.le).1 this
    rwa [div_le_iff₀ hres] at this
  · intro h r hr
    obtain ⟨i, hi, rfl⟩ := (radii hres _).1 hr
    apply (sq_le_sq₀ (by positivity) hR.le).2
    rw [div_le_iff₀ hres]
    exact h i hi

theorem radii_bound {R resolution : ℝ} (hR : 0 < R) (hres : 0 < resolution) :
    ∀ r ∈ mgridAxis 0 (R + 1 / 100 / resolution) (1 / resolution), r ^ 2 < (R + 1 / 100 / resolution) ^ 2 := by
  intro r hr
  have h1 := ((mem_mgridAxis (by positivity) _ _ _).1 hr).1
  obtain ⟨i, hi, rfl⟩ := (radii hres _).1 hr
  exact (sq_lt_sq₀ (by positivity) (by positivity)).2 h1

/-- C64, round plates: the mesh lies in the plane of the plate, less than a hundredth of a step beyond its edge; it
lies on the plate exactly if the radius, in steps, is not that close below a whole number.  What is missing: it may
overshoot the edge. -/
theorem C64_round_partial {R resolution : ℝ} (hR : 0 < R) (hres : 0 < resolution) :
    ∃ m, roundMesh R resolution = .ok m ∧
      m.LiesOn (fun p => p.z = 0 ∧ p.x ^ 2 + p.y ^ 2 < (R + 1 / 100 / resolution) ^ 2) ∧
      (m.LiesOn (diskXY R) ↔ Int.fract (R * resolution) ≤ 1 - 1 / 100) := by
  unfold roundMesh
  rw [if_neg hres.ne']
  refine ⟨_, rfl, ?_, ?_⟩
  · intro row hrow p hp
    obtain ⟨r, hr, rfl⟩ := List.mem_map.1 hrow
    obtain ⟨t, _, rfl⟩ := List.mem_map.1 hp
    refine ⟨rfl, ?_⟩
    simp only [polar_sq]
    exact radii_bound hR hres r hr
  · rw [← radii_within hR hres]
    constructor
    · intro h r hr
      have m2 : (0 : ℝ) ∈ mgridAxis 0 (2 * π) (1 / (R * resolution)) :=
        (mem_mgridAxis (by positivity) _ _ _).2 ⟨by have := pi_pos; linarith, 0, by simp⟩
      have := (h _ (List.mem_map_of_mem hr) _ (List.mem_map_of_mem m2)).2
      simpa only [polar_sq] using this
    · intro h row hrow p hp
      obtain ⟨r, hr, rfl⟩ := List.mem_map.1 hrow
      obtain ⟨t, _, rfl⟩ := List.mem_map.1 hp
      refine ⟨rfl, ?_⟩
      simp only [polar_sq]
      exact h r hr

/-- C64, parabolic dishes: the mesh lies on the paraboloid with the given focal length, less than a hundredth of a
step beyond the aperture; it lies in the aperture exactly if the radius, in steps, is not that close below a whole
number.  What is missing: it may overshoot the edge. -/
theorem C64_dish_partial {diameter focal resolution : ℝ} (hd : 0 < diameter) (hf : 0 < focal) (hres : 0 < resolution) :
    ∃ m, dishMesh diameter focal resolution = .ok m ∧
      m.LiesOn (fun p => dishSet focal p ∧ p.x ^ 2 + p.y ^ 2 < (diameter / 2 + 1 / 100 / resolution) ^ 2) ∧
      (m.LiesOn (dishWithin diameter focal) ↔ Int.fract (diameter / 2 * resolution) ≤ 1 - 1 / 100) := by
  have hR : 0 < diameter / 2 := by linarith
  have hpos : 0 < diameter / 2 * resolution := mul_pos hR hres
  have hdish : ∀ x y : ℝ, dishSet focal ⟨x, y, 1 / (2 * √focal) ^ 2 * x ^ 2 + 1 / (2 * √focal) ^ 2 * y ^ 2⟩ := by
    intro x y
    unfold dishSet
    simp only [mul_pow, sq_sqrt hf.le]
    field_simp
    norm_num
    ring
  unfold dishMesh
  simp only
  rw [if_neg hpos.ne']
  refine ⟨_, rfl, ?_, ?_⟩
  · intro row hrow p hp
    obtain ⟨r, hr, rfl⟩ := List.mem_map.1 hrow
    obtain ⟨t, _, rfl⟩ := List.mem_map.1 hp
    refine ⟨hdish _ _, ?_⟩
    simp only [polar_sq]
    exact radii_bound hR hres r hr
  · rw [← radii_within hR hres]
    constructor
    · intro h r hr
      have m2 : (0 : ℝ) ∈ mgridAxis 0 (2 * π + 1 / (diameter / 2 * resolution)) (1 / (diameter / 2 * resolution)) :=
        (mem_mgridAxis (by positivity) _ _ _).2 ⟨by have := pi_pos; positivity, 0, by simp⟩
      have := (h _ (List.mem_map_of_mem hr) _ (List.mem_map_of_mem m2)).2
      simpa only [polar_sq] using this
    · intro h row hrow p hp
      obtain ⟨r, hr, rfl⟩ := List.mem_map.1 hrow
      obtain ⟨t, _, rfl⟩ := List.mem_map.1 hp
      refine ⟨hdish _ _, ?_⟩
      simp only [polar_sq]
      exact h r hr

/-- C64, finite cylinders: the mesh lies on the cylinder, from the lower edge to less than half a step beyond the
upper edge; it lies on the finite cylinder exactly if the height, in steps, is not closer than half a step below a
whole number.  What is missing: it may overshoot the upper edge. -/
theorem C64_cylinder_partial {diameter height resolution : ℝ} (hd : 0 < diameter) (hh : 0 < height)
    (hres : 0 < resolution) :
    ∃ m, cylinderMesh diameter height resolution = .ok m ∧
      m.LiesOn (fun p => cylinderSet (diameter / 2) p ∧ -(height / 2) ≤ p.z ∧ p.z < height / 2 + 1 / 2 / resolution) ∧
      (m.LiesOn (finiteCylinderSet (diameter / 2) height) ↔ Int.fract (height * resolution) ≤ 1 - 1 / 2) := by
  have hR : 0 < diameter / 2 := by linarith
  have hpos : 0 < diameter / 2 * resolution := mul_pos hR hres
  have hst : 0 < 1 / resolution := by positivity
  unfold cylinderMesh
  simp only
  rw [if_neg hpos.ne']
  refine ⟨_, rfl, ?_, ?_⟩
  · intro row hrow p hp
    obtain ⟨h, hr, rfl⟩ := List.mem_map.1 hrow
    obtain ⟨t, _, rfl⟩ := List.mem_map.1 hp
    obtain ⟨h1, i, h2⟩ := (mem_mgridAxis hst _ _ _).1 hr
    refine ⟨polar_sq _ _, ?_, h1⟩
    have : 0 ≤ (i : ℝ) * (1 / resolution) := by positivity
    simp only
    linarith
  · rw [← fract_steps (mul_pos hh hres).le]
    have key : ∀ i : Nat, (-(height / 2) + (i : ℝ) * (1 / resolution) < height / 2 + 1 / 2 / resolution ↔
        (i : ℝ) < height * resolution + 1 / 2) ∧
        (-(height / 2) + (i : ℝ) * (1 / resolution) ≤ height / 2 ↔ (i : ℝ) ≤ height * resolution) := by
      intro i
      have e1 : (-(height / 2) + (i : ℝ) * (1 / resolution)) * resolution = -(height / 2 * resolution) + i := by
        field_simp
      have e2 : (height / 2 + 1 / 2 / resolution) * resolution = height / 2 * resolution + 1 / 2 := by field_simp
      constructor
      · rw [← mul_lt_mul_iff_of_pos_right hres, e1, e2]
        constructor <;> intro h <;> linarith
      · rw [← mul_le_mul_iff_of_pos_right hres, e1]
        constructor <;> intro h <;> linarith
    constructor
    · intro h i hi
      have m1 := (mem_mgridAxis hst (-(height / 2)) (height / 2 + 1 / 2 / resolution) _).2
        ⟨((key i).1).2 hi, i, rfl⟩
      have m2 : (0 : ℝ) ∈ mgridAxis 0 (2 * π + 1 / (diameter / 2 * resolution)) (1 / (diameter / 2 * resolution)) :=
        (mem_mgridAxis (by positivity) _ _ _).2 ⟨by have := pi_pos; positivity, 0, by simp⟩
      have := (h _ (List.mem_map_of_mem m1) _ (List.mem_map_of_mem m2)).2
      exact ((key i).2).1 (abs_le.1 this).2
    · intro h row hrow p hp
      obtain ⟨z, hr, rfl⟩ := List.mem_map.1 hrow
      obtain ⟨t, _, rfl⟩ := List.mem_map.1 hp
      obtain ⟨h1, i, rfl⟩ := (mem_mgridAxis hst _ _ _).1 hr
      refine ⟨polar_sq _ _, abs_le.2 ⟨?_, ?_⟩⟩
      · have : 0 ≤ (i : ℝ) * (1 / resolution) := by positivity
        simp only
        linarith
      · exact ((key i).2).2 (h i (((key i).1).1 h1))

theorem fract_big : ¬ Int.fract (199 / 200 : ℝ) ≤ 1 - 1 / 100 := by
  rw [Int.fract_eq_self.2 ⟨by norm_num, by norm_num⟩]; norm_num

/-- C64 fails: meshes of a round plate, a dish and a cylinder that leave the surface. -/
theorem C64_counterexample :
    (∃ m, roundMesh (199 / 200) 1 = .ok m ∧ ¬ m.LiesOn (diskXY (199 / 200))) ∧
    (∃ m, dishMesh (199 / 100) 1 1 = .ok m ∧ ¬ m.LiesOn (dishWithin (199 / 100) 1)) ∧
    (∃ m, cylinderMesh 2 (3 / 5) 1 = .ok m ∧ ¬ m.LiesOn (finiteCylinderSet (2 / 2) (3 / 5))) := by
  refine ⟨?_, ?_, ?_⟩
  · obtain ⟨m, h1, _, h3⟩ := C64_round_partial (R := 199 / 200) (resolution := 1) (by norm_num) one_pos
    refine ⟨m, h1, ?_⟩
    rw [h3, mul_one]; exact fract_big
  · obtain ⟨m, h1, _, h3⟩ := C64_dish_partial (diameter := 199 / 100) (focal := 1) (resolution := 1) (by norm_num)
      one_pos one_pos
    refine ⟨m, h1, ?_⟩
    rw [h3, mul_one, show (199 / 100 / 2 : ℝ) = 199 / 200 by norm_num]; exact fract_big
  · obtain ⟨m, h1, _, h3⟩ := C64_cylinder_partial (diameter := 2) (height := 3 / 5) (resolution := 1) two_pos
      (by norm_num) one_pos
    refine ⟨m, h1, ?_⟩
    rw [h3, mul_one, Int.fract_eq_self.2 ⟨by norm_num, by norm_num⟩]; norm_num

/-- C64: `Surface.mesh` is the mesh of the geometry manager, placed at the frame for tracing. -/
theorem C64_surface (frame : Tf ℝ) {m : Mesh} {S : V3 ℝ → Prop} (h : m.LiesOn S) :
    ∃ g, surfaceMesh frame (.ok m) = .ok g ∧ g.LiesOn (Placed frame S) ∧
      ∀ p, g.Has p ↔ ∃ q, m.Has q ∧ p = frame.point q := by
  refine ⟨_, rfl, ?_, ?_⟩
  · intro row hrow p hp
    obtain ⟨r, hr, rfl⟩ := List.mem_map.1 hrow
    obtain ⟨q, hq, rfl⟩ := List.mem_map.1 hp
    exact ⟨q, h r hr q hq, rfl⟩
  · intro p
    constructor
    · rintro ⟨row, hrow, hp⟩
      obtain ⟨r, hr, rfl⟩ := List.mem_map.1 hrow
      obtain ⟨q, hq, rfl⟩ := List.mem_map.1 hp
      exact ⟨q, ⟨r, hr, hq⟩, rfl⟩
    · rintro ⟨q, ⟨r, hr, hq⟩, rfl⟩
      exact ⟨_, List.mem_map_of_mem hr, List.mem_map_of_mem hq⟩

/-! ## The hypotheses are met -/

example : ∃ m, roundMesh 1 10 = .ok m ∧ m.LiesOn (diskXY 1) := by
  obtain ⟨m, h1, _, h3⟩ := C64_round_partial (R := 1) (resolution := 10) one_pos (by norm_num)
  refine ⟨m, h1, h3.2 ?_⟩
  have : Int.fract (1 * 10 : ℝ) = 0 := by
    rw [one_mul]; exact Int.fract_ofNat 10
  rw [this]; norm_num

example : ∃ m, hemisphereMesh 1 1 = .ok m ∧ m.LiesOn (lowerHalf 1) := by
  obtain ⟨m, h1, _, h3⟩ := C64_hemisphere_partial (R := 1) (resolution := 1) one_pos one_pos
  exact ⟨m, h1, h3 (by linarith [pi_gt_three])⟩

example : (rectMesh 2 3 10).Has ⟨1, -(3 / 2), 0⟩ := by
  have := (C64_rect (width := 2) (height := 3) two_pos (by norm_num) 10).2 1 (by simp) (-1) (by simp)
  norm_num at this
  exact this

example : (∃ m, dishMesh 2 1 10 = .ok m ∧ m.LiesOn (dishWithin 2 1)) ∧
    (∃ m, cylinderMesh 2 3 10 = .ok m ∧ m.LiesOn (finiteCylinderSet (2 / 2) 3) ∧
      ∃ g, surfaceMesh ⟨1, ⟨0, 0, 5⟩⟩ (.ok m) = .ok g ∧ g.LiesOn (Placed ⟨1, ⟨0, 0, 5⟩⟩ (finiteCylinderSet (2 / 2) 3))) := by
  have e1 : Int.fract (2 / 2 * 10 : ℝ) = 0 := by
    rw [show (2 / 2 * 10 : ℝ) = ((10 : ℕ) : ℝ) by norm_num]; exact Int.fract_natCast 10
  have e2 : Int.fract (3 * 10 : ℝ) = 0 := by
    rw [show (3 * 10 : ℝ) = ((30 : ℕ) : ℝ) by norm_num]; exact Int.fract_natCast 30
  obtain ⟨m, h1, _, h3⟩ := C64_dish_partial (diameter := 2) (focal := 1) (resolution := 10) two_pos one_pos (by norm_num)
  obtain ⟨m', h1', _, h3'⟩ := C64_cylinder_partial (diameter := 2) (height := 3) (resolution := 10) two_pos (by norm_num) (by norm_num)
  have hon := h3'.2 (by rw [e2]; norm_num)
  obtain ⟨g, h4, h5, _⟩ := C64_surface ⟨1, ⟨0, 0, 5⟩⟩ hon
  exact ⟨⟨m, h1, h3.2 (by rw [e1]; norm_num)⟩, m', h1', hon, g, h4, h5⟩

end Tracer
