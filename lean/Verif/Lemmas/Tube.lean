import Verif.Lemmas.Course
import Verif.Lemmas.Kaleidoscope
import Verif.Props.Tower

/-! Light in a tube of one-sided mirrors with a receiver at its end. -/

set_option linter.unusedSectionVars false

namespace Tracer

variable {E σ : Type _}

/-- What is used of a wall in the set `S` with the direction `n` into the tube. -/
structure IsWall (s : Surf σ ℝ E) (w : σ) (S : V3 ℝ → Prop) (n : V3 ℝ) (eff : ℝ) : Prop where
  on : ∀ (r : Ray ℝ E) (t : ℝ), s.single r = (t : WithTop ℝ) → 0 ≤ t ∧ S (r.at t)
  met : ∀ (r : Ray ℝ E) (t : ℝ), 1 / 10 ^ 10 < |V3.dot r.dir n| → 0 ≤ t → S (r.at t) → s.single r = (t : WithTop ℝ)
  out : ∀ (r : Ray ℝ E) (t : ℝ), s.single r = (t : WithTop ℝ) → V3.dot r.dir n ≤ 0 →
    ∃ o, s.alone w r = [o] ∧ o.vertex = r.at t ∧ Mirrored r.dir n o.dir ∧ o.energy = r.energy * eff
  along : ∀ r : Ray ℝ E, V3.dot r.dir n = 0 → s.single r = ⊤

theorem dot_at (r : Ray ℝ E) (s t : ℝ) (n : V3 ℝ) : V3.dot (r.at (s + t)) n = V3.dot (r.at s) n + t * V3.dot r.dir n := by
  unfold V3.dot Ray.at
  simp only [V3.add_x, V3.add_y, V3.add_z, V3.smul_x, V3.smul_y, V3.smul_z]
  ring

theorem at_z (r : Ray ℝ E) (s t : ℝ) : (r.at (s + t)).z = (r.at s).z + t * r.dir.z := by
  unfold Ray.at
  simp only [V3.add_z, V3.smul_z]
  ring

theorem at_x (r : Ray ℝ E) (s t : ℝ) : (r.at (s + t)).x = (r.at s).x + t * r.dir.x := by
  unfold Ray.at
  simp only [V3.add_x, V3.smul_x]
  ring

theorem at_y (r : Ray ℝ E) (s t : ℝ) : (r.at (s + t)).y = (r.at s).y + t * r.dir.y := by
  unfold Ray.at
  simp only [V3.add_y, V3.smul_y]
  ring

/-- What is used of a mirror in a plane. -/
theorem ObjNode.IsMirror.wall {o : SceneObj σ ℝ E} {S : V3 ℝ → Prop} {n : V3 ℝ} {eff : ℝ} (h : o.IsMirror S n (1 - eff)) {c : ℝ}
    (hS : ∀ p, S p → V3.dot p n = c) {s : SceneSurf σ ℝ E} (hs : o.surfs = [s]) (w : σ) : IsWall s.surf w S n eff := by
  obtain ⟨s', hs', hh⟩ := h.surface
  rw [hs] at hs'
  cases hs'
  have hsingle : ∀ (r : Ray ℝ E), ∃ p, s.surf.single r = p ∧ (1 / 10 ^ 10 < |V3.dot r.dir n| → FirstAmong (0 ≤ ·) S r.vertex r.dir p) ∧
      (|V3.dot r.dir n| ≤ 1 / 10 ^ 10 → p = ⊤) ∧
      ∀ (t : ℝ) (w : σ), p = (t : WithTop ℝ) → ∃ out, s.surf.outgoing w [r] [0] = .ok ([out], w) ∧
          out.vertex = r.vertex + t • r.dir ∧ Mirrored r.dir n out.dir ∧ out.parent = 0 ∧
          (V3.dot r.dir n ≤ 0 → out.energy = r.energy * (1 - (1 - eff))) ∧
          (0 < V3.dot r.dir n → out.energy = 0) := by
    intro r
    obtain ⟨p, h1, h2⟩ := hh [r] 0 r rfl
    exact ⟨p, single_of_find h1, h2⟩
  refine ⟨?_, ?_, ?_, ?_⟩
  · intro r t ht
    obtain ⟨p, h1, h2, h3, _⟩ := hsingle r
    rw [ht] at h1
    subst h1
    rcases lt_or_ge (1 / 10 ^ 10) |V3.dot r.dir n| with hc | hc
    · obtain ⟨e1, e2, _⟩ := h2 hc
      exact ⟨e1, e2⟩
    · exact absurd (h3 hc) WithTop.coe_ne_top
  · intro r t hc ht hSt
    obtain ⟨p, h1, h2, _⟩ := hsingle r
    rw [h1]
    have hfirst := h2 hc
    cases p with
    | top => exact absurd hSt (hfirst t ht)
    | coe u =>
      obtain ⟨_, hu, _⟩ := hfirst
      congr 1
      have p1 : V3.dot (r.at u) n = c := hS _ hu
      have p2 := hS _ hSt
      have e1 := dot_at r 0 u n
      have e2 := dot_at r 0 t n
      rw [zero_add] at e1 e2
      have hz : (u - t) * V3.dot r.dir n = 0 := by linear_combination p1 - p2 - e1 + e2
      rcases mul_eq_zero.1 hz with h0 | h0
      · linarith
      · rw [h0, abs_zero] at hc
        norm_num at hc
  · intro r t ht hd
    obtain ⟨p, h1, _, _, h4⟩ := hsingle r
    rw [ht] at h1
    obtain ⟨o, e1, e2, e3, _, e4, _⟩ := h4 t w h1.symm
    exact ⟨o, alone_of_outgoing e1, e2, e3, by rw [e4 hd]; ring⟩
  · intro r hd
    obtain ⟨p, h1, _, h3, _⟩ := hsingle r
    rw [h1]
    exact h3 (by rw [hd, abs_zero]; norm_num)

/-- The four directions into the tube, in the order of the objects of a homogenized receiver. -/
def tubeNormal : Nat → V3 ℝ
  | 0 => ⟨-1, 0, 0⟩
  | 1 => ⟨1, 0, 0⟩
  | 2 => ⟨0, 1, 0⟩
  | _ => ⟨0, -1, 0⟩

/-- The distances of the walls from the axis. -/
noncomputable def tubeHalf (x y : ℝ) : Nat → ℝ
  | 0 => x / 2
  | 1 => x / 2
  | _ => y / 2

/-- The point is in wall `k` of the tube. -/
def tubeSet (x y lo hi : ℝ) (k : Nat) (p : V3 ℝ) : Prop :=
  V3.dot p (tubeNormal k) = -tubeHalf x y k ∧ (∀ j < 4, -tubeHalf x y j ≤ V3.dot p (tubeNormal j)) ∧ lo ≤ p.z ∧ p.z ≤ hi

/-- A tube of four walls, a receiver of two sides, and a further object of one surface. -/
structure IsTube (objs : List (Obj σ ℝ E)) (pol : Nat → Policy ℝ E) (w : σ) (x y lo hi eff : ℝ) (ws : Nat → Surf σ ℝ E)
    (front back refl : Surf σ ℝ E) : Prop where
  sites : ∀ z, z ∈ sites objs ↔ (∃ k < 4, z = ⟨k, 0, ws k⟩) ∨ z = ⟨4, 0, front⟩ ∨ z = ⟨4, 1, back⟩ ∨ z = ⟨5, 0, refl⟩
  skip : ∀ k < 5, pol k = Policy.skip
  free : pol 5 = Policy.free
  walls : ∀ k < 4, IsWall (ws k) w (tubeSet x y lo hi k) (tubeNormal k) eff
  frontOn : ∀ (r : Ray ℝ E) (t : ℝ), front.single r = (t : WithTop ℝ) → (r.at t).z = hi ∧ |(r.at t).x| ≤ x / 2 ∧ |(r.at t).y| ≤ y / 2
  backOn : ∀ (r : Ray ℝ E) (t : ℝ), back.single r = (t : WithTop ℝ) →
    (r.at t).z = hi + 1 / 10 ^ 10 ∧ |(r.at t).x| ≤ x / 2 ∧ |(r.at t).y| ≤ y / 2
  frontMet : ∀ (r : Ray ℝ E) (t : ℝ), 1 / 10 ^ 10 < |r.dir.z| → 0 ≤ t → (r.at t).z = hi → |(r.at t).x| ≤ x / 2 → |(r.at t).y| ≤ y / 2 →
    front.single r = (t : WithTop ℝ)
  frontOut : ∀ (r : Ray ℝ E) (t : ℝ), front.single r = (t : WithTop ℝ) → ∃ o, front.alone w r = [o] ∧ o.vertex = r.at t ∧ o.energy = 0

section
variable {objs : List (Obj σ ℝ E)} {pol : Nat → Policy ℝ E} {w : σ} {x y lo hi eff : ℝ} {ws : Nat → Surf σ ℝ E}
  {front back refl : Surf σ ℝ E}

/-- The surface the ray left, if any, is a wall other than those in `bad`, or the further object. -/
def LeftOther (left : Option (Nat × Nat)) (bad : Nat → Prop) : Prop :=
  left = none ∨ left = some (5, 0) ∨ ∃ j < 4, left = some (j, 0) ∧ ¬ bad j

theorem IsTube.may (h : IsTube objs pol w x y lo hi eff ws front back refl) {r : Ray ℝ E} {left : Option (Nat × Nat)} {z : Site σ ℝ E}
    (hl : LeftOther left fun j => j = z.obj) (hz : z.obj < 5) : (⟨r, left⟩ : Going ℝ E).MayMeet pol z := by
  intro o j hoj
  simp only at hoj
  rcases hl with hl | hl | ⟨k, hk, hl, hne⟩
  · rw [hl] at hoj; cases hoj
  · rw [hl] at hoj
    cases hoj
    rw [h.free]
    exact ⟨fun h => absurd h (by simp [Policy.free]), fun h => absurd h (by omega)⟩
  · rw [hl] at hoj
    simp only [Option.some.injEq, Prod.mk.injEq] at hoj
    rw [← hoj.1, h.skip k (by omega)]
    exact ⟨fun h => absurd h (by simp [Policy.skip]), fun h => absurd h.symm hne⟩

/-- The next thing light in the tube meets is the wall `k`. -/
theorem IsTube.only_wall (h : IsTube objs pol w x y lo hi eff ws front back refl) {r : Ray ℝ E} {left : Option (Nat × Nat)} {s τ : ℝ} {k : Nat}
    (hk : k < 4) (hs : 0 ≤ s) (hτ : 1 / 10 ^ 6 < τ) (hin : ∀ j < 4, -tubeHalf x y j ≤ V3.dot (r.at s) (tubeNormal j))
    (hstart : s = 0 ∨ (r.at s).z ≤ lo ∧ ∀ j < 4, -tubeHalf x y j < V3.dot (r.at s) (tubeNormal j))
    (hlo : lo ≤ (r.at s).z) (hup : 0 < r.dir.z) (hon : V3.dot (r.at (s + τ)) (tubeNormal k) = -tubeHalf x y k)
    (hoth : ∀ j < 4, j ≠ k → -tubeHalf x y j < V3.dot (r.at (s + τ)) (tubeNormal j))
    (hsteep : V3.dot r.dir (tubeNormal k) < -(1 / 10 ^ 10)) (hhi : (r.at (s + τ)).z < hi)
    (hl : LeftOther left fun j => j = k) (hrefl : ∀ t : ℝ, refl.single r = (t : WithTop ℝ) → t ≤ selfTol) :
    (⟨r, left⟩ : Going ℝ E).Only Surf.single pol (Tracer.sites objs) ⟨k, 0, ws k⟩ (s + τ) := by
  have hτ0 : 0 < τ := lt_trans (by norm_num) hτ
  have hz1 := at_z r s τ
  refine ⟨(h.sites _).2 (Or.inl ⟨k, hk, rfl⟩), h.may hl (by simp only; omega), ?_, ?_, ?_⟩
  · refine (h.walls k hk).met r (s + τ) (by rw [abs_of_neg (lt_trans hsteep (by norm_num))]; linarith) (by linarith) ⟨hon, ?_, ?_, hhi.le⟩
    · intro j hj
      by_cases hjk : j = k
      · rw [hjk]; exact hon.ge
      · exact (hoth j hj hjk).le
    · nlinarith
  · unfold dropTol; linarith
  · intro z hz hne _ t' ht' hlt
    have hself : (0 : ℝ) < selfTol := by unfold selfTol; norm_num
    rcases (h.sites z).1 hz with ⟨j, hj, rfl⟩ | rfl | rfl | rfl
    · have hjk : j ≠ k := by
        rintro rfl
        exact hne ⟨rfl, rfl⟩
      obtain ⟨h0, hS, _, hSlo, _⟩ := (h.walls j hj).on r t' ht'
      have hs' : s ≤ t' ∧ (s < t' ∨ -tubeHalf x y j < V3.dot (r.at s) (tubeNormal j)) := by
        rcases hstart with rfl | ⟨h1, h2⟩
        · exact ⟨h0, Or.inl (lt_trans hself hlt)⟩
        · refine ⟨?_, Or.inr (h2 j hj)⟩
          by_contra hcon
          push Not at hcon
          have := at_z r s (t' - s)
          rw [show s + (t' - s) = t' by ring] at this
          nlinarith
      obtain ⟨hs1, hs2⟩ := hs'
      by_contra hcon
      push Not at hcon
      have e1 := dot_at r s τ (tubeNormal j)
      have e2 := dot_at r s (t' - s) (tubeNormal j)
      rw [show s + (t' - s) = t' by ring, hS] at e2
      have h1 := hoth j hj hjk
      rw [e1] at h1
      have h2 := hin j hj
      generalize V3.dot r.dir (tubeNormal j) = v at *
      generalize V3.dot (r.at s) (tubeNormal j) = p at *
      rcases hs2 with hs2 | hs2
      · have hu : 0 < t' - s := by linarith
        have hu' : t' - s ≤ τ := by linarith
        generalize t' - s = u at *
        -- p + u v = -H, p ≥ -H, p + τ v > -H
        by_cases hv : v < 0
        · nlinarith
        · push Not at hv
          have : u * v = 0 := le_antisymm (by linarith) (by positivity)
          rcases mul_eq_zero.1 this with h0 | h0
          · linarith
          · rw [h0] at e2 h1; linarith
      · have h3 := hs2
        have hu' : t' - s ≤ τ := by linarith
        have hu : 0 ≤ t' - s := by linarith
        generalize t' - s = u at *
        by_cases hv : v < 0
        · nlinarith
        · push Not at hv
          have := mul_nonneg hu hv
          linarith
    · have h1 := (h.frontOn r t' ht').1
      have h2 := at_z r (s + τ) (t' - (s + τ))
      rw [show s + τ + (t' - (s + τ)) = t' by ring, h1] at h2
      by_contra hcon
      push Not at hcon
      nlinarith
    · have h1 := (h.backOn r t' ht').1
      have h2 := at_z r (s + τ) (t' - (s + τ))
      rw [show s + τ + (t' - (s + τ)) = t' by ring, h1] at h2
      by_contra hcon
      push Not at hcon
      nlinarith
    · exact absurd (hrefl t' ht') (not_le.2 hlt)

/-- The next thing light in the tube meets is the receiver. -/
theorem IsTube.only_front (h : IsTube objs pol w x y lo hi eff ws front back refl) {r : Ray ℝ E} {left : Option (Nat × Nat)} {s T : ℝ}
    (hs : 0 ≤ s) (hT : 1 / 10 ^ 6 < T) (hin : ∀ j < 4, -tubeHalf x y j ≤ V3.dot (r.at s) (tubeNormal j))
    (hstart : s = 0 ∨ (r.at s).z ≤ lo ∧ ∀ j < 4, -tubeHalf x y j < V3.dot (r.at s) (tubeNormal j))
    (hup : 1 / 10 ^ 10 < r.dir.z) (hon : (r.at (s + T)).z = hi)
    (hoth : ∀ j < 4, -tubeHalf x y j < V3.dot (r.at (s + T)) (tubeNormal j))
    (hl : LeftOther left fun _ => False) (hrefl : ∀ t : ℝ, refl.single r = (t : WithTop ℝ) → t ≤ selfTol) :
    (⟨r, left⟩ : Going ℝ E).Only Surf.single pol (Tracer.sites objs) ⟨4, 0, front⟩ (s + T) := by
  have hT0 : 0 < T := lt_trans (by norm_num) hT
  have hup0 : 0 < r.dir.z := lt_trans (by norm_num) hup
  have hl' : LeftOther left fun j => j = 4 := by
    rcases hl with hl | hl | ⟨j, hj, hl, _⟩
    · exact Or.inl hl
    · exact Or.inr (Or.inl hl)
    · exact Or.inr (Or.inr ⟨j, hj, hl, by omega⟩)
  refine ⟨(h.sites _).2 (Or.inr (Or.inl rfl)), h.may hl' (by simp only; omega), ?_, ?_, ?_⟩
  · refine h.frontMet r (s + T) (by rw [abs_of_pos hup0]; exact hup) (by linarith) hon ?_ ?_
    · have h0 := hoth 0 (by omega)
      have h1 := hoth 1 (by omega)
      simp only [tubeHalf, tubeNormal, V3.dot] at h0 h1
      rw [abs_le]
      constructor <;> linarith
    · have h0 := hoth 2 (by omega)
      have h1 := hoth 3 (by omega)
      simp only [tubeHalf, tubeNormal, V3.dot] at h0 h1
      rw [abs_le]
      constructor <;> linarith
  · unfold dropTol; linarith
  · intro z hz hne _ t' ht' hlt
    have hself : (0 : ℝ) < selfTol := by unfold selfTol; norm_num
    rcases (h.sites z).1 hz with ⟨j, hj, rfl⟩ | rfl | rfl | rfl
    · obtain ⟨h0, hS, _, hSlo, _⟩ := (h.walls j hj).on r t' ht'
      have hs' : s ≤ t' ∧ (s < t' ∨ -tubeHalf x y j < V3.dot (r.at s) (tubeNormal j)) := by
        rcases hstart with rfl | ⟨h1, h2⟩
        · exact ⟨h0, Or.inl (lt_trans hself hlt)⟩
        · refine ⟨?_, Or.inr (h2 j hj)⟩
          by_contra hcon
          push Not at hcon
          have := at_z r s (t' - s)
          rw [show s + (t' - s) = t' by ring] at this
          nlinarith
      obtain ⟨hs1, hs2⟩ := hs'
      by_contra hcon
      push Not at hcon
      have e1 := dot_at r s T (tubeNormal j)
      have e2 := dot_at r s (t' - s) (tubeNormal j)
      rw [show s + (t' - s) = t' by ring, hS] at e2
      have h1 := hoth j hj
      rw [e1] at h1
      have h2 := hin j hj
      generalize V3.dot r.dir (tubeNormal j) = v at *
      generalize V3.dot (r.at s) (tubeNormal j) = p at *
      rcases hs2 with hs2 | hs2
      · have hu : 0 < t' - s := by linarith
        have hu' : t' - s ≤ T := by linarith
        generalize t' - s = u at *
        by_cases hv : v < 0
        · nlinarith
        · push Not at hv
          have : u * v = 0 := le_antisymm (by linarith) (by positivity)
          rcases mul_eq_zero.1 this with h0 | h0
          · linarith
          · rw [h0] at e2 h1; linarith
      · have h3 := hs2
        have hu' : t' - s ≤ T := by linarith
        have hu : 0 ≤ t' - s := by linarith
        generalize t' - s = u at *
        by_cases hv : v < 0
        · nlinarith
        · push Not at hv
          have := mul_nonneg hu hv
          linarith
    · exact absurd ⟨rfl, rfl⟩ hne
    · have h1 := (h.backOn r t' ht').1
      have h2 := at_z r (s + T) (t' - (s + T))
      rw [show s + T + (t' - (s + T)) = t' by ring, h1, hon] at h2
      by_contra hcon
      push Not at hcon
      nlinarith
    · exact absurd (hrefl t' ht') (not_le.2 hlt)

end
end Tracer
