import Verif.Lemmas.Tube

/-! The whole way of light through a tube of one-sided mirrors. -/

set_option linter.unusedSectionVars false

namespace Tracer

variable {E σ : Type _}

/-- The number of reflections on the way from `p` along `d`. -/
noncomputable def bounces (x y : ℝ) (p d : V3 ℝ) (T : ℝ) : Nat :=
  (cellOf x (p.x + T * d.x)).natAbs + (cellOf y (p.y + T * d.y)).natAbs

/-- The point at which the light arrives. -/
noncomputable def arrival (x y hi : ℝ) (p d : V3 ℝ) (T : ℝ) : V3 ℝ :=
  ⟨foldInto x (p.x + T * d.x), foldInto y (p.y + T * d.y), hi⟩

theorem crossing_eq {hi s T : ℝ} {v d : V3 ℝ} (hd : 0 < d.z) (h : (v + s • d).z + T * d.z = hi) :
    crossing hi v d = ⟨(v + s • d).x + T * d.x, (v + s • d).y + T * d.y, hi⟩ := by
  have e : (hi - v.z) / d.z = s + T := by
    rw [div_eq_iff hd.ne', ← h]
    simp only [V3.add_z, V3.smul_z]
    ring
  unfold crossing
  rw [e]
  apply V3.ext
  · simp only [V3.add_x, V3.smul_x]; ring
  · simp only [V3.add_y, V3.smul_y]; ring
  · rw [← h]
    simp only [V3.add_z, V3.smul_z]
    ring

/-- Light in the tube, perhaps on a wall it just left. -/
structure InTube (x y lo hi : ℝ) (p d : V3 ℝ) (T : ℝ) : Prop where
  laneX : Lane x p.x d.x T
  laneY : Lane y p.y d.y T
  apart : ∀ t t' : ℝ, 0 < t → t ≤ T → 0 < t' → t' ≤ T → OnEdge x (p.x + t * d.x) → OnEdge y (p.y + t' * d.y) → 1 / 10 ^ 6 < |t - t'|
  low : lo ≤ p.z
  up : 1 / 10 ^ 10 < d.z
  reach : p.z + T * d.z = hi
  far : 1 / 10 ^ 6 < T

theorem Enters.inTube {x y lo hi T : ℝ} {p d : V3 ℝ} (h : Enters x y lo hi p d T) : InTube x y lo hi p d T where
  laneX := ⟨by have := h.insideX; have := abs_nonneg p.x; linarith, h.insideX.le, fun e => absurd e h.insideX.ne, h.steepX, h.slowX, h.endsX⟩
  laneY := ⟨by have := h.insideY; have := abs_nonneg p.y; linarith, h.insideY.le, fun e => absurd e h.insideY.ne, h.steepY, h.slowY, h.endsY⟩
  apart := h.apart
  low := h.low
  up := h.up
  reach := h.reach
  far := h.far

theorem mirrored_x {d e : V3 ℝ} {s : ℝ} (hs : s * s = 1) (h : Mirrored d ⟨s, 0, 0⟩ e) : e = ⟨-d.x, d.y, d.z⟩ := by
  obtain ⟨h1, h2⟩ := h
  have e1 := congrArg V3.x h2
  have e2 := congrArg V3.y h2
  have e3 := congrArg V3.z h2
  simp only [V3.dot, V3.cross] at h1 e1 e2 e3
  apply V3.ext
  · simp only; linear_combination s * h1 - (e.x + d.x) * hs
  · simp only; linear_combination -s * e3 - (e.y - d.y) * hs
  · simp only; linear_combination s * e2 - (e.z - d.z) * hs

theorem mirrored_y {d e : V3 ℝ} {s : ℝ} (hs : s * s = 1) (h : Mirrored d ⟨0, s, 0⟩ e) : e = ⟨d.x, -d.y, d.z⟩ := by
  obtain ⟨h1, h2⟩ := h
  have e1 := congrArg V3.x h2
  have e2 := congrArg V3.y h2
  have e3 := congrArg V3.z h2
  simp only [V3.dot, V3.cross] at h1 e1 e2 e3
  apply V3.ext
  · simp only; linear_combination s * e3 - (e.x - d.x) * hs
  · simp only; linear_combination s * h1 - (e.y + d.y) * hs
  · simp only; linear_combination -s * e1 - (e.z - d.z) * hs

theorem tube_all {x y : ℝ} {p : V3 ℝ} (hx : |p.x| ≤ x / 2) (hy : |p.y| ≤ y / 2) : ∀ j < 4, -tubeHalf x y j ≤ V3.dot p (tubeNormal j) := by
  obtain ⟨h1, h2⟩ := abs_le.1 hx
  obtain ⟨h3, h4⟩ := abs_le.1 hy
  intro j hj
  obtain rfl | rfl | rfl | rfl : j = 0 ∨ j = 1 ∨ j = 2 ∨ j = 3 := by omega
  all_goals simp only [tubeHalf, tubeNormal, V3.dot]; linarith

theorem tube_all' {x y : ℝ} {p : V3 ℝ} (hx : |p.x| < x / 2) (hy : |p.y| < y / 2) : ∀ j < 4, -tubeHalf x y j < V3.dot p (tubeNormal j) := by
  obtain ⟨h1, h2⟩ := abs_lt.1 hx
  obtain ⟨h3, h4⟩ := abs_lt.1 hy
  intro j hj
  obtain rfl | rfl | rfl | rfl : j = 0 ∨ j = 1 ∨ j = 2 ∨ j = 3 := by omega
  all_goals simp only [tubeHalf, tubeNormal, V3.dot]; linarith

section
variable {objs : List (Obj σ ℝ E)} {pol : Nat → Policy ℝ E} {w : σ} {x y lo hi eff : ℝ} {ws : Nat → Surf σ ℝ E}
  {front back refl : Surf σ ℝ E}

/-- The ray comes from nowhere, from the further object, or from a wall it is still on. -/
def LeftWall (x y : ℝ) (r : Ray ℝ E) (s : ℝ) (left : Option (Nat × Nat)) : Prop :=
  left = none ∨ left = some (5, 0) ∨ ∃ j < 4, left = some (j, 0) ∧ V3.dot (r.at s) (tubeNormal j) = -tubeHalf x y j

/-- The ray begins in the tube, or comes in from below. -/
def ComesIn (x y lo : ℝ) (r : Ray ℝ E) (s : ℝ) : Prop :=
  0 ≤ s ∧ (s = 0 ∨ (r.at s).z ≤ lo ∧ |(r.at s).x| < x / 2 ∧ |(r.at s).y| < y / 2)

theorem IsTube.bounce (h : IsTube objs pol w x y lo hi eff ws front back refl) {r : Ray ℝ E} {left : Option (Nat × Nat)} {s τ T : ℝ} {k : Nat}
    (hk : k < 4) (hs : ComesIn x y lo r s) (hin : InTube x y lo hi (r.at s) r.dir T) (hτ : 1 / 10 ^ 6 < τ) (hτT : τ < T)
    (hon : V3.dot (r.at (s + τ)) (tubeNormal k) = -tubeHalf x y k)
    (hoth : ∀ j < 4, j ≠ k → -tubeHalf x y j < V3.dot (r.at (s + τ)) (tubeNormal j))
    (hsteep : V3.dot r.dir (tubeNormal k) < -(1 / 10 ^ 10)) (hl : LeftWall x y r s left)
    (hrefl : ∀ t : ℝ, refl.single r = (t : WithTop ℝ) → t ≤ selfTol) :
    (⟨r, left⟩ : Going ℝ E).Only Surf.single pol (Tracer.sites objs) ⟨k, 0, ws k⟩ (s + τ) ∧
      ∃ o, (ws k).alone w r = [o] ∧ o.vertex = r.at (s + τ) ∧ Mirrored r.dir (tubeNormal k) o.dir ∧ o.energy = r.energy * eff := by
  have hup : 0 < r.dir.z := lt_trans (by norm_num) hin.up
  have honly : (⟨r, left⟩ : Going ℝ E).Only Surf.single pol (Tracer.sites objs) ⟨k, 0, ws k⟩ (s + τ) := by
    refine h.only_wall hk hs.1 hτ (tube_all hin.laneX.inside hin.laneY.inside) ?_ hin.low hup hon hoth hsteep ?_ ?_ hrefl
    · rcases hs.2 with h0 | ⟨h1, h2, h3⟩
      · exact Or.inl h0
      · exact Or.inr ⟨h1, tube_all' h2 h3⟩
    · rw [at_z]
      have := hin.reach
      nlinarith
    · rcases hl with hl | hl | ⟨j, hj, hl, hjon⟩
      · exact Or.inl hl
      · exact Or.inr (Or.inl hl)
      · refine Or.inr (Or.inr ⟨j, hj, hl, ?_⟩)
        rintro rfl
        have := dot_at r s τ (tubeNormal j)
        rw [hon, hjon] at this
        have hτ0 : 0 < τ := lt_trans (by norm_num) hτ
        nlinarith
  exact ⟨honly, (h.walls k hk).out r _ honly.met (by linarith)⟩

theorem IsTube.bounceX (h : IsTube objs pol w x y lo hi eff ws front back refl) {r : Ray ℝ E} {left : Option (Nat × Nat)} {s τ T : ℝ} {g : ℤ}
    (hg : g = 1 ∨ g = -1) (hs : ComesIn x y lo r s) (hin : InTube x y lo hi (r.at s) r.dir T) (hτ : 1 / 10 ^ 6 < τ) (hτT : τ < T)
    (hon : (r.at s).x + τ * r.dir.x = g * (x / 2)) (hout : 0 < g * r.dir.x) (hy : |(r.at s).y + τ * r.dir.y| < y / 2)
    (hl : LeftWall x y r s left) (hrefl : ∀ t : ℝ, refl.single r = (t : WithTop ℝ) → t ≤ selfTol) :
    ∃ k < 4, (⟨r, left⟩ : Going ℝ E).Only Surf.single pol (Tracer.sites objs) ⟨k, 0, ws k⟩ (s + τ) ∧
      ∃ o, (ws k).alone w r = [o] ∧ o.vertex = r.at (s + τ) ∧ o.dir = ⟨-r.dir.x, r.dir.y, r.dir.z⟩ ∧ o.energy = r.energy * eff ∧
        LeftWall x y o 0 (some (k, 0)) := by
  rw [← at_x] at hon
  rw [← at_y] at hy
  obtain ⟨y1, y2⟩ := abs_lt.1 hy
  have hx0 := hin.laneX.pos
  have hst : 1 / 10 ^ 10 < |r.dir.x| := by
    rcases hin.laneX.steep with e | e
    · rw [e] at hout; simp at hout
    · exact e
  have key : ∀ k < 4, tubeNormal k = ⟨-g, 0, 0⟩ → tubeHalf x y k = x / 2 →
      (∀ j < 4, j ≠ k → -tubeHalf x y j < V3.dot (r.at (s + τ)) (tubeNormal j)) → ∃ k < 4, (⟨r, left⟩ : Going ℝ E).Only Surf.single pol (Tracer.sites objs) ⟨k, 0, ws k⟩ (s + τ) ∧
      ∃ o, (ws k).alone w r = [o] ∧ o.vertex = r.at (s + τ) ∧ o.dir = ⟨-r.dir.x, r.dir.y, r.dir.z⟩ ∧ o.energy = r.energy * eff ∧
        LeftWall x y o 0 (some (k, 0)) := by
    intro k hk e1 e2 e3
    have hgg : (g : ℝ) * g = 1 := by rcases hg with rfl | rfl <;> norm_num
    have hon' : V3.dot (r.at (s + τ)) (tubeNormal k) = -tubeHalf x y k := by
      rw [e1, e2]
      simp only [V3.dot]
      rw [hon]
      linear_combination -(x / 2) * hgg
    obtain ⟨h1, o, h2, h3, h4, h5⟩ := h.bounce hk hs hin hτ hτT hon' e3 (by
      rw [e1]
      simp only [V3.dot]
      have : |r.dir.x| = g * r.dir.x := by
        rw [← abs_of_pos hout]
        rcases hg with rfl | rfl <;> simp
      linarith) hl hrefl
    refine ⟨k, hk, h1, o, h2, h3, ?_, h5, Or.inr (Or.inr ⟨k, hk, rfl, ?_⟩)⟩
    · rw [e1] at h4
      exact mirrored_x (by linear_combination hgg) h4
    · rw [← hon', ← h3]
      unfold Ray.at
      congr 1
      apply V3.ext <;> simp
  rcases hg with rfl | rfl
  · refine key 0 (by omega) (by simp [tubeNormal]) rfl ?_
    intro j hj hj0
    obtain rfl | rfl | rfl : j = 1 ∨ j = 2 ∨ j = 3 := by omega
    all_goals simp only [tubeHalf, tubeNormal, V3.dot]; push_cast at hon; linarith
  · refine key 1 (by omega) (by simp [tubeNormal]) rfl ?_
    intro j hj hj0
    obtain rfl | rfl | rfl : j = 0 ∨ j = 2 ∨ j = 3 := by omega
    all_goals simp only [tubeHalf, tubeNormal, V3.dot]; push_cast at hon; linarith

theorem IsTube.bounceY (h : IsTube objs pol w x y lo hi eff ws front back refl) {r : Ray ℝ E} {left : Option (Nat × Nat)} {s τ T : ℝ} {g : ℤ}
    (hg : g = 1 ∨ g = -1) (hs : ComesIn x y lo r s) (hin : InTube x y lo hi (r.at s) r.dir T) (hτ : 1 / 10 ^ 6 < τ) (hτT : τ < T)
    (hon : (r.at s).y + τ * r.dir.y = g * (y / 2)) (hout : 0 < g * r.dir.y) (hx : |(r.at s).x + τ * r.dir.x| < x / 2)
    (hl : LeftWall x y r s left) (hrefl : ∀ t : ℝ, refl.single r = (t : WithTop ℝ) → t ≤ selfTol) :
    ∃ k < 4, (⟨r, left⟩ : Going ℝ E).Only Surf.single pol (Tracer.sites objs) ⟨k, 0, ws k⟩ (s + τ) ∧
      ∃ o, (ws k).alone w r = [o] ∧ o.vertex = r.at (s + τ) ∧ o.dir = ⟨r.dir.x, -r.dir.y, r.dir.z⟩ ∧ o.energy = r.energy * eff ∧
        LeftWall x y o 0 (some (k, 0)) := by
  rw [← at_y] at hon
  rw [← at_x] at hx
  obtain ⟨x1, x2⟩ := abs_lt.1 hx
  have hy0 := hin.laneY.pos
  have hst : 1 / 10 ^ 10 < |r.dir.y| := by
    rcases hin.laneY.steep with e | e
    · rw [e] at hout; simp at hout
    · exact e
  have key : ∀ k < 4, tubeNormal k = ⟨0, -g, 0⟩ → tubeHalf x y k = y / 2 →
      (∀ j < 4, j ≠ k → -tubeHalf x y j < V3.dot (r.at (s + τ)) (tubeNormal j)) → ∃ k < 4, (⟨r, left⟩ : Going ℝ E).Only Surf.single pol (Tracer.sites objs) ⟨k, 0, ws k⟩ (s + τ) ∧
      ∃ o, (ws k).alone w r = [o] ∧ o.vertex = r.at (s + τ) ∧ o.dir = ⟨r.dir.x, -r.dir.y, r.dir.z⟩ ∧ o.energy = r.energy * eff ∧
        LeftWall x y o 0 (some (k, 0)) := by
    intro k hk e1 e2 e3
    have hgg : (g : ℝ) * g = 1 := by rcases hg with rfl | rfl <;> norm_num
    have hon' : V3.dot (r.at (s + τ)) (tubeNormal k) = -tubeHalf x y k := by
      rw [e1, e2]
      simp only [V3.dot]
      rw [hon]
      linear_combination -(y / 2) * hgg
    obtain ⟨h1, o, h2, h3, h4, h5⟩ := h.bounce hk hs hin hτ hτT hon' e3 (by
      rw [e1]
      simp only [V3.dot]
      have : |r.dir.y| = g * r.dir.y := by
        rw [← abs_of_pos hout]
        rcases hg with rfl | rfl <;> simp
      linarith) hl hrefl
    refine ⟨k, hk, h1, o, h2, h3, ?_, h5, Or.inr (Or.inr ⟨k, hk, rfl, ?_⟩)⟩
    · rw [e1] at h4
      exact mirrored_y (by linear_combination hgg) h4
    · rw [← hon', ← h3]
      unfold Ray.at
      congr 1
      apply V3.ext <;> simp
  rcases hg with rfl | rfl
  · refine key 3 (by omega) (by simp [tubeNormal]) rfl ?_
    intro j hj hj0
    obtain rfl | rfl | rfl : j = 0 ∨ j = 1 ∨ j = 2 := by omega
    all_goals simp only [tubeHalf, tubeNormal, V3.dot]; push_cast at hon; linarith
  · refine key 2 (by omega) (by simp [tubeNormal]) rfl ?_
    intro j hj hj0
    obtain rfl | rfl | rfl : j = 0 ∨ j = 1 ∨ j = 3 := by omega
    all_goals simp only [tubeHalf, tubeNormal, V3.dot]; push_cast at hon; linarith

/-- The legs of a way that end at the front of the receiver. -/
def toFront (P : List (Leg σ ℝ E)) : List (Ray ℝ E × ℝ) :=
  P.flatMap fun z => if 4 = z.site.obj ∧ 0 = z.site.num then [(z.going.ray, z.t)] else []

/-- The way of light through the tube, from wherever it begins or comes in. -/
theorem IsTube.course (h : IsTube objs pol w x y lo hi eff ws front back refl) (h0 : 0 ≤ eff) (h1 : eff ≤ 1) {minE : ℝ} (hm : 0 ≤ minE)
    {cx cy cz : ℝ} (hR : ∀ r : Ray ℝ E, lo ≤ r.vertex.z → |r.dir.x| = cx → |r.dir.y| = cy → r.dir.z = cz →
      ∀ t : ℝ, refl.single r = (t : WithTop ℝ) → t ≤ selfTol) :
    ∀ (N : Nat) (r : Ray ℝ E) (left : Option (Nat × Nat)) (s T : ℝ), ComesIn x y lo r s → InTube x y lo hi (r.at s) r.dir T →
      |r.dir.x| = cx → |r.dir.y| = cy → r.dir.z = cz → LeftWall x y r s left →
      (∀ t : ℝ, refl.single r = (t : WithTop ℝ) → t ≤ selfTol) → bounces x y (r.at s) r.dir T = N → 0 ≤ r.energy → minE < r.energy * eff ^ N →
      ∃ P q τ, Course Surf.single (Surf.alone w) pol (Tracer.sites objs) minE ⟨r, left⟩ P ∧ P.length = N + 1 ∧ toFront P = [(q, τ)] ∧
        q.energy = r.energy * eff ^ N ∧ q.at τ = arrival x y hi (r.at s) r.dir T := by
  intro N
  induction N with
  | zero =>
    intro r left s T hs hin hcx hcy hcz hl hrefl hN he hmin
    have hT0 : 0 < T := lt_trans (by norm_num) hin.far
    unfold bounces at hN
    have hx := hin.laneX.cases hT0
    have hy := hin.laneY.cases hT0
    obtain ⟨_, hx⟩ : cellOf x ((r.at s).x + T * r.dir.x) = 0 ∧ |(r.at s).x + T * r.dir.x| < x / 2 := by
      rcases hx with hx | ⟨_, _, _, _, _, _, _, _, _, _, _, hx⟩
      · exact hx
      · exact absurd hN (by rw [← hx]; exact Nat.ne_of_gt (Nat.add_pos_left (Nat.succ_pos _) _))
    obtain ⟨_, hy⟩ : cellOf y ((r.at s).y + T * r.dir.y) = 0 ∧ |(r.at s).y + T * r.dir.y| < y / 2 := by
      rcases hy with hy | ⟨_, _, _, _, _, _, _, _, _, _, _, hy⟩
      · exact hy
      · exact absurd hN (by rw [← hy]; exact Nat.ne_of_gt (Nat.add_pos_right _ (Nat.succ_pos _)))
    have hend : (r.at (s + T)).z = hi := by rw [at_z]; exact hin.reach
    have honly : (⟨r, left⟩ : Going ℝ E).Only Surf.single pol (Tracer.sites objs) ⟨4, 0, front⟩ (s + T) := by
      refine h.only_front hs.1 hin.far (tube_all hin.laneX.inside hin.laneY.inside) ?_ hin.up hend
        (tube_all' (by rw [at_x]; exact hx) (by rw [at_y]; exact hy)) ?_ hrefl
      · rcases hs.2 with h0 | ⟨h1, h2, h3⟩
        · exact Or.inl h0
        · exact Or.inr ⟨h1, tube_all' h2 h3⟩
      · rcases hl with hl | hl | ⟨j, hj, hl, _⟩
        · exact Or.inl hl
        · exact Or.inr (Or.inl hl)
        · exact Or.inr (Or.inr ⟨j, hj, hl, id⟩)
    obtain ⟨o, ho, _, ho2⟩ := h.frontOut r _ honly.met
    refine ⟨_, r, s + T, .last _ _ _ honly ?_, rfl, rfl, by simp, ?_⟩
    · intro q hq
      simp only [ho, List.mem_singleton] at hq
      rw [hq, ho2]
      exact hm
    · unfold arrival
      rw [foldInto_zero hin.laneX.pos hx, foldInto_zero hin.laneY.pos hy, ← at_x, ← at_y, ← hend]
  | succ N ih =>
    intro r left s T hs hin hcx hcy hcz hl hrefl hN he hmin
    have hT0 : 0 < T := lt_trans (by norm_num) hin.far
    have hx := hin.laneX.cases hT0
    have hy := hin.laneY.cases hT0
    have hpow : ∀ o : Ray ℝ E, o.energy = r.energy * eff → 0 ≤ o.energy ∧ minE < o.energy * eff ^ N ∧ minE < o.energy ∧
        o.energy * eff ^ N = r.energy * eff ^ (N + 1) := by
      intro o ho
      have e : o.energy * eff ^ N = r.energy * eff ^ (N + 1) := by rw [ho, pow_succ]; ring
      have h2 : 0 ≤ o.energy := by rw [ho]; exact mul_nonneg he h0
      have h3 : eff ^ N ≤ 1 := pow_le_one₀ h0 h1
      exact ⟨h2, by rw [e]; exact hmin, by nlinarith, e⟩
    have at0 : ∀ o : Ray ℝ E, o.at 0 = o.vertex := by
      intro o
      unfold Ray.at
      apply V3.ext <;> simp
    -- the ray meets a wall across X at `τ`
    have doX : ∀ (g : ℤ) (τ : ℝ), (g = 1 ∨ g = -1) → 1 / 10 ^ 6 < τ → τ + 1 / 10 ^ 6 < T → (r.at s).x + τ * r.dir.x = g * (x / 2) →
        0 < g * r.dir.x → Lane x (g * (x / 2)) (-r.dir.x) (T - τ) →
        (∀ t, OnEdge x (g * (x / 2) + t * -r.dir.x) ↔ OnEdge x ((r.at s).x + (τ + t) * r.dir.x)) →
        foldInto x (g * (x / 2) + (T - τ) * -r.dir.x) = foldInto x ((r.at s).x + T * r.dir.x) →
        (cellOf x (g * (x / 2) + (T - τ) * -r.dir.x)).natAbs + 1 = (cellOf x ((r.at s).x + T * r.dir.x)).natAbs →
        |(r.at s).y + τ * r.dir.y| < y / 2 →
        ∃ P q τ, Course Surf.single (Surf.alone w) pol (Tracer.sites objs) minE ⟨r, left⟩ P ∧ P.length = N + 1 + 1 ∧ toFront P = [(q, τ)] ∧
          q.energy = r.energy * eff ^ (N + 1) ∧ q.at τ = arrival x y hi (r.at s) r.dir T := by
      intro g τ hg hτ hτT hon hout hlane hedge hfold hcell hyin
      have hτ0 : 0 < τ := lt_trans (by norm_num) hτ
      obtain ⟨k, hk, honly, o, ho, hov, hod, hoe, hol⟩ := h.bounceX hg hs hin hτ (by linarith) hon hout hyin hl hrefl
      have hpx : (o.at 0).x = g * (x / 2) := by rw [at0, hov, at_x, hon]
      have hpy : (o.at 0).y = (r.at s).y + τ * r.dir.y := by rw [at0, hov, at_y]
      have hpz : (o.at 0).z = (r.at s).z + τ * r.dir.z := by rw [at0, hov, at_z]
      have hdx : o.dir.x = -r.dir.x := by rw [hod]
      have hdy : o.dir.y = r.dir.y := by rw [hod]
      have hdz : o.dir.z = r.dir.z := by rw [hod]
      have hup : 0 < r.dir.z := lt_trans (by norm_num) hin.up
      have hedgeτ : OnEdge x ((r.at s).x + τ * r.dir.x) := by rw [hon]; exact onEdge_half hg
      have hlow : lo ≤ (o.at 0).z := by
        rw [hpz]
        have := hin.low
        nlinarith
      have hin' : InTube x y lo hi (o.at 0) o.dir (T - τ) := by
        refine ⟨?_, ?_, ?_, hlow, by rw [hdz]; exact hin.up, ?_, by linarith⟩
        · rw [hpx, hdx]; exact hlane
        · rw [hpy, hdy]
          refine hin.laneY.advance hτ0 hyin fun t ht htT he => ?_
          have := hin.apart τ t hτ0 (by linarith) (by linarith) htT hedgeτ he
          rw [abs_of_neg (by linarith)] at this
          linarith
        · intro t t' ht htT ht' htT' e e'
          rw [hpx, hdx, hedge] at e
          rw [hpy, hdy, show (r.at s).y + τ * r.dir.y + t' * r.dir.y = (r.at s).y + (τ + t') * r.dir.y by ring] at e'
          have := hin.apart (τ + t) (τ + t') (by linarith) (by linarith) (by linarith) (by linarith) e e'
          rwa [show τ + t - (τ + t') = t - t' by ring] at this
        · rw [hpz, hdz, ← hin.reach]; ring
      have hux : (o.at 0).x + (T - τ) * o.dir.x = g * (x / 2) + (T - τ) * -r.dir.x := by rw [hpx, hdx]
      have huy : (o.at 0).y + (T - τ) * o.dir.y = (r.at s).y + T * r.dir.y := by rw [hpy, hdy]; ring
      obtain ⟨p1, p2, p3, p4⟩ := hpow o hoe
      obtain ⟨P, q, τ', c1, c2, c3, c4, c5⟩ := ih o (some (k, 0)) 0 (T - τ) ⟨le_rfl, Or.inl rfl⟩ hin' (by rw [hdx, abs_neg]; exact hcx)
        (by rw [hdy]; exact hcy) (by rw [hdz]; exact hcz) hol
        (hR o (by rw [at0] at hlow; exact hlow) (by rw [hdx, abs_neg]; exact hcx) (by rw [hdy]; exact hcy) (by rw [hdz]; exact hcz))
        (by
          unfold bounces at hN ⊢
          rw [hux, huy]
          omega) p1 p2
      refine ⟨_, q, τ', .step _ ⟨k, 0, ws k⟩ _ o P honly ho p3 c1, by simp [c2], ?_, by rw [c4, p4], ?_⟩
      · unfold toFront at c3 ⊢
        rw [List.flatMap_cons, if_neg (by simp only; omega), List.nil_append, c3]
      · rw [c5]
        unfold arrival
        rw [hux, huy, hfold]
    have doY : ∀ (g : ℤ) (τ : ℝ), (g = 1 ∨ g = -1) → 1 / 10 ^ 6 < τ → τ + 1 / 10 ^ 6 < T → (r.at s).y + τ * r.dir.y = g * (y / 2) →
        0 < g * r.dir.y → Lane y (g * (y / 2)) (-r.dir.y) (T - τ) →
        (∀ t, OnEdge y (g * (y / 2) + t * -r.dir.y) ↔ OnEdge y ((r.at s).y + (τ + t) * r.dir.y)) →
        foldInto y (g * (y / 2) + (T - τ) * -r.dir.y) = foldInto y ((r.at s).y + T * r.dir.y) →
        (cellOf y (g * (y / 2) + (T - τ) * -r.dir.y)).natAbs + 1 = (cellOf y ((r.at s).y + T * r.dir.y)).natAbs →
        |(r.at s).x + τ * r.dir.x| < x / 2 →
        ∃ P q τ, Course Surf.single (Surf.alone w) pol (Tracer.sites objs) minE ⟨r, left⟩ P ∧ P.length = N + 1 + 1 ∧ toFront P = [(q, τ)] ∧
          q.energy = r.energy * eff ^ (N + 1) ∧ q.at τ = arrival x y hi (r.at s) r.dir T := by
      intro g τ hg hτ hτT hon hout hlane hedge hfold hcell hxin
      have hτ0 : 0 < τ := lt_trans (by norm_num) hτ
      obtain ⟨k, hk, honly, o, ho, hov, hod, hoe, hol⟩ := h.bounceY hg hs hin hτ (by linarith) hon hout hxin hl hrefl
      have hpy : (o.at 0).y = g * (y / 2) := by rw [at0, hov, at_y, hon]
      have hpx : (o.at 0).x = (r.at s).x + τ * r.dir.x := by rw [at0, hov, at_x]
      have hpz : (o.at 0).z = (r.at s).z + τ * r.dir.z := by rw [at0, hov, at_z]
      have hdx : o.dir.x = r.dir.x := by rw [hod]
      have hdy : o.dir.y = -r.dir.y := by rw [hod]
      have hdz : o.dir.z = r.dir.z := by rw [hod]
      have hup : 0 < r.dir.z := lt_trans (by norm_num) hin.up
      have hedgeτ : OnEdge y ((r.at s).y + τ * r.dir.y) := by rw [hon]; exact onEdge_half hg
      have hlow : lo ≤ (o.at 0).z := by
        rw [hpz]
        have := hin.low
        nlinarith
      have hin' : InTube x y lo hi (o.at 0) o.dir (T - τ) := by
        refine ⟨?_, ?_, ?_, hlow, by rw [hdz]; exact hin.up, ?_, by linarith⟩
        · rw [hpx, hdx]
          refine hin.laneX.advance hτ0 hxin fun t ht htT he => ?_
          have := hin.apart t τ (by linarith) htT hτ0 (by linarith) he hedgeτ
          rw [abs_of_pos (by linarith)] at this
          linarith
        · rw [hpy, hdy]; exact hlane
        · intro t t' ht htT ht' htT' e e'
          rw [hpy, hdy, hedge] at e'
          rw [hpx, hdx, show (r.at s).x + τ * r.dir.x + t * r.dir.x = (r.at s).x + (τ + t) * r.dir.x by ring] at e
          have := hin.apart (τ + t) (τ + t') (by linarith) (by linarith) (by linarith) (by linarith) e e'
          rwa [show τ + t - (τ + t') = t - t' by ring] at this
        · rw [hpz, hdz, ← hin.reach]; ring
      have huy : (o.at 0).y + (T - τ) * o.dir.y = g * (y / 2) + (T - τ) * -r.dir.y := by rw [hpy, hdy]
      have hux : (o.at 0).x + (T - τ) * o.dir.x = (r.at s).x + T * r.dir.x := by rw [hpx, hdx]; ring
      obtain ⟨p1, p2, p3, p4⟩ := hpow o hoe
      obtain ⟨P, q, τ', c1, c2, c3, c4, c5⟩ := ih o (some (k, 0)) 0 (T - τ) ⟨le_rfl, Or.inl rfl⟩ hin' (by rw [hdx]; exact hcx)
        (by rw [hdy, abs_neg]; exact hcy) (by rw [hdz]; exact hcz) hol
        (hR o (by rw [at0] at hlow; exact hlow) (by rw [hdx]; exact hcx) (by rw [hdy, abs_neg]; exact hcy) (by rw [hdz]; exact hcz))
        (by
          unfold bounces at hN ⊢
          rw [hux, huy]
          omega) p1 p2
      refine ⟨_, q, τ', .step _ ⟨k, 0, ws k⟩ _ o P honly ho p3 c1, by simp [c2], ?_, by rw [c4, p4], ?_⟩
      · unfold toFront at c3 ⊢
        rw [List.flatMap_cons, if_neg (by simp only; omega), List.nil_append, c3]
      · rw [c5]
        unfold arrival
        rw [hux, huy, hfold]
    rcases hx with ⟨hx1, hx2⟩ | ⟨gx, tx, a1, a2, a3, a4, a5, a6, a7, a8, a9, a10⟩
    · rcases hy with ⟨hy1, hy2⟩ | ⟨gy, ty, b1, b2, b3, b4, b5, b6, b7, b8, b9, b10⟩
      · exfalso
        unfold bounces at hN
        rw [hx1, hy1] at hN
        simp at hN
      · exact doY gy ty b1 b2 b3 b4 b5 b7 b8 b9 b10 (hin.laneX.stay hx2 (lt_trans (by norm_num) b2) (by linarith))
    · rcases hy with ⟨hy1, hy2⟩ | ⟨gy, ty, b1, b2, b3, b4, b5, b6, b7, b8, b9, b10⟩
      · exact doX gx tx a1 a2 a3 a4 a5 a7 a8 a9 a10 (hin.laneY.stay hy2 (lt_trans (by norm_num) a2) (by linarith))
      · have hne : 1 / 10 ^ 6 < |tx - ty| := hin.apart tx ty (lt_trans (by norm_num) a2) (by linarith) (lt_trans (by norm_num) b2) (by linarith)
          (by rw [a4]; exact onEdge_half a1) (by rw [b4]; exact onEdge_half b1)
        rcases lt_trichotomy tx ty with hlt | heq | hlt
        · exact doX gx tx a1 a2 a3 a4 a5 a7 a8 a9 a10 (b6 tx (lt_trans (by norm_num) a2) hlt)
        · rw [heq, sub_self, abs_zero] at hne
          norm_num at hne
        · exact doY gy ty b1 b2 b3 b4 b5 b7 b8 b9 b10 (a6 ty (lt_trans (by norm_num) b2) hlt)

end
end Tracer
