import Verif.Lemmas.DiffusePair
import Verif.Lemmas.Chebyshev
import Verif.Lemmas.Measurable
import Verif.Lemmas.Images
import Verif.Spec.Factor
import Verif.Props.Distribution
import Verif.Props.MonteCarlo
import Verif.Props.WhiteSphere

/-!
C116: the light that a diffuse surface sends to a receiver.  What part of it arrives is the area of the projection of the receiver on the unit
hemisphere and from there on the unit disk (Nusselt), and for a round plate facing the place it is rho^2 / (rho^2 + h^2).
-/

namespace Tracer

open Real MeasureTheory ProbabilityTheory

variable {E σ : Type _}

/-! ### Flat shapes -/

theorem FlatShape.finite {g : Geometry ℝ E} {S : V3 ℝ → Prop} (h : FlatShape g S) :
    ∃ out : Tf ℝ → V3 ℝ → Bool, g.PerRay (finiteParam out) ∧ g.normal = flatNormal ∧ (∀ F, g.Forward F) ∧
      (∀ F : Tf ℝ, F.Rigid → ∀ p, Placed F S p ↔ Placed F planeXY p ∧ out F p = false) ∧
      ∀ (F : Tf ℝ) (δ : Type) [MeasurableSpace δ] (q : δ → V3 ℝ), V3M q → MeasurableSet {x | out F (q x) = true} := by
  have key : ∀ out : Tf ℝ → V3 ℝ → Bool, (finiteFlatGM out : Geometry ℝ E).PerRay (finiteParam out) ∧
      (finiteFlatGM out : Geometry ℝ E).normal = flatNormal ∧ ∀ F, (finiteFlatGM out : Geometry ℝ E).Forward F :=
    fun out => ⟨finiteFlatGM_perRay out, rfl, fun F => (C75_flat F out).2⟩
  cases h with
  | plane =>
    refine ⟨fun _ _ => false, ?_, rfl, fun F => (C75_flat F fun _ _ => false).1, fun F _ p => by simp, fun F δ _ q _ => by simp⟩
    intro F rays
    rw [flatGM_perRay F rays]
    exact List.map_congr_left fun r _ => flatParam_eq_finite F r.vertex r.dir
  | rect w l g hg =>
    rw [rect_eq hg]
    obtain ⟨k1, k2, k3⟩ := key (rectOutside w l)
    exact ⟨_, k1, k2, k3, fun F hF p => rect_placed hF w l p, fun F _ _ q hq => rectOutside_measurable hq F w l⟩
  | round R g hg =>
    rw [round_eq hg]
    obtain ⟨k1, k2, k3⟩ := key (roundOutside R)
    exact ⟨_, k1, k2, k3, fun F hF p => round_placed hF R p, fun F _ _ q hq => roundOutside_measurable hq F R⟩
  | triangle a b ha hb hab =>
    obtain ⟨k1, k2, k3⟩ := key (triOutside a b)
    have hab' : a.x * b.y - a.y * b.x ≠ 0 := by
      intro h0
      apply hab
      unfold V3.cross
      rw [ha, hb, h0]
      apply V3.ext <;> simp
    exact ⟨_, k1, k2, k3, fun F hF p => tri_placed hF ha hb hab' p, fun F _ _ q hq => triOutside_measurable hq F a b⟩

section
variable {S : V3 ℝ → Prop} {G : Tf ℝ} {out : Tf ℝ → V3 ℝ → Bool} {p u : V3 ℝ}

theorem finite_placed (hG : G.Rigid) (hS : ∀ q, Placed G S q ↔ Placed G planeXY q ∧ out G q = false) {t : ℝ}
    (ht : finiteParam out G p u = (t : WithTop ℝ)) : 0 ≤ t ∧ Placed G S (p + t • u) := by
  obtain ⟨h1, h2, h3, h4⟩ := finiteParam_iff.1 ht
  refine ⟨h3, ?_⟩
  rw [hS, plane_iff hG]
  refine ⟨?_, h4⟩
  have := (finiteParam_plane ht).2
  rw [V3.dot_comm'] at this
  exact this

/-- A plate that is not too near and not too far is met exactly when it is ahead. -/
theorem finite_seen (hG : G.Rigid) (hS : ∀ q, Placed G S q ↔ Placed G planeXY q ∧ out G q = false)
    (hnear : 1 / 10 ^ 6 < |V3.dot (G.loc - p) G.rot.c3|)
    (hsize : ∀ q, Placed G S q → V3.dist2 q p < (10 ^ 10 * |V3.dot (G.loc - p) G.rot.c3|) ^ 2) (hu : u.IsUnit) :
    (finiteParam out G p u ≠ ⊤ ↔ ∃ t : ℝ, 0 < t ∧ Placed G S (p + t • u)) ∧
    ∀ t : ℝ, finiteParam out G p u = (t : WithTop ℝ) → 1 / 10 ^ 6 < t ∧ Placed G S (p + t • u) := by
  have hc3 : V3.dot G.rot.c3 G.rot.c3 = 1 := ((M3.isRotation_iff G.rot).1 hG).1.2.2.1
  have hcs : |V3.dot u G.rot.c3| ≤ 1 := by
    rw [abs_le_one_iff_mul_self_le_one]
    have := dot_sq_le_one hu hc3
    nlinarith
  have hsym : V3.dot (p - G.loc) G.rot.c3 = -V3.dot (G.loc - p) G.rot.c3 := by simp [V3.dot]; ring
  have hsecond : ∀ t : ℝ, finiteParam out G p u = (t : WithTop ℝ) → 1 / 10 ^ 6 < t ∧ Placed G S (p + t • u) := by
    intro t ht
    have ht0 := finiteParam_iff.1 ht
    obtain ⟨h1, h2, h3, h4⟩ := ht0
    refine ⟨?_, ?_⟩
    · rw [hsym, neg_neg] at h2
      have : |t * V3.dot u G.rot.c3| = |V3.dot (G.loc - p) G.rot.c3| := by rw [h2]
      rw [abs_mul, abs_of_nonneg h3] at this
      have h5 : t * |V3.dot u G.rot.c3| ≤ t := mul_le_of_le_one_right h3 hcs
      linarith
    · exact (finite_placed hG hS ht).2
  refine ⟨⟨?_, ?_⟩, hsecond⟩
  · intro h
    obtain ⟨t, ht⟩ := WithTop.ne_top_iff_exists.1 h
    obtain ⟨h1, h2⟩ := hsecond t ht.symm
    exact ⟨t, lt_trans (by norm_num) h1, h2⟩
  · rintro ⟨t, h0, ht⟩
    have hpl := (plane_iff hG _).1 ((hS _).1 ht).1
    have e : V3.dot G.rot.c3 (p + t • u - G.loc) = t * V3.dot u G.rot.c3 - V3.dot (G.loc - p) G.rot.c3 := by simp [V3.dot]; ring
    rw [e] at hpl
    have heq : t * V3.dot u G.rot.c3 = V3.dot (G.loc - p) G.rot.c3 := by linarith
    have hpar : 1 / 10 ^ 10 < |V3.dot u G.rot.c3| := by
      by_contra hcon
      have hcon := not_lt.1 hcon
      have hd := hsize _ ht
      have ed : V3.dist2 (p + t • u) p = t ^ 2 := by
        have : V3.dot u u = 1 := hu
        unfold V3.dot at this
        simp only [V3.dist2, V3.dot, V3.sub_x, V3.sub_y, V3.sub_z, V3.add_x, V3.add_y, V3.add_z, V3.smul_x, V3.smul_y, V3.smul_z]
        linear_combination t ^ 2 * this
      rw [ed, ← heq, abs_mul, abs_of_pos h0] at hd
      have h5 : (10 : ℝ) ^ 10 * (t * |V3.dot u G.rot.c3|) ≤ t := by
        have := mul_le_mul_of_nonneg_left hcon h0.le
        have h10 : (0 : ℝ) < 10 ^ 10 := by positivity
        have h6 := mul_le_mul_of_nonneg_left this h10.le
        have : (10 : ℝ) ^ 10 * (t * (1 / 10 ^ 10)) = t := by field_simp
        linarith
      have h6 : 0 ≤ (10 : ℝ) ^ 10 * (t * |V3.dot u G.rot.c3|) := by positivity
      nlinarith
    intro htop
    have : finiteParam out G p u = (t : WithTop ℝ) := by
      rw [finiteParam_iff]
      refine ⟨hpar, by rw [hsym, neg_neg]; exact heq, h0.le, ((hS _).1 ht).2⟩
    rw [this] at htop
    cases htop

/-- A ray that starts on a flat surface meets it at once or never. -/
theorem finite_self {F : Tf ℝ} (hp : V3.dot (p - F.loc) F.rot.c3 = 0) :
    finiteParam out F p u = ⊤ ∨ finiteParam out F p u ≤ ((selfTol : ℝ) : WithTop ℝ) := by
  by_cases h : finiteParam out F p u = ⊤
  · exact Or.inl h
  · right
    obtain ⟨t, ht⟩ := WithTop.ne_top_iff_exists.1 h
    obtain ⟨h1, h2, h3, h4⟩ := finiteParam_iff.1 ht.symm
    rw [hp, neg_zero, mul_eq_zero] at h2
    rw [← ht, WithTop.coe_le_coe]
    rcases h2 with rfl | h2
    · unfold selfTol; positivity
    · rw [h2, abs_zero] at h1
      exact absurd h1 (not_lt.2 (by positivity))

end

/-! ### Nusselt's construction -/

/-- Below the direction of a diffusely reflected ray. -/
theorem whiteDir_below {n : V3 ℝ} {d : ℝ × ℝ} (h0 : 0 ≤ d.2) (h1 : d.2 ≤ 1) :
    (polarPoint 1 d.swap).1 ^ 2 + (polarPoint 1 d.swap).2 ^ 2 = d.2 ∧
    whiteDir n d = (polarPoint 1 d.swap).1 • (rotationToZ n).c1 + (polarPoint 1 d.swap).2 • (rotationToZ n).c2 +
      √(1 - (polarPoint 1 d.swap).1 ^ 2 - (polarPoint 1 d.swap).2 ^ 2) • (rotationToZ n).c3 := by
  have hs := sq_sqrt h0
  have hq : (polarPoint 1 d.swap).1 ^ 2 + (polarPoint 1 d.swap).2 ^ 2 = d.2 := by
    have := sin_sq_add_cos_sq d.1
    simp only [polarPoint, Prod.fst_swap, Prod.snd_swap]
    linear_combination √d.2 ^ 2 * this + hs
  refine ⟨hq, ?_⟩
  rw [sub_sub, hq]
  unfold whiteDir
  rw [half_pillbox h0 h1]
  simp only [polarPoint, Prod.fst_swap, Prod.snd_swap]
  apply V3.ext <;> simp [M3.mulVec] <;> ring

section
variable {S S' : V3 ℝ → Prop} {g g' : Geometry ℝ E} {F G : Tf ℝ} {p : Ray ℝ E → V3 ℝ} {n : V3 ℝ} {a a' : ℝ}
variable {taken : σ → Nat} {get : σ → Account ℝ} {set : Account ℝ → σ → σ}
variable {Ω : Type _} [MeasurableSpace Ω] {μ : Measure Ω} [IsProbabilityMeasure μ]

theorem side_unit (hF : F.Rigid) (hn : n = F.rot.c3 ∨ n = -F.rot.c3) : n.IsUnit := by
  have hc3 : V3.dot F.rot.c3 F.rot.c3 = 1 := ((M3.isRotation_iff F.rot).1 hF).1.2.2.1
  rcases hn with rfl | rfl
  · exact hc3
  · show V3.dot _ _ = 1
    rw [← hc3]
    simp [V3.dot]

theorem whiteDir_unit (hn : n.IsUnit) {d : ℝ × ℝ} (hd : d ∈ angleDraws) : (whiteDir n d).IsUnit := by
  obtain ⟨r1, _, _⟩ := C27_rotation_to_z hn
  obtain ⟨u1, u2⟩ := pillbox_half (x1 := d.1) hd.2.1 hd.2.2
  unfold whiteDir V3.IsUnit at *
  rw [r1.dot]
  exact u1

theorem seen_measurable {δ : Type} [MeasurableSpace δ] {out : Tf ℝ → V3 ℝ → Bool} {q u : δ → V3 ℝ}
    (ho : ∀ q : δ → V3 ℝ, V3M q → MeasurableSet {x | out G (q x) = true}) (hq : V3M q) (hu : V3M u) :
    MeasurableSet {d | finiteParam out G (q d) (u d) ≠ ⊤} := by
  obtain ⟨P, t, m1, _, m3, m4⟩ := finiteParam_measurable hq hu G ho
  convert m1 using 1
  ext d
  constructor
  · intro h
    by_contra hP
    exact h (m4 d hP)
  · intro h htop
    have := m3 d h
    simp only [htop] at this
    cases this

theorem whiteDir_measurable (n : V3 ℝ) : V3M fun d : ℝ × ℝ => whiteDir n d := by
  refine V3M.rotated (V3M.const n) ?_
  have h : Measurable fun d : ℝ × ℝ => arcsin (sin (π / 2) * √d.2) := Real.measurable_arcsin.comp (by fun_prop)
  unfold pillboxOne
  exact ⟨(measurable_cos.comp measurable_fst).mul (measurable_sin.comp h), (measurable_sin.comp measurable_fst).mul (measurable_sin.comp h),
    measurable_cos.comp h⟩

/-- The part of the draws that send a ray from `p` to the receiver. -/
theorem white_nusselt {out : Tf ℝ → V3 ℝ → Bool} {p : V3 ℝ} (hnu : n.IsUnit) (hG : G.Rigid)
    (hS : ∀ q, Placed G S q ↔ Placed G planeXY q ∧ out G q = false)
    (ho : ∀ (δ : Type) [MeasurableSpace δ] (q : δ → V3 ℝ), V3M q → MeasurableSet {x | out G (q x) = true})
    (hnear : 1 / 10 ^ 6 < |V3.dot (G.loc - p) G.rot.c3|)
    (hsize : ∀ q, Placed G S q → V3.dist2 q p < (10 ^ 10 * |V3.dot (G.loc - p) G.rot.c3|) ^ 2) :
    fraction angleDraws {d | finiteParam out G p (whiteDir n d) ≠ ⊤} =
      fraction (disk 1) (nusselt (Placed G S) p (rotationToZ n).c1 (rotationToZ n).c2 n) := by
  obtain ⟨r1, r2, _⟩ := C27_rotation_to_z hnu
  have hort := r1.orthonormal
  rw [r2] at hort
  let u : ℝ × ℝ → V3 ℝ := fun q => q.1 • (rotationToZ n).c1 + q.2 • (rotationToZ n).c2 + √(1 - q.1 ^ 2 - q.2 ^ 2) • n
  have hu : V3M u := ((V3M.smul measurable_fst (V3M.const _)).add (V3M.smul measurable_snd (V3M.const _))).add
    (V3M.smul (by fun_prop) (V3M.const _))
  have hT := seen_measurable (ho _) (V3M.const p) hu
  have e1 : fraction (disk 1) (nusselt (Placed G S) p (rotationToZ n).c1 (rotationToZ n).c2 n) =
      fraction (disk 1) {q | finiteParam out G p (u q) ≠ ⊤} := by
    unfold fraction
    congr 2
    ext q
    refine and_congr_left fun hq => ?_
    have hq : q.1 ^ 2 + q.2 ^ 2 < 1 ^ 2 := hq
    have huq : (u q).IsUnit := by
      obtain ⟨o1, o2, o3, o4, o5, o6⟩ := hort
      have hz : √(1 - q.1 ^ 2 - q.2 ^ 2) ^ 2 = 1 - q.1 ^ 2 - q.2 ^ 2 := sq_sqrt (by linarith)
      show V3.dot (u q) (u q) = 1
      simp only [u]
      generalize √(1 - q.1 ^ 2 - q.2 ^ 2) = z at hz
      simp only [V3.dot, V3.add_x, V3.add_y, V3.add_z, V3.smul_x, V3.smul_y, V3.smul_z] at *
      linear_combination q.1 ^ 2 * o1 + q.2 ^ 2 * o2 + z ^ 2 * o3 + 2 * q.1 * q.2 * o4 + 2 * q.1 * z * o5 + 2 * q.2 * z * o6 + hz
    exact (finite_seen hG hS hnear hsize huq).1.symm
  rw [e1, ← polar_fraction_swap one_pos hT]
  unfold fraction
  congr 2
  ext d
  refine and_congr_left fun hd => ?_
  show finiteParam out G p (whiteDir n d) ≠ ⊤ ↔ finiteParam out G p (u (polarPoint 1 d.swap)) ≠ ⊤
  have := (whiteDir_below (n := n) hd.2.1 hd.2.2.le).2
  rw [r2] at this
  rw [this]

open Classical in
/-- Which rays the receiver reports, if the random numbers are those of the sequence `ξ`. -/
theorem diffuse_traced {N : Nat} (hN : 0 < N) {r : Nat → Ray ℝ E} {p : Nat → V3 ℝ} (hg : FlatShape g S) (hF : F.Rigid) (hp : ∀ j < N, Placed F S (p j))
    (hn : n = F.rot.c3 ∨ n = -F.rot.c3) (hg' : FlatShape g' S') (hG : G.Rigid) (hnear : ∀ j < N, 1 / 10 ^ 6 < |V3.dot (G.loc - p j) G.rot.c3|)
    (hsize : ∀ j < N, ∀ q, Placed G S' q → V3.dist2 q (p j) < (10 ^ 10 * |V3.dot (G.loc - p j) G.rot.c3|) ^ 2)
    {ξ : Nat → ℝ × ℝ} (hmem : ∀ i, ξ i ∈ angleDraws) {draw : Nat → σ → List (ℝ × ℝ) × σ} (hdr : DrawsFrom ξ taken draw get set)
    (hin : ∀ j < N, ArrivesAt (p j) n (Placed G S') (r j)) {w : σ} (hw : get w = Account.reset)
    {minE : ℝ} (hE : ∀ j < N, minE < (r j).energy * (1 - a)) :
    ∃ res ps,
      rayTracer [⟨[mkSurf g (lambertian a draw) F], Obj.defaultOwn, Obj.defaultNext 1⟩,
        ⟨[mkSurf g' (reflectiveReceiver a' get set) G], Obj.defaultOwn, Obj.defaultNext 1⟩] w ((List.range N).map r) 2 minE true = .ok res ∧
      (get res.world).getAllHits = .ok (((List.range N).filter fun j =>
        decide (∃ t : ℝ, 0 < t ∧ Placed G S' (p j + t • whiteDir n (ξ (taken w + j))))).map fun j => (r j).energy * (1 - a) * a', ps) ∧
      ∀ q ∈ ps, Placed G S' q := by
  obtain ⟨out, hper, hnorm, hfwd, hS, -⟩ := hg.finite
  obtain ⟨out', hper', -, hfwd', hS', hmeas⟩ := hg'.finite
  have hS := hS F hF
  have hS' := hS' G hG
  have hnu := side_unit hF hn
  have hdirunit : ∀ d ∈ angleDraws, (whiteDir n d).IsUnit := fun d hd => whiteDir_unit hnu hd
  choose! t ht1 ht2 using fun j (hj : j < N) => (hin j hj).there
  have hplane : ∀ j < N, V3.dot (p j - F.loc) F.rot.c3 = 0 := by
    intro j hj
    have := (plane_iff hF (p j)).1 ((hS _).1 (hp j hj)).1
    rw [V3.dot_comm'] at this
    exact this
  have hdotn : ∀ j < N, 1 / 10 ^ 10 < |V3.dot (r j).dir F.rot.c3| ∧ flatNormal F (p j) (r j).dir = n := by
    intro j hj
    have h := (hin j hj).above
    unfold flatNormal
    rcases hn with rfl | rfl
    · refine ⟨lt_abs.2 (Or.inr (by linarith)), if_neg (not_lt.2 ?_)⟩
      have : (0 : ℝ) < 1 / 10 ^ 10 := by positivity
      linarith
    · have e : V3.dot (r j).dir (-F.rot.c3) = -V3.dot (r j).dir F.rot.c3 := by simp [V3.dot]; ring
      rw [e] at h
      refine ⟨lt_abs.2 (Or.inl (by linarith)), if_pos ?_⟩
      have : (0 : ℝ) < 1 / 10 ^ 10 := by positivity
      linarith
  have hfind : ∀ j < N, finiteParam out F (r j).vertex (r j).dir = ((t j : ℝ) : WithTop ℝ) := by
    intro j hj
    have e : (r j).vertex + t j • (r j).dir = p j := ht2 j hj
    rw [finiteParam_iff, e]
    refine ⟨(hdotn j hj).1, ?_, ?_, ((hS _).1 (hp j hj)).2⟩
    · have : V3.dot ((r j).vertex + t j • (r j).dir - F.loc) F.rot.c3 = 0 := by rw [e]; exact hplane j hj
      have e2 : V3.dot ((r j).vertex + t j • (r j).dir - F.loc) F.rot.c3 = V3.dot ((r j).vertex - F.loc) F.rot.c3 + t j * V3.dot (r j).dir F.rot.c3 := by
        simp [V3.dot]; ring
      linarith
    · have : (0 : ℝ) < 1 / 10 ^ 6 := by positivity
      linarith [ht1 j hj]
  have hmiss : ∀ j < N, finiteParam out' G (r j).vertex (r j).dir = ⊤ := by
    intro j hj
    by_contra hne
    obtain ⟨u, hu⟩ := WithTop.ne_top_iff_exists.1 hne
    obtain ⟨h1, h2⟩ := finite_placed hG hS' hu.symm
    exact (hin j hj).free u h1 h2
  obtain ⟨res, ps, h1, h2, h3⟩ := diffuse_pair (a := a) (a' := a') (d := fun j => whiteDir n (ξ (taken w + j)))
    hN hper hper' (hfwd F) (hfwd' G) hdr w hw hfind ht1 hmiss
    hE (by
      intro j hj
      rw [hnorm, ht2 j hj, (hdotn j hj).2]) (by
      intro j hj
      rw [ht2 j hj]
      exact finite_self (hplane j hj)) (by
      intro j hj u hu
      rw [ht2 j hj] at hu
      exact ((finite_seen hG hS' (hnear j hj) (hsize j hj) (hdirunit _ (hmem _))).2 u hu).1)
  refine ⟨res, ps, h1, ?_, ?_⟩
  · rw [h2]
    congr 3
    apply List.filter_congr
    intro j hj
    have hj := List.mem_range.1 hj
    rw [ht2 j hj]
    exact decide_eq_decide.2 (finite_seen hG hS' (hnear j hj) (hsize j hj) (hdirunit _ (hmem _))).1
  · intro q hq
    obtain ⟨j, hj, u, hu, rfl⟩ := h3 q hq
    rw [ht2 j hj] at hu ⊢
    exact ((finite_seen hG hS' (hnear j hj) (hsize j hj) (hdirunit _ (hmem _))).2 u hu).2

open Classical in
/-- C116.  A flat surface that reflects diffusely and a flat receiver, of any of the package's shapes and anywhere.  All rays of the source arrive
at the first surface, from one side of it; `p r` is the place where `r` arrives.  The random numbers are independent and evenly spread.  Then it is
decided by independent events, one for each ray, which rays the receiver reports; their probability is the part of the unit disk below the part of
the unit hemisphere about the place that the receiver covers. -/
theorem C116_nusselt {b : Bundle ℝ E} (hb : b ≠ []) (hg : FlatShape g S) (hF : F.Rigid) (hp : ∀ r ∈ b, Placed F S (p r)) (hn : n = F.rot.c3 ∨ n = -F.rot.c3)
    (hg' : FlatShape g' S') (hG : G.Rigid) (hnear : ∀ r ∈ b, 1 / 10 ^ 6 < |V3.dot (G.loc - p r) G.rot.c3|)
    (hsize : ∀ r ∈ b, ∀ q, Placed G S' q → V3.dist2 q (p r) < (10 ^ 10 * |V3.dot (G.loc - p r) G.rot.c3|) ^ 2)
    {ξ : Nat → Ω → ℝ × ℝ} (hm : ∀ i, Measurable (ξ i)) (hind : iIndepFun ξ μ) (hmem : ∀ i ω, ξ i ω ∈ angleDraws)
    (heven : ∀ i T, MeasurableSet T → μ {ω | ξ i ω ∈ T} = fraction angleDraws T)
    {draw : Ω → Nat → σ → List (ℝ × ℝ) × σ} (hdr : ∀ ω, DrawsFrom (fun i => ξ i ω) taken (draw ω) get set)
    (hin : ∀ r ∈ b, ArrivesAt (p r) n (Placed G S') r) {w : σ} (hw : get w = Account.reset)
    {minE : ℝ} (hE : ∀ r ∈ b, minE < r.energy * (1 - a)) :
    ∃ e1 e2, Orthonormal3 e1 e2 n ∧ ∃ seen : Nat → Set Ω, (∀ i, MeasurableSet (seen i)) ∧ iIndepSet seen μ ∧
      (∀ i r, b[i]? = some r → μ (seen i) = fraction (disk 1) (nusselt (Placed G S') (p r) e1 e2 n)) ∧
      ∀ ω, ∃ res ps,
        rayTracer [⟨[mkSurf g (lambertian a (draw ω)) F], Obj.defaultOwn, Obj.defaultNext 1⟩,
          ⟨[mkSurf g' (reflectiveReceiver a' get set) G], Obj.defaultOwn, Obj.defaultNext 1⟩] w b 2 minE true = .ok res ∧
        (get res.world).getAllHits = .ok ((b.zipIdx.filter fun x => decide (ω ∈ seen x.2)).map fun x => x.1.energy * (1 - a) * a', ps) ∧
        ∀ q ∈ ps, Placed G S' q := by
  obtain ⟨out', hper', -, hfwd', hS', hmeas⟩ := hg'.finite
  have hS' := hS' G hG
  have hnu := side_unit hF hn
  obtain ⟨r1, r2, _⟩ := C27_rotation_to_z hnu
  have hort := r1.orthonormal
  rw [r2] at hort
  have hdirunit : ∀ d ∈ angleDraws, (whiteDir n d).IsUnit := fun d hd => whiteDir_unit hnu hd
  -- the draws whose rays are reported
  obtain ⟨r0, b', rfl⟩ := List.exists_cons_of_ne_nil hb
  set b : Bundle ℝ E := r0 :: b' with hbdef
  let r : Nat → Ray ℝ E := fun j => b.getD j r0
  have hr : ∀ j < b.length, r j ∈ b := by
    intro j hj
    have e : r j = b[j] := by simp [r, hj]
    rw [e]
    exact List.getElem_mem _
  let D : Nat → Set (ℝ × ℝ) := fun i => {d | finiteParam out' G (p (r i)) (whiteDir n d) ≠ ⊤}
  have hD : ∀ i, MeasurableSet (D i) := fun i => seen_measurable (hmeas G _) (V3M.const _) (whiteDir_measurable n)
  refine ⟨_, _, hort, fun i => {ω | ξ (taken w + i) ω ∈ D i}, fun i => hm _ (hD i), ?_, ?_, ?_⟩
  · refine (iIndepSet_iff_meas_biInter fun i => hm _ (hD i)).2 ?_
    intro s
    have h := (hind.precomp (g := fun i => taken w + i) fun i j hij => by simpa using hij).measure_inter_preimage_eq_mul s (sets := D)
      fun i _ => hD i
    exact h
  · intro i x hx
    rw [heven _ _ (hD i)]
    have hxb : x ∈ b := List.mem_of_getElem? hx
    have hxr : r i = x := by simp [r, hx]
    simp only [D, hxr]
    exact white_nusselt hnu hG hS' (hmeas G) (hnear x hxb) (hsize x hxb)
  · intro ω
    have hbr : b = (List.range b.length).map r := by
      apply List.ext_getElem (by simp)
      intro j h1 h2
      simp [r, h1]
    have hzip : b.zipIdx = (List.range b.length).map fun j => (r j, j) := by
      apply List.ext_getElem (by simp)
      intro j h1 h2
      simp at h1
      simp [r, h1]
    obtain ⟨res, ps, h1, h2, h3⟩ := diffuse_traced (a := a) (a' := a') (p := fun j => p (r j)) (by simp [hbdef] : 0 < b.length) hg hF
      (fun j hj => hp _ (hr j hj)) hn hg' hG (fun j hj => hnear _ (hr j hj)) (fun j hj => hsize _ (hr j hj)) (fun i => hmem i ω) (hdr ω)
      (fun j hj => hin _ (hr j hj)) hw (fun j hj => hE _ (hr j hj))
    refine ⟨res, ps, ?_, ?_, h3⟩
    · rw [hbr]
      exact h1
    · rw [h2, hzip, List.filter_map, List.map_map]
      congr 3
      apply List.filter_congr
      intro j hj
      have hj := List.mem_range.1 hj
      exact decide_eq_decide.2 (finite_seen hG hS' (hnear _ (hr j hj)) (hsize _ (hr j hj)) (hdirunit _ (hmem _ ω))).1.symm

theorem filter_sum {α : Type _} (l : List α) (P : α → Prop) [DecidablePred P] (f : α → ℝ) :
    ((l.filter fun x => decide (P x)).map f).sum = (l.map fun x => if P x then f x else 0).sum := by
  induction l with
  | nil => rfl
  | cons x l ih =>
    by_cases h : P x
    · simp [h, ih]
    · simp [h, ih]

/-- C116: how sure the energy is that the receiver reports.  It is the sum of the parts `s r` of the energies of the rays that
are given by Nusselt's construction, except with a probability that is smaller the more rays the energy is divided among. -/
theorem C116_accuracy {b : Bundle ℝ E} (hb : b ≠ []) (hg : FlatShape g S) (hF : F.Rigid) (hp : ∀ r ∈ b, Placed F S (p r)) (hn : n = F.rot.c3 ∨ n = -F.rot.c3)
    (hg' : FlatShape g' S') (hG : G.Rigid) (hnear : ∀ r ∈ b, 1 / 10 ^ 6 < |V3.dot (G.loc - p r) G.rot.c3|)
    (hsize : ∀ r ∈ b, ∀ q, Placed G S' q → V3.dist2 q (p r) < (10 ^ 10 * |V3.dot (G.loc - p r) G.rot.c3|) ^ 2)
    {ξ : Nat → Ω → ℝ × ℝ} (hm : ∀ i, Measurable (ξ i)) (hind : iIndepFun ξ μ) (hmem : ∀ i ω, ξ i ω ∈ angleDraws)
    (heven : ∀ i T, MeasurableSet T → μ {ω | ξ i ω ∈ T} = fraction angleDraws T)
    {draw : Ω → Nat → σ → List (ℝ × ℝ) × σ} (hdr : ∀ ω, DrawsFrom (fun i => ξ i ω) taken (draw ω) get set)
    (hin : ∀ r ∈ b, ArrivesAt (p r) n (Placed G S') r) {w : σ} (hw : get w = Account.reset)
    {minE : ℝ} (hE : ∀ r ∈ b, minE < r.energy * (1 - a)) {ε : ℝ} (hε : 0 < ε) :
    ∃ e1 e2, Orthonormal3 e1 e2 n ∧ ∃ s : Ray ℝ E → ℝ,
      (∀ r, s r = (fraction (disk 1) (nusselt (Placed G S') (p r) e1 e2 n)).toReal) ∧ ∃ far : Set Ω,
      μ far ≤ ENNReal.ofReal ((b.map fun r => s r * (1 - s r) * (r.energy * (1 - a) * a') ^ 2).sum / ε ^ 2) ∧
      ∀ ω ∉ far, ∃ res es ps,
        rayTracer [⟨[mkSurf g (lambertian a (draw ω)) F], Obj.defaultOwn, Obj.defaultNext 1⟩,
          ⟨[mkSurf g' (reflectiveReceiver a' get set) G], Obj.defaultOwn, Obj.defaultNext 1⟩] w b 2 minE true = .ok res ∧
        (get res.world).getAllHits = .ok (es, ps) ∧ |es.sum - (b.map fun r => s r * (r.energy * (1 - a) * a')).sum| < ε := by
  classical
  obtain ⟨e1, e2, hort, seen, hmeas, hindep, hprob, hres⟩ := C116_nusselt (a := a) (a' := a') hb hg hF hp hn hg' hG hnear hsize hm hind hmem heven hdr hin hw hE
  obtain ⟨r0, b', rfl⟩ := List.exists_cons_of_ne_nil hb
  set b : Bundle ℝ E := r0 :: b' with hbdef
  let r : Nat → Ray ℝ E := fun j => b.getD j r0
  have hbr : b = (List.range b.length).map r := by
    apply List.ext_getElem (by simp)
    intro j h1 h2
    simp [r, h1]
  have hzip : b.zipIdx = (List.range b.length).map fun j => (r j, j) := by
    apply List.ext_getElem (by simp)
    intro j h1 h2
    simp at h1
    simp [r, h1]
  have hsum : ∀ f : Ray ℝ E → ℝ, (b.map f).sum = ∑ j ∈ Finset.range b.length, f (r j) := by
    intro f
    rw [sum_range_list, hbr, List.map_map]
    simp [Function.comp_def, r]
  have htwo : ∀ i j, i ≠ j → μ (seen i ∩ seen j) = μ (seen i) * μ (seen j) := by
    intro i j hij
    have h := (iIndepSet_iff_meas_biInter hmeas).1 hindep {i, j}
    rw [Finset.prod_pair hij] at h
    simpa using h
  have hshare : ∀ i ∈ Finset.range b.length, μ (seen i) = fraction (disk 1) (nusselt (Placed G S') (p (r i)) e1 e2 n) := by
    intro i hi
    have hi := Finset.mem_range.1 hi
    exact hprob i (r i) (by simp [r, hi])
  refine ⟨e1, e2, hort, _, fun _ => rfl, _, (unequal_events hmeas (fun _ => rfl) htwo (fun j => (r j).energy * (1 - a) * a') b.length hε).trans_eq ?_, ?_⟩
  · rw [hsum fun r => _ * (1 - _) * (r.energy * (1 - a) * a') ^ 2]
    congr 2
    apply Finset.sum_congr rfl
    intro i hi
    rw [hshare i hi]
  · intro ω hω
    obtain ⟨res, ps, h1, h2, _⟩ := hres ω
    refine ⟨res, _, ps, h1, h2, ?_⟩
    rw [filter_sum, hzip, List.map_map, hsum fun r => _ * (r.energy * (1 - a) * a'), ← sum_range_list]
    have hω : ¬ ε ≤ _ := hω
    have hω := not_le.1 hω
    refine lt_of_eq_of_lt ?_ hω
    congr 2
    · apply Finset.sum_congr rfl
      intro j _
      simp only [Function.comp]
      by_cases hs : ω ∈ seen j <;> simp [hs]
    · apply Finset.sum_congr rfl
      intro i hi
      rw [hshare i hi]

end

theorem disk_placed {ρ : ℝ} {G : Tf ℝ} (hG : G.Rigid) (q : V3 ℝ) :
    Placed G (diskXY ρ) q ↔ V3.dot (q - G.loc) G.rot.c3 = 0 ∧ V3.dist2 q G.loc ≤ ρ ^ 2 := by
  rw [placed_iff (M3.IsRotation.det_ne hG)]
  have hq : q = G.point (G.inv.point q) := (Tf.point_inv_point (M3.IsRotation.det_ne hG) q).symm
  generalize G.inv.point q = l at hq
  have h1 : q - G.loc = G.rot.mulVec l := by rw [hq]; apply V3.ext <;> simp [Tf.point]
  have h2 : V3.dot (q - G.loc) G.rot.c3 = l.z := by
    have e3 : G.rot.c3 = G.rot.mulVec ⟨0, 0, 1⟩ := by apply V3.ext <;> simp [M3.mulVec]
    rw [h1, e3, M3.IsRotation.dot hG]
    simp [V3.dot]
  have h3 : V3.dist2 q G.loc = l.x ^ 2 + l.y ^ 2 + l.z ^ 2 := by
    unfold V3.dist2
    rw [h1, M3.IsRotation.dot hG]
    simp [V3.dot]
    ring
  rw [h2, h3]
  unfold diskXY
  constructor
  · rintro ⟨a, b⟩
    exact ⟨a, by rw [a]; linarith⟩
  · rintro ⟨a, b⟩
    exact ⟨a, by rw [a] at b; linarith⟩

/-- C116: seen from a place at the distance `h` in front of its middle, a round plate of radius `rho` covers the part rho^2 / (rho^2 + h^2). -/
theorem C116_round {ρ h : ℝ} (hρ : 0 < ρ) (hh : 0 < h) {G : Tf ℝ} (hG : G.Rigid) {p n : V3 ℝ} (hn : G.rot.c3 = n ∨ G.rot.c3 = -n)
    (hloc : G.loc = p + h • n) {e1 e2 : V3 ℝ} (he : Orthonormal3 e1 e2 n) :
    fraction (disk 1) (nusselt (Placed G (diskXY ρ)) p e1 e2 n) = ENNReal.ofReal (ρ ^ 2 / (ρ ^ 2 + h ^ 2)) := by
  have hplaced := disk_placed (ρ := ρ) hG
  have hpos : 0 < ρ ^ 2 + h ^ 2 := by positivity
  rw [← disk_share one_pos (q := ρ ^ 2 / (ρ ^ 2 + h ^ 2)) (by positivity) ((div_le_one hpos).2 (by nlinarith))]
  unfold fraction
  congr 2
  ext q
  refine and_congr_left fun hq => ?_
  have hq : q.1 ^ 2 + q.2 ^ 2 < 1 ^ 2 := hq
  obtain ⟨o1, o2, o3, o4, o5, o6⟩ := he
  have hz2 : √(1 - q.1 ^ 2 - q.2 ^ 2) ^ 2 = 1 - q.1 ^ 2 - q.2 ^ 2 := sq_sqrt (by linarith)
  have hz0 : 0 < √(1 - q.1 ^ 2 - q.2 ^ 2) := sqrt_pos.2 (by linarith)
  show (∃ t : ℝ, 0 < t ∧ Placed G (diskXY ρ) (p + t • (q.1 • e1 + q.2 • e2 + √(1 - q.1 ^ 2 - q.2 ^ 2) • n))) ↔ q.1 ^ 2 + q.2 ^ 2 ≤ _ * 1 ^ 2
  generalize √(1 - q.1 ^ 2 - q.2 ^ 2) = z at hz2 hz0
  have hd1 : ∀ t : ℝ, V3.dot (p + t • (q.1 • e1 + q.2 • e2 + z • n) - G.loc) n = t * z - h := by
    intro t
    rw [hloc]
    simp only [V3.dot, V3.add_x, V3.add_y, V3.add_z, V3.sub_x, V3.sub_y, V3.sub_z, V3.smul_x, V3.smul_y, V3.smul_z] at *
    linear_combination (t * z - h) * o3 + t * q.1 * o5 + t * q.2 * o6
  have hd2 : ∀ t : ℝ, V3.dist2 (p + t • (q.1 • e1 + q.2 • e2 + z • n)) G.loc = t ^ 2 * (q.1 ^ 2 + q.2 ^ 2) + (t * z - h) ^ 2 := by
    intro t
    rw [hloc]
    simp only [V3.dist2, V3.dot, V3.add_x, V3.add_y, V3.add_z, V3.sub_x, V3.sub_y, V3.sub_z, V3.smul_x, V3.smul_y, V3.smul_z] at *
    linear_combination t ^ 2 * q.1 ^ 2 * o1 + t ^ 2 * q.2 ^ 2 * o2 + (t * z - h) ^ 2 * o3 + 2 * t ^ 2 * q.1 * q.2 * o4 +
      2 * t * q.1 * (t * z - h) * o5 + 2 * t * q.2 * (t * z - h) * o6
  have hiff : ∀ t : ℝ, Placed G (diskXY ρ) (p + t • (q.1 • e1 + q.2 • e2 + z • n)) ↔ t * z = h ∧ t ^ 2 * (q.1 ^ 2 + q.2 ^ 2) ≤ ρ ^ 2 := by
    intro t
    have hc : V3.dot (p + t • (q.1 • e1 + q.2 • e2 + z • n) - G.loc) G.rot.c3 = 0 ↔ t * z = h := by
      rcases hn with e | e
      · rw [e, hd1]
        constructor <;> intro h <;> linarith
      · have : V3.dot (p + t • (q.1 • e1 + q.2 • e2 + z • n) - G.loc) (-n) = -(t * z - h) := by
          rw [← hd1]
          simp only [V3.dot, V3.neg_x, V3.neg_y, V3.neg_z]
          ring
        rw [e, this]
        constructor <;> intro h <;> linarith
    rw [hplaced, hc, hd2]
    refine and_congr_right fun ht => ?_
    rw [ht]
    simp
  simp_rw [hiff]
  rw [one_pow, mul_one, le_div_iff₀ hpos]
  constructor
  · rintro ⟨t, _, ht, hr⟩
    have e : h ^ 2 = t ^ 2 * (1 - q.1 ^ 2 - q.2 ^ 2) := by rw [← ht, ← hz2]; ring
    have e2 : (q.1 ^ 2 + q.2 ^ 2) * h ^ 2 = t ^ 2 * (q.1 ^ 2 + q.2 ^ 2) * (1 - q.1 ^ 2 - q.2 ^ 2) := by rw [e]; ring
    have h3 : t ^ 2 * (q.1 ^ 2 + q.2 ^ 2) * (1 - q.1 ^ 2 - q.2 ^ 2) ≤ ρ ^ 2 * (1 - q.1 ^ 2 - q.2 ^ 2) :=
      mul_le_mul_of_nonneg_right hr (by linarith)
    nlinarith
  · intro hr
    refine ⟨h / z, by positivity, by field_simp, ?_⟩
    rw [div_pow, hz2, div_mul_eq_mul_div, div_le_iff₀ (by linarith)]
    nlinarith

/-- C116: a diffuse surface and a round receiver of radius `rho` that faces it at the distance `h`. The receiver reports the part
rho^2 / (rho^2 + h^2) of the light, up to the accuracy of the number of rays. -/
theorem C116_facing {S : V3 ℝ → Prop} {g g' : Geometry ℝ E} {F G : Tf ℝ} {p n : V3 ℝ} {a a' ρ h : ℝ}
    {taken : σ → Nat} {get : σ → Account ℝ} {set : Account ℝ → σ → σ} {Ω : Type _} [MeasurableSpace Ω] {μ : Measure Ω} [IsProbabilityMeasure μ]
    (hg : FlatShape g S) (hF : F.Rigid) (hp : Placed F S p) (hn : n = F.rot.c3 ∨ n = -F.rot.c3)
    (hg' : roundPlateGM ρ = .ok g') (hG : G.Rigid) (hGn : G.rot.c3 = n ∨ G.rot.c3 = -n) (hloc : G.loc = p + h • n)
    (hh : 1 / 10 ^ 6 < h) (hρ : ρ < 10 ^ 9 * h)
    {ξ : Nat → Ω → ℝ × ℝ} (hm : ∀ i, Measurable (ξ i)) (hind : iIndepFun ξ μ) (hmem : ∀ i ω, ξ i ω ∈ angleDraws)
    (heven : ∀ i T, MeasurableSet T → μ {ω | ξ i ω ∈ T} = fraction angleDraws T)
    {draw : Ω → Nat → σ → List (ℝ × ℝ) × σ} (hdr : ∀ ω, DrawsFrom (fun i => ξ i ω) taken (draw ω) get set)
    {b : Bundle ℝ E} (hb : b ≠ []) (hin : ∀ r ∈ b, ArrivesAt p n (Placed G (diskXY ρ)) r) {w : σ} (hw : get w = Account.reset)
    {minE : ℝ} (hE : ∀ r ∈ b, minE < r.energy * (1 - a)) {ε : ℝ} (hε : 0 < ε) :
    ∃ far : Set Ω,
      μ far ≤ ENNReal.ofReal ((ρ ^ 2 / (ρ ^ 2 + h ^ 2) * (1 - ρ ^ 2 / (ρ ^ 2 + h ^ 2)) * (b.map fun r => (r.energy * (1 - a) * a') ^ 2).sum) / ε ^ 2) ∧
      ∀ ω ∉ far, ∃ res es ps,
        rayTracer [⟨[mkSurf g (lambertian a (draw ω)) F], Obj.defaultOwn, Obj.defaultNext 1⟩,
          ⟨[mkSurf g' (reflectiveReceiver a' get set) G], Obj.defaultOwn, Obj.defaultNext 1⟩] w b 2 minE true = .ok res ∧
        (get res.world).getAllHits = .ok (es, ps) ∧ |es.sum - ρ ^ 2 / (ρ ^ 2 + h ^ 2) * (b.map fun r => r.energy * (1 - a) * a').sum| < ε := by
  have hρ0 : 0 < ρ := by
    by_contra hneg
    rw [(C32_constructor (E := E) ρ).2 (not_lt.1 hneg)] at hg'
    cases hg'
  have hh0 : 0 < h := lt_trans (by norm_num) hh
  have hc3 : V3.dot F.rot.c3 F.rot.c3 = 1 := ((M3.isRotation_iff F.rot).1 hF).1.2.2.1
  have hnu : V3.dot n n = 1 := by
    rcases hn with rfl | rfl
    · exact hc3
    · rw [← hc3]
      simp [V3.dot]
  have hd : V3.dot (G.loc - p) n = h := by
    rw [hloc]
    simp only [V3.dot, V3.sub_x, V3.sub_y, V3.sub_z, V3.add_x, V3.add_y, V3.add_z, V3.smul_x, V3.smul_y, V3.smul_z] at *
    linear_combination h * hnu
  have hdist : |V3.dot (G.loc - p) G.rot.c3| = h := by
    rcases hGn with e | e
    · rw [e, hd, abs_of_pos hh0]
    · have : V3.dot (G.loc - p) (-n) = -h := by
        rw [← hd]
        simp only [V3.dot, V3.neg_x, V3.neg_y, V3.neg_z]
        ring
      rw [e, this, abs_neg, abs_of_pos hh0]
  obtain ⟨e1, e2, he, s, hs, far, hfar, hgood⟩ := C116_accuracy (a := a) (a' := a') (p := fun _ => p) hb hg hF (fun _ _ => hp) hn (.round ρ g' hg') hG (fun _ _ => by rw [hdist]; exact hh) (by
      intro _ _ q hq
      rw [hdist]
      obtain ⟨h1, h2⟩ := (disk_placed hG q).1 hq
      have hz : V3.dot (q - G.loc) n = 0 := by
        rcases hGn with e | e
        · rw [← e]; exact h1
        · rw [e] at h1
          simp only [V3.dot, V3.neg_x, V3.neg_y, V3.neg_z] at *
          linarith
      have : V3.dist2 q p = V3.dist2 q G.loc + h ^ 2 := by
        rw [hloc] at hz ⊢
        simp only [V3.dist2, V3.dot, V3.sub_x, V3.sub_y, V3.sub_z, V3.add_x, V3.add_y, V3.add_z, V3.smul_x, V3.smul_y, V3.smul_z] at *
        linear_combination 2 * h * hz + h ^ 2 * hnu
      rw [this]
      have h3 : ρ ^ 2 < (10 ^ 9 * h) ^ 2 := by
        have : 0 < 10 ^ 9 * h := by positivity
        nlinarith
      nlinarith [sq_nonneg h]) hm hind hmem heven hdr hin hw hE hε
  have hs : ∀ r, s r = ρ ^ 2 / (ρ ^ 2 + h ^ 2) := by
    intro r
    rw [hs, C116_round hρ0 hh0 hG hGn hloc he, ENNReal.toReal_ofReal (by positivity)]
  simp only [hs, List.sum_map_mul_left] at hfar hgood
  exact ⟨far, hfar, hgood⟩

/-! ### A plate of 10 by 10, and a round receiver of radius 3 at the height 4 -/

namespace Examples

/-- A ray to the middle of the plate. -/
noncomputable def lampRay : Ray ℝ Unit := ⟨⟨3 / 2, 0, 2⟩, ⟨-(3 / 5), 0, -(4 / 5)⟩, 1, 0, none, ()⟩

theorem lampRay_arrives : ArrivesAt (0 : V3 ℝ) ⟨0, 0, 1⟩ (Placed ⟨1, ⟨0, 0, 4⟩⟩ (diskXY 3)) lampRay := by
  refine ⟨⟨5 / 2, by norm_num, ?_⟩, ?_, ?_⟩
  · apply V3.ext <;> simp [Ray.at, lampRay] <;> norm_num
  · simp [lampRay, V3.dot]
    norm_num
  · intro t ht h
    have := ((disk_placed (G := ⟨1, ⟨0, 0, 4⟩⟩) M3.IsRotation.one _).1 h).1
    simp [Ray.at, lampRay, V3.dot] at this
    linarith

end Examples

/-- Of the energy 45 that would be absorbed if all light went to the receiver it reports 9/25, which is 16.2, up to 10, with a probability of at
least 0.95. -/
example : ∃ (g g' : Geometry ℝ Unit) (μ : Measure (Nat → angleDraws)) (far : Set (Nat → angleDraws)),
    rectPlateGM 10 10 = .ok g ∧ roundPlateGM 3 = .ok g' ∧ IsProbabilityMeasure μ ∧ μ far ≤ ENNReal.ofReal (1 / 20) ∧
    ∀ ω ∉ far, ∃ res es ps,
      rayTracer [⟨[mkSurf g (lambertian (1 / 2) fun n (w : Nat × Account ℝ) => ((List.range n).map fun j => (ω (w.1 + j)).1, (w.1 + n, w.2))) 1],
          Obj.defaultOwn, Obj.defaultNext 1⟩,
        ⟨[mkSurf g' (reflectiveReceiver (9 / 10) Prod.snd fun acc w => (w.1, acc)) ⟨1, ⟨0, 0, 4⟩⟩], Obj.defaultOwn, Obj.defaultNext 1⟩]
        (0, Account.reset) (List.replicate 100 Examples.lampRay) 2 (1 / 100) true = .ok res ∧
      res.world.2.getAllHits = .ok (es, ps) ∧ |es.sum - 81 / 5| < 10 := by
  obtain ⟨g, hg⟩ := (C31_constructor (E := Unit) (10 : ℝ) 10).1 ⟨by norm_num, by norm_num⟩
  obtain ⟨g', hg'⟩ := (C32_constructor (E := Unit) (3 : ℝ)).1 (by norm_num)
  obtain ⟨μ, hμ, h1, h2, h3⟩ := even_angles
  obtain ⟨far, hfar, hgood⟩ := C116_facing (a := 1 / 2) (a' := 9 / 10) (F := 1) (G := ⟨1, ⟨0, 0, 4⟩⟩) (p := 0) (n := ⟨0, 0, 1⟩) (h := 4)
    (.rect 10 10 g hg) Tf.Rigid.one ⟨0, ⟨rfl, by norm_num, by norm_num⟩, by apply V3.ext <;> simp [Tf.point]⟩ (Or.inl rfl) hg' M3.IsRotation.one (Or.inl rfl)
    (by apply V3.ext <;> simp) (by norm_num) (by norm_num) h1 h2 (fun i ω => (ω i).2) h3
    (taken := Prod.fst) (get := Prod.snd) (set := fun acc (w : Nat × Account ℝ) => (w.1, acc))
    (draw := fun ω n (w : Nat × Account ℝ) => ((List.range n).map fun j => (ω (w.1 + j)).1, (w.1 + n, w.2)))
    (fun ω => ⟨fun _ _ => rfl, fun _ _ => rfl, fun _ _ => rfl, fun _ _ => rfl, fun _ _ => rfl⟩)
    (b := List.replicate 100 Examples.lampRay) (by simp) (by
      intro r hr
      rw [List.eq_of_mem_replicate hr]
      exact Examples.lampRay_arrives) (w := (0, Account.reset)) rfl (minE := 1 / 100) (by
      intro r hr
      rw [List.eq_of_mem_replicate hr]
      norm_num [Examples.lampRay]) (ε := 10) (by norm_num)
  refine ⟨g, g', μ, far, hg, hg', hμ, hfar.trans (ENNReal.ofReal_le_ofReal ?_), ?_⟩
  · rw [List.map_replicate, List.sum_replicate]
    norm_num [Examples.lampRay]
  · intro ω hω
    obtain ⟨res, es, ps, e1, e2, e3⟩ := hgood ω hω
    refine ⟨res, es, ps, e1, e2, ?_⟩
    rw [List.map_replicate, List.sum_replicate] at e3
    norm_num [Examples.lampRay] at e3
    norm_num
    exact e3

namespace Examples

/-- The same ray, moved along the plate. -/
noncomputable def lampAt (x : ℝ) : Ray ℝ Unit := ⟨⟨x + 3 / 2, 0, 2⟩, ⟨-(3 / 5), 0, -(4 / 5)⟩, 1, 0, none, ()⟩

end Examples

/-- Rays that arrive at different places of the plate. -/
example : ∃ (g g' : Geometry ℝ Unit) (μ : Measure (Nat → angleDraws)) (e1 e2 : V3 ℝ) (seen : Nat → Set (Nat → angleDraws)),
    rectPlateGM 10 10 = .ok g ∧ roundPlateGM 3 = .ok g' ∧ IsProbabilityMeasure μ ∧ iIndepSet seen μ ∧
    μ (seen 0) = fraction (disk 1) (nusselt (Placed ⟨1, ⟨0, 0, 4⟩⟩ (diskXY 3)) ⟨0, 0, 0⟩ e1 e2 ⟨0, 0, 1⟩) ∧
    μ (seen 1) = fraction (disk 1) (nusselt (Placed ⟨1, ⟨0, 0, 4⟩⟩ (diskXY 3)) ⟨2, 0, 0⟩ e1 e2 ⟨0, 0, 1⟩) := by
  obtain ⟨g, hg⟩ := (C31_constructor (E := Unit) (10 : ℝ) 10).1 ⟨by norm_num, by norm_num⟩
  obtain ⟨g', hg'⟩ := (C32_constructor (E := Unit) (3 : ℝ)).1 (by norm_num)
  obtain ⟨μ, hμ, h1, h2, h3⟩ := even_angles
  have hall : ∀ {P : Ray ℝ Unit → Prop}, (∀ x : ℝ, 0 ≤ x → x ≤ 2 → P (Examples.lampAt x)) → ∀ r ∈ [Examples.lampAt 0, Examples.lampAt 2], P r := by
    intro P h r hr
    simp only [List.mem_cons, List.not_mem_nil, or_false] at hr
    rcases hr with rfl | rfl <;> exact h _ (by norm_num) (by norm_num)
  have hz : ∀ x : ℝ, V3.dot ((⟨0, 0, 4⟩ : V3 ℝ) - ⟨(Examples.lampAt x).vertex.x - 3 / 2, 0, 0⟩) (1 : M3 ℝ).c3 = 4 := by
    intro x
    simp [V3.dot]
  obtain ⟨e1, e2, he, seen, hs1, hs2, hs3, _⟩ := C116_nusselt (a := 1 / 2) (a' := 9 / 10) (F := 1) (G := ⟨1, ⟨0, 0, 4⟩⟩)
    (p := fun r => ⟨r.vertex.x - 3 / 2, 0, 0⟩) (n := ⟨0, 0, 1⟩) (b := [Examples.lampAt 0, Examples.lampAt 2]) (by simp)
    (.rect 10 10 g hg) Tf.Rigid.one (hall fun x hx hx2 =>
      ⟨⟨x, 0, 0⟩, ⟨rfl, by rw [abs_of_nonneg hx]; linarith, by norm_num⟩, by apply V3.ext <;> simp [Tf.point, Examples.lampAt]⟩) (Or.inl rfl)
    (.round 3 g' hg') M3.IsRotation.one (hall fun x _ _ => by rw [hz]; norm_num) (hall fun x hx hx2 q hq => by
      obtain ⟨a1, a2⟩ := (disk_placed (G := ⟨1, ⟨0, 0, 4⟩⟩) M3.IsRotation.one q).1 hq
      rw [hz]
      simp only [V3.dot, V3.sub_x, V3.sub_y, V3.sub_z, M3.one_c3, V3.dist2, Examples.lampAt] at a1 a2 ⊢
      norm_num at a1 a2 ⊢
      have : q.z = 4 := by linarith
      rw [this] at a2 ⊢
      nlinarith [sq_nonneg (q.x + x), sq_nonneg q.x, sq_nonneg q.y]) h1 h2 (fun i ω => (ω i).2) h3
    (taken := Prod.fst) (get := Prod.snd) (set := fun acc (w : Nat × Account ℝ) => (w.1, acc))
    (draw := fun ω n (w : Nat × Account ℝ) => ((List.range n).map fun j => (ω (w.1 + j)).1, (w.1 + n, w.2)))
    (fun ω => ⟨fun _ _ => rfl, fun _ _ => rfl, fun _ _ => rfl, fun _ _ => rfl, fun _ _ => rfl⟩)
    (hall fun x _ _ => by
      refine ⟨⟨5 / 2, by norm_num, ?_⟩, ?_, ?_⟩
      · apply V3.ext <;> simp [Ray.at, Examples.lampAt] <;> norm_num
      · simp [Examples.lampAt, V3.dot]
        norm_num
      · intro t ht h
        have := ((disk_placed (G := ⟨1, ⟨0, 0, 4⟩⟩) M3.IsRotation.one _).1 h).1
        simp [Ray.at, Examples.lampAt, V3.dot] at this
        linarith) (w := (0, Account.reset)) rfl (minE := 1 / 100) (hall fun x _ _ => by norm_num [Examples.lampAt])
  refine ⟨g, g', μ, e1, e2, seen, hg, hg', hμ, hs2, ?_, ?_⟩
  · have := hs3 0 _ rfl
    simpa [Examples.lampAt] using this
  · have := hs3 1 _ rfl
    simpa [Examples.lampAt] using this

end Tracer
