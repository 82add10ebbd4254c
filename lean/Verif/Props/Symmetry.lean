import Verif.Lemmas.Symmetry

/-! # What is conserved along a trace through a symmetric system (C94, C95, C96) -/

set_option linter.unusedSectionVars false

namespace Tracer

section
variable {E σ : Type _} {M : ℝ → Prop} {a : SceneAsm σ ℝ E} {w : σ} {b : Bundle ℝ E} {reps : Nat} {minE : ℝ} {res : TraceResult σ ℝ E}

/-- A quantity that no surface of the scene changes. -/
theorem conserved {α : Type _} {Q : Ray ℝ E → Prop} {F : Ray ℝ E → α}
    (hobj : ∀ o ∈ a.scene, o.ShapeOk)
    (hgeo : ∀ o ∈ a.getObjects, ∀ s ∈ o.surfs, LibraryGeometry s.data.1)
    (hrig : ∀ o ∈ a.getObjects, ∀ s ∈ o.surfs, s.temp.Rigid)
    (hbend : ∀ o ∈ a.getObjects, ∀ s ∈ o.surfs, Optics.Obeys s.data.2 (BendLaw Q))
    (hQ : ∀ r i, Q r → Q { r with parent := i }) (hunit : ∀ r, Q r → r.dir.IsUnit)
    (hF : ∀ o ∈ a.getObjects, ∀ s ∈ o.surfs, ∀ (p r : Ray ℝ E) (t : ℝ), r.vertex = p.at t →
      (s.data.1.normal s.temp (p.at t) p.dir).IsUnit →
      r.index • V3.cross r.dir (s.data.1.normal s.temp (p.at t) p.dir) = p.index • V3.cross p.dir (s.data.1.normal s.temp (p.at t) p.dir) →
      F r = F p)
    (hb : ∀ r ∈ b, Q r) (h : rayTracer a.scene w b reps minE true = .ok res) :
    (∀ (k : Nat) (lvl : Bundle ℝ E), res.tree[k + 1]? = some lvl → ∀ r ∈ lvl,
      ∃ prev p, res.tree[k]? = some prev ∧ prev[r.parent]? = some p ∧ F r = F p) ∧
    ∀ lvl ∈ res.tree, ∀ r ∈ lvl, Q r ∧ ∃ q ∈ b, F r = F q := by
  have hlen : ∀ o ∈ a.getObjects, ∀ s ∈ o.surfs, s.data.1.LengthOk := fun o ho s hs => (hgeo o ho s hs).lengthOk
  have step : ∀ (k : Nat) (lvl : Bundle ℝ E), res.tree[k + 1]? = some lvl → ∀ r ∈ lvl,
      ∃ prev p, res.tree[k]? = some prev ∧ prev[r.parent]? = some p ∧ (Q p → Q r ∧ F r = F p) := by
    intro k lvl hk r hr
    obtain ⟨prev, p, hprev, hp, o, ho, s, hs, t, _, ⟨rays, i, hi, ht⟩, hv, hl⟩ :=
      C74_law (fun _ => BendLaw Q) hobj hlen hbend (fun _ => bendLaw_numberFree Q hQ) h hk hr
    refine ⟨prev, p, hprev, hp, fun hq => ?_⟩
    have hn := C74_normals (hgeo o ho s hs) (hrig o ho s hs) rays i p t hi (hunit p hq) ht
    obtain ⟨e1, e2⟩ := hl hn hq
    exact ⟨e1, hF o ho s hs p r t hv hn e2⟩
  have key : ∀ (k : Nat) (lvl : Bundle ℝ E), res.tree[k]? = some lvl → ∀ r ∈ lvl, Q r ∧ ∃ q ∈ b, F r = F q := by
    intro k
    induction k with
    | zero =>
      intro lvl hk r hr
      have h0 : res.tree[0]? = some b := by
        obtain ⟨_, steps, stf, _, _, htree, _⟩ := rayTracer_run h
        rw [htree]; rfl
      rw [h0] at hk; cases hk
      exact ⟨hb r hr, r, hr, rfl⟩
    | succ k ih =>
      intro lvl hk r hr
      obtain ⟨prev, p, hprev, hp, himp⟩ := step k lvl hk r hr
      obtain ⟨hq, q, hqb, e⟩ := ih prev hprev p (List.mem_of_getElem? hp)
      exact ⟨(himp hq).1, q, hqb, (himp hq).2.trans e⟩
  refine ⟨fun k lvl hk r hr => ?_, fun lvl hl r hr => ?_⟩
  · obtain ⟨prev, p, hprev, hp, himp⟩ := step k lvl hk r hr
    exact ⟨prev, p, hprev, hp, (himp (key k prev hprev p (List.mem_of_getElem? hp)).1).2⟩
  · obtain ⟨k, hk⟩ := List.mem_iff_getElem?.1 hl
    exact key k lvl hk r hr

/-- C94: in a system drawn along a direction, refractive index times the component of the direction of the ray along it is the same for a ray
and its parent, and so for a ray and its ancestor in the source. -/
theorem C94_along (ha : MediaScene M a) (hclear : ∀ o ∈ a.getObjects, ∀ s ∈ o.surfs, ClearOptics M s.data.2)
    {u : V3 ℝ} (hsym : ∀ o ∈ a.getObjects, ∀ s ∈ o.surfs, Extruded u s.data.1 s.temp)
    (hb : ∀ r ∈ b, MediaRay M r) (h : rayTracer a.scene w b reps minE true = .ok res) :
    (∀ (k : Nat) (lvl : Bundle ℝ E), res.tree[k + 1]? = some lvl → ∀ r ∈ lvl,
      ∃ prev p, res.tree[k]? = some prev ∧ prev[r.parent]? = some p ∧ r.along u = p.along u) ∧
    ∀ lvl ∈ res.tree, ∀ r ∈ lvl, ∃ q ∈ b, r.along u = q.along u := by
  have := conserved (F := Ray.along u) ha.shapeOk ha.geometry ha.rigid (fun o ho s hs => clear_bends ha.media (hclear o ho s hs))
    mediaRay_parent (fun _ hr => hr.1)
    (fun o ho s hs p r t _ hn e => bend_dot hn e ((hsym o ho s hs).normal (ha.rigid o ho s hs) _ _)) hb h
  exact ⟨this.1, fun lvl hl r hr => (this.2 lvl hl r hr).2⟩

/-- C94: so no ray comes into a medium whose refractive index is smaller than that. -/
theorem C94_kept_out (ha : MediaScene M a) (hclear : ∀ o ∈ a.getObjects, ∀ s ∈ o.surfs, ClearOptics M s.data.2)
    {u : V3 ℝ} (hu : u.IsUnit) (hsym : ∀ o ∈ a.getObjects, ∀ s ∈ o.surfs, Extruded u s.data.1 s.temp)
    (hb : ∀ r ∈ b, MediaRay M r) (h : rayTracer a.scene w b reps minE true = .ok res)
    {n : ℝ} (hn : ∀ q ∈ b, n < |q.along u|) : ∀ lvl ∈ res.tree, ∀ r ∈ lvl, n < r.index := by
  intro lvl hl r hr
  obtain ⟨q, hq, e⟩ := (C94_along ha hclear hsym hb h).2 lvl hl r hr
  obtain ⟨hd, m, hm, hr'⟩ := (C74_media ha h).2 hb lvl hl r hr
  have hi : r.index = m := by unfold Ray.index; rw [hr']; rfl
  have hpos := ha.media m hm
  have hle : |V3.dot r.dir u| ≤ 1 := by
    have : V3.dot r.dir u ^ 2 ≤ 1 := by
      unfold V3.IsUnit at hd hu
      have h2 := V3.dot_self_nonneg (V3.cross r.dir u)
      have h3 : V3.dot (V3.cross r.dir u) (V3.cross r.dir u) = V3.dot r.dir r.dir * V3.dot u u - V3.dot r.dir u ^ 2 := by
        simp only [V3.dot, V3.cross]; ring
      rw [h3, hd, hu] at h2
      linarith
    exact abs_le_one_iff_mul_self_le_one.2 (by nlinarith)
  have := hn q hq
  rw [← e] at this
  unfold Ray.along at this
  rw [abs_mul, hi, abs_of_pos hpos] at this
  rw [hi]
  nlinarith

/-- C94: mirrors only, for rays with or without a refractive index. -/
theorem C94_mirrors (hobj : ∀ o ∈ a.scene, o.ShapeOk)
    (hgeo : ∀ o ∈ a.getObjects, ∀ s ∈ o.surfs, LibraryGeometry s.data.1)
    (hrig : ∀ o ∈ a.getObjects, ∀ s ∈ o.surfs, s.temp.Rigid)
    (hopt : ∀ o ∈ a.getObjects, ∀ s ∈ o.surfs, MirrorOptics s.data.2)
    {u : V3 ℝ} (hsym : ∀ o ∈ a.getObjects, ∀ s ∈ o.surfs, Extruded u s.data.1 s.temp)
    (hb : ∀ r ∈ b, r.dir.IsUnit) (h : rayTracer a.scene w b reps minE true = .ok res) :
    (∀ (k : Nat) (lvl : Bundle ℝ E), res.tree[k + 1]? = some lvl → ∀ r ∈ lvl,
      ∃ prev p, res.tree[k]? = some prev ∧ prev[r.parent]? = some p ∧ r.along u = p.along u) ∧
    ∀ lvl ∈ res.tree, ∀ r ∈ lvl, ∃ q ∈ b, r.along u = q.along u := by
  have := conserved (F := Ray.along u) hobj hgeo hrig (fun o ho s hs => mirror_bends (hopt o ho s hs))
    (fun _ _ h => h) (fun _ h => h)
    (fun o ho s hs p r t _ hn e => bend_dot hn e ((hsym o ho s hs).normal (hrig o ho s hs) _ _)) hb h
  exact ⟨this.1, fun lvl hl r hr => (this.2 lvl hl r hr).2⟩

/-- C95: in a system with an axis, the skewness of a ray about the axis is that of its parent, and so of its ancestor in the source. -/
theorem C95_skew (ha : MediaScene M a) (hclear : ∀ o ∈ a.getObjects, ∀ s ∈ o.surfs, ClearOptics M s.data.2)
    {c u : V3 ℝ} (hsym : ∀ o ∈ a.getObjects, ∀ s ∈ o.surfs, Coaxial c u s.data.1 s.temp)
    (hb : ∀ r ∈ b, MediaRay M r) (h : rayTracer a.scene w b reps minE true = .ok res) :
    (∀ (k : Nat) (lvl : Bundle ℝ E), res.tree[k + 1]? = some lvl → ∀ r ∈ lvl,
      ∃ prev p, res.tree[k]? = some prev ∧ prev[r.parent]? = some p ∧ r.skew c u = p.skew c u) ∧
    ∀ lvl ∈ res.tree, ∀ r ∈ lvl, ∃ q ∈ b, r.skew c u = q.skew c u := by
  have := conserved (F := Ray.skew c u) ha.shapeOk ha.geometry ha.rigid (fun o ho s hs => clear_bends ha.media (hclear o ho s hs))
    mediaRay_parent (fun _ hr => hr.1)
    (fun o ho s hs p r t hv hn e => by
      unfold Ray.skew
      rw [hv, bend_moment hn e ((hsym o ho s hs).normal (ha.rigid o ho s hs) _ _)]
      congr 1
      exact moment_along _ _ _ _ _) hb h
  exact ⟨this.1, fun lvl hl r hr => (this.2 lvl hl r hr).2⟩

/-- C95: mirrors only, for rays with or without a refractive index. -/
theorem C95_mirrors (hobj : ∀ o ∈ a.scene, o.ShapeOk)
    (hgeo : ∀ o ∈ a.getObjects, ∀ s ∈ o.surfs, LibraryGeometry s.data.1)
    (hrig : ∀ o ∈ a.getObjects, ∀ s ∈ o.surfs, s.temp.Rigid)
    (hopt : ∀ o ∈ a.getObjects, ∀ s ∈ o.surfs, MirrorOptics s.data.2)
    {c u : V3 ℝ} (hsym : ∀ o ∈ a.getObjects, ∀ s ∈ o.surfs, Coaxial c u s.data.1 s.temp)
    (hb : ∀ r ∈ b, r.dir.IsUnit) (h : rayTracer a.scene w b reps minE true = .ok res) :
    (∀ (k : Nat) (lvl : Bundle ℝ E), res.tree[k + 1]? = some lvl → ∀ r ∈ lvl,
      ∃ prev p, res.tree[k]? = some prev ∧ prev[r.parent]? = some p ∧ r.skew c u = p.skew c u) ∧
    ∀ lvl ∈ res.tree, ∀ r ∈ lvl, ∃ q ∈ b, r.skew c u = q.skew c u := by
  have := conserved (F := Ray.skew c u) hobj hgeo hrig (fun o ho s hs => mirror_bends (hopt o ho s hs))
    (fun _ _ h => h) (fun _ h => h)
    (fun o ho s hs p r t hv hn e => by
      unfold Ray.skew
      rw [hv, bend_moment hn e ((hsym o ho s hs).normal (hrig o ho s hs) _ _)]
      congr 1
      exact moment_along _ _ _ _ _) hb h
  exact ⟨this.1, fun lvl hl r hr => (this.2 lvl hl r hr).2⟩

/-- C95: so a ray in a medium of refractive index `n` nowhere comes nearer to the axis than its skewness divided by `n`. -/
theorem C95_keeps_off {c u : V3 ℝ} (hu : u.IsUnit) {r : Ray ℝ E} (hd : r.dir.IsUnit) (t : ℝ) :
    r.skew c u ^ 2 ≤ r.index ^ 2 * (V3.dot (r.at t - c) (r.at t - c) - V3.dot (r.at t - c) u ^ 2) := by
  unfold Ray.skew
  have e : V3.dot (V3.cross (r.vertex - c) r.dir) u = V3.dot (V3.cross (r.at t - c) r.dir) u := (moment_along _ _ _ _ t).symm
  rw [e]
  generalize r.at t - c = x
  generalize r.dir = d at hd
  have h1 : V3.dot (V3.cross x d) u ^ 2 ≤ V3.dot x x - V3.dot x u ^ 2 := by
    have h3 : V3.dot (V3.cross x d) u = V3.dot d (V3.cross u x) := by simp only [V3.dot, V3.cross]; ring
    have h4 : V3.dot (V3.cross u x) (V3.cross u x) = V3.dot u u * V3.dot x x - V3.dot x u ^ 2 := by
      simp only [V3.dot, V3.cross]; ring
    have h5 := V3.dot_self_nonneg (V3.cross d (V3.cross u x))
    have h6 : V3.dot (V3.cross d (V3.cross u x)) (V3.cross d (V3.cross u x)) =
        V3.dot d d * V3.dot (V3.cross u x) (V3.cross u x) - V3.dot d (V3.cross u x) ^ 2 := by
      generalize V3.cross u x = y
      simp only [V3.dot, V3.cross]; ring
    unfold V3.IsUnit at hu hd
    rw [h6, h4, hd, hu] at h5
    rw [h3]
    linarith
  rw [mul_pow]
  exact mul_le_mul_of_nonneg_left h1 (sq_nonneg _)

/-- C96: in a stack of parallel layers, refractive index times the part of the direction along the layers is the same for a ray and its
parent, and so for a ray and its ancestor in the source. -/
theorem C96_layers (ha : MediaScene M a) (hclear : ∀ o ∈ a.getObjects, ∀ s ∈ o.surfs, ClearOptics M s.data.2)
    {e : V3 ℝ} (he : e.IsUnit)
    (hflat : ∀ o ∈ a.getObjects, ∀ s ∈ o.surfs, FlatGeometry s.data.1 ∧ V3.cross s.temp.rot.c3 e = 0)
    (hb : ∀ r ∈ b, MediaRay M r) (h : rayTracer a.scene w b reps minE true = .ok res) :
    (∀ (k : Nat) (lvl : Bundle ℝ E), res.tree[k + 1]? = some lvl → ∀ r ∈ lvl,
      ∃ prev p, res.tree[k]? = some prev ∧ prev[r.parent]? = some p ∧ r.sideways e = p.sideways e) ∧
    ∀ lvl ∈ res.tree, ∀ r ∈ lvl, ∃ q ∈ b, r.sideways e = q.sideways e := by
  have := conserved (F := Ray.sideways e) ha.shapeOk ha.geometry ha.rigid (fun o ho s hs => clear_bends ha.media (hclear o ho s hs))
    mediaRay_parent (fun _ hr => hr.1)
    (fun o ho s hs p r t _ hn eq => by
      obtain ⟨l, hl⟩ := bend_diff hn eq
      obtain ⟨k, hk⟩ := flatGeometry_normal (hflat o ho s hs).1 s.temp (p.at t) p.dir
      have hc := parallel_unit he (hflat o ho s hs).2
      rw [hk, hc] at hl
      generalize V3.dot s.temp.rot.c3 e = g at hl
      unfold Ray.sideways
      have hx := congrArg V3.x hl
      have hy := congrArg V3.y hl
      have hz := congrArg V3.z hl
      unfold V3.IsUnit at he
      simp only [V3.add_x, V3.add_y, V3.add_z, V3.smul_x, V3.smul_y, V3.smul_z] at hx hy hz
      have hdot : r.index * V3.dot r.dir e = p.index * V3.dot p.dir e + l * k * g := by
        unfold V3.dot at *
        linear_combination e.x * hx + e.y * hy + e.z * hz + l * k * g * he
      apply V3.ext <;> simp only [V3.sub_x, V3.sub_y, V3.sub_z, V3.smul_x, V3.smul_y, V3.smul_z]
      · linear_combination hx - e.x * hdot
      · linear_combination hy - e.y * hdot
      · linear_combination hz - e.z * hdot) hb h
  exact ⟨this.1, fun lvl hl r hr => (this.2 lvl hl r hr).2⟩

/-- C96: a ray in the medium of its ancestor in the source goes in the ancestor's direction, or in that direction mirrored in the layers. -/
theorem C96_out (ha : MediaScene M a) (hclear : ∀ o ∈ a.getObjects, ∀ s ∈ o.surfs, ClearOptics M s.data.2)
    {e : V3 ℝ} (he : e.IsUnit)
    (hflat : ∀ o ∈ a.getObjects, ∀ s ∈ o.surfs, FlatGeometry s.data.1 ∧ V3.cross s.temp.rot.c3 e = 0)
    {q : Ray ℝ E} (hb : MediaRay M q) (h : rayTracer a.scene w [q] reps minE true = .ok res) :
    ∀ lvl ∈ res.tree, ∀ r ∈ lvl, r.ref = q.ref → r.dir = q.dir ∨ Mirrored q.dir e r.dir := by
  intro lvl hl r hr href
  have hb' : ∀ r ∈ [q], MediaRay M r := fun r hr => by rw [List.mem_singleton.1 hr]; exact hb
  obtain ⟨q', hq, e1⟩ := (C96_layers ha hclear he hflat hb' h).2 lvl hl r hr
  rw [List.mem_singleton.1 hq] at e1
  obtain ⟨hd, _⟩ := (C74_media ha h).2 hb' lvl hl r hr
  obtain ⟨hdq, n, hn, hqr⟩ := hb
  have hpos := ha.media n hn
  have i1 : r.index = n := by unfold Ray.index; rw [href, hqr]; rfl
  have i2 : q.index = n := by unfold Ray.index; rw [hqr]; rfl
  unfold Ray.sideways at e1
  rw [i1, i2] at e1
  have hx := congrArg V3.x e1
  have hy := congrArg V3.y e1
  have hz := congrArg V3.z e1
  simp only [V3.smul_x, V3.smul_y, V3.smul_z, V3.sub_x, V3.sub_y, V3.sub_z] at hx hy hz
  have hx := mul_left_cancel₀ hpos.ne' hx
  have hy := mul_left_cancel₀ hpos.ne' hy
  have hz := mul_left_cancel₀ hpos.ne' hz
  unfold V3.IsUnit at hd hdq he
  have hsq : V3.dot r.dir e ^ 2 = V3.dot q.dir e ^ 2 := by
    have t1 : ∀ d : V3 ℝ, V3.dot d d = 1 → (d.x - V3.dot d e * e.x) ^ 2 + (d.y - V3.dot d e * e.y) ^ 2 + (d.z - V3.dot d e * e.z) ^ 2 =
        1 - V3.dot d e ^ 2 := by
      intro d h1
      have : V3.dot d e = d.x * e.x + d.y * e.y + d.z * e.z := rfl
      have h1' : d.x * d.x + d.y * d.y + d.z * d.z = 1 := h1
      have he' : e.x * e.x + e.y * e.y + e.z * e.z = 1 := he
      generalize V3.dot d e = g at *
      linear_combination h1' + g ^ 2 * he' + 2 * g * this
    have t2 := t1 r.dir hd
    rw [hx, hy, hz, t1 q.dir hdq] at t2
    linarith
  rcases sq_eq_sq_iff_eq_or_eq_neg.1 hsq with h1 | h1
  · left
    rw [h1] at hx hy hz
    apply V3.ext <;> linarith
  · right
    refine ⟨h1, ?_⟩
    apply V3.ext <;> simp only [V3.cross]
    · linear_combination e.z * hy - e.y * hz
    · linear_combination e.x * hz - e.z * hx
    · linear_combination e.y * hx - e.x * hy

/-- C96: no ray comes into a layer whose refractive index is smaller than the source's refractive index times the sine of the angle between the
source's direction and the normal of the layers. -/
theorem C96_kept_out (ha : MediaScene M a) (hclear : ∀ o ∈ a.getObjects, ∀ s ∈ o.surfs, ClearOptics M s.data.2)
    {e : V3 ℝ} (he : e.IsUnit)
    (hflat : ∀ o ∈ a.getObjects, ∀ s ∈ o.surfs, FlatGeometry s.data.1 ∧ V3.cross s.temp.rot.c3 e = 0)
    (hb : ∀ r ∈ b, MediaRay M r) (h : rayTracer a.scene w b reps minE true = .ok res)
    {n : ℝ} (hn : ∀ q ∈ b, n < q.index * √(1 - V3.dot q.dir e ^ 2)) : ∀ lvl ∈ res.tree, ∀ r ∈ lvl, n < r.index := by
  intro lvl hl r hr
  obtain ⟨q, hq, e1⟩ := (C96_layers ha hclear he hflat hb h).2 lvl hl r hr
  have size : ∀ x : Ray ℝ E, MediaRay M x → 0 < x.index ∧ 0 ≤ 1 - V3.dot x.dir e ^ 2 ∧
      V3.dot (x.sideways e) (x.sideways e) = (x.index * √(1 - V3.dot x.dir e ^ 2)) ^ 2 := by
    rintro x ⟨hd, m, hm, hx⟩
    have hi : x.index = m := by unfold Ray.index; rw [hx]; rfl
    unfold V3.IsUnit at hd he
    have h0 : 0 ≤ 1 - V3.dot x.dir e ^ 2 := by
      have h2 := V3.dot_self_nonneg (V3.cross x.dir e)
      have h3 : V3.dot (V3.cross x.dir e) (V3.cross x.dir e) = V3.dot x.dir x.dir * V3.dot e e - V3.dot x.dir e ^ 2 := by
        simp only [V3.dot, V3.cross]; ring
      rw [h3, hd, he] at h2
      linarith
    refine ⟨by rw [hi]; exact ha.media m hm, h0, ?_⟩
    rw [mul_pow, Real.sq_sqrt h0]
    unfold Ray.sideways
    have : V3.dot x.dir e = x.dir.x * e.x + x.dir.y * e.y + x.dir.z * e.z := rfl
    have hd' : x.dir.x * x.dir.x + x.dir.y * x.dir.y + x.dir.z * x.dir.z = 1 := hd
    have he' : e.x * e.x + e.y * e.y + e.z * e.z = 1 := he
    generalize V3.dot x.dir e = g at *
    simp only [V3.dot, V3.sub_x, V3.sub_y, V3.sub_z, V3.smul_x, V3.smul_y, V3.smul_z]
    linear_combination x.index ^ 2 * (hd' + g ^ 2 * he' + 2 * g * this)
  obtain ⟨p1, z1, s1⟩ := size r ((C74_media ha h).2 hb lvl hl r hr)
  obtain ⟨p2, z2, s2⟩ := size q (hb q hq)
  rw [e1, s2] at s1
  have h1 : √(1 - V3.dot r.dir e ^ 2) ≤ 1 := by
    rw [Real.sqrt_le_left zero_le_one]
    nlinarith [sq_nonneg (V3.dot r.dir e)]
  have h2 : q.index * √(1 - V3.dot q.dir e ^ 2) = r.index * √(1 - V3.dot r.dir e ^ 2) :=
    (pow_left_inj₀ (mul_nonneg p2.le (Real.sqrt_nonneg _)) (mul_nonneg p1.le (Real.sqrt_nonneg _)) two_ne_zero).1 s1
  have := hn q hq
  rw [h2] at this
  nlinarith

end

/-! ## The layer of oil on glass -/

theorem oilOnGlass_clear : ∀ o ∈ oilOnGlass.getObjects, ∀ s ∈ o.surfs, ClearOptics (fun n => n = 1 ∨ n = 4 / 3 ∨ n = 3 / 2) s.data.2 :=
  List.forall_mem_cons.2 ⟨List.forall_mem_cons.2 ⟨.mirror _, List.forall_mem_cons.2
    ⟨.refractive _ _ (by norm_num) (by norm_num),
      List.forall_mem_cons.2 ⟨.refractive _ _ (by norm_num) (by norm_num), List.forall_mem_nil _⟩⟩⟩, List.forall_mem_nil _⟩

theorem oilOnGlass_plain : ∀ o ∈ oilOnGlass.getObjects, ∀ s ∈ o.surfs, PlainGeometry s.data.1 :=
  List.forall_mem_cons.2 ⟨List.forall_mem_cons.2 ⟨.flat, List.forall_mem_cons.2 ⟨.flat,
    List.forall_mem_cons.2 ⟨.flat, List.forall_mem_nil _⟩⟩⟩, List.forall_mem_nil _⟩

theorem oilOnGlass_flat : ∀ o ∈ oilOnGlass.getObjects, ∀ s ∈ o.surfs,
    FlatGeometry s.data.1 ∧ V3.cross s.temp.rot.c3 (⟨0, 0, 1⟩ : V3 ℝ) = 0 := by
  have h1 : V3.cross ((1 : M3 ℝ).c3) (⟨0, 0, 1⟩ : V3 ℝ) = 0 := by
    show V3.cross (⟨0, 0, 1⟩ : V3 ℝ) ⟨0, 0, 1⟩ = 0
    apply V3.ext <;> simp [V3.cross]
  exact List.forall_mem_cons.2 ⟨List.forall_mem_cons.2 ⟨⟨.flat, h1⟩, List.forall_mem_cons.2 ⟨⟨.flat, h1⟩,
    List.forall_mem_cons.2 ⟨⟨.flat, h1⟩, List.forall_mem_nil _⟩⟩⟩, List.forall_mem_nil _⟩

/-- A slanting ray from the air: whatever happens in the layers, all rays in the air go in its direction or mirrored. -/
example (reps : Nat) (minE : ℝ) :
    ∃ res : TraceResult Unit ℝ Unit,
      rayTracer oilOnGlass.scene () [⟨⟨0, 0, 3⟩, ⟨0, 3 / 5, -4 / 5⟩, 1, 0, some 1, ()⟩] reps minE true = .ok res ∧
      ∀ lvl ∈ res.tree, ∀ r ∈ lvl, r.ref = some 1 → r.dir = ⟨0, 3 / 5, -4 / 5⟩ ∨ Mirrored ⟨0, 3 / 5, -4 / 5⟩ ⟨0, 0, 1⟩ r.dir := by
  have hq : MediaRay (fun n => n = 1 ∨ n = 4 / 3 ∨ n = 3 / 2) (⟨⟨0, 0, 3⟩, ⟨0, 3 / 5, -4 / 5⟩, 1, 0, some 1, ()⟩ : Ray ℝ Unit) :=
    ⟨by norm_num [V3.IsUnit, V3.dot], 1, Or.inl rfl, rfl⟩
  obtain ⟨res, h⟩ := C75_media oilOnGlass_media oilOnGlass_plain () (fun r hr => by rw [List.mem_singleton.1 hr]; exact hq) minE (Or.inl rfl)
  exact ⟨res, h, C96_out oilOnGlass_media oilOnGlass_clear (by norm_num [V3.IsUnit, V3.dot]) oilOnGlass_flat hq h⟩

/-- A ray in the glass, flat enough: no light comes out into the air, for every number of iterations. -/
example (reps : Nat) (minE : ℝ) :
    ∃ res : TraceResult Unit ℝ Unit,
      rayTracer oilOnGlass.scene () [⟨⟨0, 0, 1 / 2⟩, ⟨0, 4 / 5, 3 / 5⟩, 1, 0, some (3 / 2), ()⟩] reps minE true = .ok res ∧
      ∀ lvl ∈ res.tree, ∀ r ∈ lvl, r.ref ≠ some 1 := by
  have hq : ∀ r ∈ ([⟨⟨0, 0, 1 / 2⟩, ⟨0, 4 / 5, 3 / 5⟩, 1, 0, some (3 / 2), ()⟩] : Bundle ℝ Unit),
      MediaRay (fun n => n = 1 ∨ n = 4 / 3 ∨ n = 3 / 2) r := fun r hr => by
    rw [List.mem_singleton.1 hr]
    exact ⟨by norm_num [V3.IsUnit, V3.dot], 3 / 2, Or.inr (Or.inr rfl), rfl⟩
  obtain ⟨res, h⟩ := C75_media oilOnGlass_media oilOnGlass_plain () hq minE (Or.inl rfl)
  refine ⟨res, h, fun lvl hl r hr href => ?_⟩
  have := C96_kept_out oilOnGlass_media oilOnGlass_clear (e := ⟨0, 0, 1⟩) (by norm_num [V3.IsUnit, V3.dot]) oilOnGlass_flat hq h (n := 1)
    (fun q hq => by
      rw [List.mem_singleton.1 hq]
      have h1 : √((4 / 5 : ℝ) ^ 2) = 4 / 5 := Real.sqrt_sq (by norm_num)
      have h2 : (1 - V3.dot (⟨0, 4 / 5, 3 / 5⟩ : V3 ℝ) ⟨0, 0, 1⟩ ^ 2) = (4 / 5) ^ 2 := by norm_num [V3.dot]
      show 1 < 3 / 2 * √(1 - V3.dot (⟨0, 4 / 5, 3 / 5⟩ : V3 ℝ) ⟨0, 0, 1⟩ ^ 2)
      rw [h2, h1]
      norm_num) lvl hl r hr
  unfold Ray.index at this
  rw [href] at this
  exact lt_irrefl _ this

/-- The component along the layers, times the refractive index, is 3/5 in all media. -/
example (reps : Nat) (minE : ℝ) :
    ∃ res : TraceResult Unit ℝ Unit,
      rayTracer oilOnGlass.scene () [⟨⟨0, 0, 3⟩, ⟨0, 3 / 5, -4 / 5⟩, 1, 0, some 1, ()⟩] reps minE true = .ok res ∧
      ∀ lvl ∈ res.tree, ∀ r ∈ lvl, r.along ⟨0, 1, 0⟩ = 3 / 5 ∧ 1 / 2 < r.index := by
  have hq : ∀ r ∈ ([⟨⟨0, 0, 3⟩, ⟨0, 3 / 5, -4 / 5⟩, 1, 0, some 1, ()⟩] : Bundle ℝ Unit),
      MediaRay (fun n => n = 1 ∨ n = 4 / 3 ∨ n = 3 / 2) r := fun r hr => by
    rw [List.mem_singleton.1 hr]
    exact ⟨by norm_num [V3.IsUnit, V3.dot], 1, Or.inl rfl, rfl⟩
  have hal : (⟨⟨0, 0, 3⟩, ⟨0, 3 / 5, -4 / 5⟩, 1, 0, some 1, ()⟩ : Ray ℝ Unit).along ⟨0, 1, 0⟩ = 3 / 5 := by
    norm_num [Ray.along, Ray.index, V3.dot]
  have h1 : V3.dot ((1 : M3 ℝ).c3) (⟨0, 1, 0⟩ : V3 ℝ) = 0 := by
    show V3.dot (⟨0, 0, 1⟩ : V3 ℝ) ⟨0, 1, 0⟩ = 0
    simp [V3.dot]
  have hsym : ∀ o ∈ oilOnGlass.getObjects, ∀ s ∈ o.surfs, Extruded ⟨0, 1, 0⟩ s.data.1 s.temp :=
    List.forall_mem_cons.2 ⟨List.forall_mem_cons.2 ⟨.flat _ _ .flat h1, List.forall_mem_cons.2 ⟨.flat _ _ .flat h1,
      List.forall_mem_cons.2 ⟨.flat _ _ .flat h1, List.forall_mem_nil _⟩⟩⟩, List.forall_mem_nil _⟩
  obtain ⟨res, h⟩ := C75_media oilOnGlass_media oilOnGlass_plain () hq minE (Or.inl rfl)
  refine ⟨res, h, fun lvl hl r hr => ⟨?_, ?_⟩⟩
  · obtain ⟨q, hq', e⟩ := (C94_along oilOnGlass_media oilOnGlass_clear hsym hq h).2 lvl hl r hr
    rw [e, List.mem_singleton.1 hq', hal]
  · exact C94_kept_out oilOnGlass_media oilOnGlass_clear (by norm_num [V3.IsUnit, V3.dot]) hsym hq h
      (fun q hq' => by rw [List.mem_singleton.1 hq', hal]; norm_num [abs_of_pos]) lvl hl r hr

/-! ## A ball of glass over a mirror -/

/-- A ball of glass of radius 1, a round mirror below it and a dish above it, all about the Z axis. -/
noncomputable def ballOverMirror (ball plate : Geometry ℝ Unit) : SceneAsm Unit ℝ Unit :=
  .mk 1 [] [⟨1, [⟨1, 1, (ball, refractiveHomogenous 1 (3 / 2))⟩, ⟨1, ⟨1, ⟨0, 0, -2⟩⟩, (plate, reflective (1 / 4))⟩,
    ⟨1, ⟨1, ⟨0, 0, 2⟩⟩, (parabolicDishGM 4 1, reflective (1 / 4))⟩], (Obj.defaultOwn, Obj.defaultNext 3)⟩]

/-- A ray that passes the axis at a distance of 1/2: whatever it meets, its descendants have its skewness, and they come no nearer
to the axis than that divided by the refractive index. -/
example (reps : Nat) (minE : ℝ) : ∃ (ball plate : Geometry ℝ Unit) (res : TraceResult Unit ℝ Unit),
    sphereGM 1 = .ok ball ∧ roundPlateGM 3 = .ok plate ∧
    rayTracer (ballOverMirror ball plate).scene () [⟨⟨1 / 2, -3, 3 / 2⟩, ⟨0, 4 / 5, -3 / 5⟩, 1, 0, some 1, ()⟩] reps minE true = .ok res ∧
    ∀ lvl ∈ res.tree, ∀ r ∈ lvl, r.skew 0 ⟨0, 0, 1⟩ = 2 / 5 ∧
      ∀ t, (2 / 5) ^ 2 ≤ r.index ^ 2 * (V3.dot (r.at t - 0) (r.at t - 0) - V3.dot (r.at t - 0) ⟨0, 0, 1⟩ ^ 2) := by
  obtain ⟨ball, hball⟩ : ∃ g, (sphereGM 1 : Except Err (Geometry ℝ Unit)) = .ok g := by
    unfold sphereGM setRadius
    rw [if_neg (by norm_num)]
    exact ⟨_, rfl⟩
  obtain ⟨plate, hplate⟩ : ∃ g, (roundPlateGM 3 : Except Err (Geometry ℝ Unit)) = .ok g := by
    unfold roundPlateGM
    rw [if_neg (by norm_num)]
    exact ⟨_, rfl⟩
  have hR : ∀ v : V3 ℝ, (⟨1, v⟩ : Tf ℝ).Rigid := fun _ => Tf.Rigid.one
  have hplain : ∀ o ∈ (ballOverMirror ball plate).getObjects, ∀ s ∈ o.surfs, PlainGeometry s.data.1 :=
    List.forall_mem_cons.2 ⟨List.forall_mem_cons.2 ⟨.sphere 1 _ hball, List.forall_mem_cons.2 ⟨.round 3 _ hplate,
      List.forall_mem_cons.2 ⟨.dish _ _ (by norm_num) (by norm_num), List.forall_mem_nil _⟩⟩⟩, List.forall_mem_nil _⟩
  have hclear : ∀ o ∈ (ballOverMirror ball plate).getObjects, ∀ s ∈ o.surfs, ClearOptics (fun n => n = 1 ∨ n = 3 / 2) s.data.2 :=
    List.forall_mem_cons.2 ⟨List.forall_mem_cons.2 ⟨.refractive _ _ (by norm_num) (by norm_num), List.forall_mem_cons.2
      ⟨.mirror _, List.forall_mem_cons.2 ⟨.mirror _, List.forall_mem_nil _⟩⟩⟩, List.forall_mem_nil _⟩
  have hmedia : MediaScene (fun n => n = 1 ∨ n = 3 / 2) (ballOverMirror ball plate) := by
    refine ⟨?_, ⟨_, List.mem_cons_self, fun h => by cases h⟩, ?_, fun o ho s hs => .plain _ (hplain o ho s hs), ?_, ?_⟩
    · rintro n (rfl | rfl) <;> norm_num
    · exact List.forall_mem_cons.2 ⟨List.forall_mem_cons.2 ⟨.one, List.forall_mem_cons.2 ⟨hR _, List.forall_mem_cons.2 ⟨hR _,
        List.forall_mem_nil _⟩⟩⟩, List.forall_mem_nil _⟩
    · exact List.forall_mem_cons.2 ⟨List.forall_mem_cons.2 ⟨.refractive _ _ (by norm_num) (by norm_num) (by norm_num), List.forall_mem_cons.2
        ⟨.mirror _, List.forall_mem_cons.2 ⟨.mirror _, List.forall_mem_nil _⟩⟩⟩, List.forall_mem_nil _⟩
    · exact List.forall_mem_cons.2 ⟨.inl rfl, List.forall_mem_nil _⟩
  have h1 : V3.cross ((1 : M3 ℝ).c3) (⟨0, 0, 1⟩ : V3 ℝ) = 0 := by
    show V3.cross (⟨0, 0, 1⟩ : V3 ℝ) ⟨0, 0, 1⟩ = 0
    apply V3.ext <;> simp [V3.cross]
  have h2 : ∀ z : ℝ, V3.cross ((⟨0, 0, z⟩ : V3 ℝ) - 0) ⟨0, 0, 1⟩ = 0 := fun z => by apply V3.ext <;> simp [V3.cross]
  have hsym : ∀ o ∈ (ballOverMirror ball plate).getObjects, ∀ s ∈ o.surfs, Coaxial 0 ⟨0, 0, 1⟩ s.data.1 s.temp :=
    List.forall_mem_cons.2 ⟨List.forall_mem_cons.2 ⟨.sphere 1 _ _ hball (h2 0), List.forall_mem_cons.2 ⟨.flat _ _ (.round 3 _ hplate) h1,
      List.forall_mem_cons.2 ⟨.dish _ _ _ (h2 2) h1, List.forall_mem_nil _⟩⟩⟩, List.forall_mem_nil _⟩
  have hq : ∀ r ∈ ([⟨⟨1 / 2, -3, 3 / 2⟩, ⟨0, 4 / 5, -3 / 5⟩, 1, 0, some 1, ()⟩] : Bundle ℝ Unit),
      MediaRay (fun n => n = 1 ∨ n = 3 / 2) r := fun r hr => by
    rw [List.mem_singleton.1 hr]
    exact ⟨by norm_num [V3.IsUnit, V3.dot], 1, Or.inl rfl, rfl⟩
  obtain ⟨res, h⟩ := C75_media hmedia hplain () hq minE (Or.inl rfl)
  refine ⟨ball, plate, res, hball, hplate, h, fun lvl hl r hr => ?_⟩
  obtain ⟨q, hq', e⟩ := (C95_skew hmedia hclear hsym hq h).2 lvl hl r hr
  have e' : r.skew 0 ⟨0, 0, 1⟩ = 2 / 5 := by
    rw [e, List.mem_singleton.1 hq']
    norm_num [Ray.skew, Ray.index, V3.dot, V3.cross]
  refine ⟨e', fun t => ?_⟩
  rw [← e']
  exact C95_keeps_off (by norm_num [V3.IsUnit, V3.dot]) ((C74_media hmedia h).2 hq lvl hl r hr).1 t

/-! ## A pipe between two mirrors -/

/-- A cylindrical mirror along the Z axis and a plane mirror that contains that direction. -/
noncomputable def pipeByMirror : SceneAsm Unit ℝ Unit :=
  .mk 1 [] [⟨1, [⟨1, 1, (finiteCylinderGM 2 10, reflective (1 / 4))⟩,
    ⟨1, ⟨⟨⟨0, 1, 0⟩, ⟨0, 0, 1⟩, ⟨1, 0, 0⟩⟩, ⟨3, 0, 0⟩⟩, (flatGM, absorberReflector (1 / 4))⟩], (Obj.defaultOwn, Obj.defaultNext 2)⟩]

/-- Rays without a refractive index keep the component of their direction along the Z axis. -/
example (reps : Nat) (minE : ℝ) :
    ∃ res : TraceResult Unit ℝ Unit,
      rayTracer pipeByMirror.scene () [⟨⟨2, 0, 0⟩, ⟨-3 / 5, 0, 4 / 5⟩, 1, 0, none, ()⟩] reps minE true = .ok res ∧
      ∀ lvl ∈ res.tree, ∀ r ∈ lvl, r.along ⟨0, 0, 1⟩ = 4 / 5 := by
  have hR : (⟨⟨⟨0, 1, 0⟩, ⟨0, 0, 1⟩, ⟨1, 0, 0⟩⟩, ⟨3, 0, 0⟩⟩ : Tf ℝ).Rigid := by
    unfold Tf.Rigid; rw [M3.isRotation_iff]; unfold M3.det V3.dot V3.cross; norm_num
  have hplain : ∀ o ∈ pipeByMirror.getObjects, ∀ s ∈ o.surfs, PlainGeometry s.data.1 :=
    List.forall_mem_cons.2 ⟨List.forall_mem_cons.2 ⟨.finiteCylinder _ _ (by norm_num), List.forall_mem_cons.2 ⟨.flat,
      List.forall_mem_nil _⟩⟩, List.forall_mem_nil _⟩
  have hrig : ∀ o ∈ pipeByMirror.getObjects, ∀ s ∈ o.surfs, s.temp.Rigid :=
    List.forall_mem_cons.2 ⟨List.forall_mem_cons.2 ⟨.one, List.forall_mem_cons.2
      ⟨hR, List.forall_mem_nil _⟩⟩, List.forall_mem_nil _⟩
  have hscene : LibraryScene 1 1 pipeByMirror :=
    ⟨⟨_, List.mem_cons_self, fun h => by cases h⟩, hrig, fun o ho s hs => .plain _ (hplain o ho s hs),
      List.forall_mem_cons.2 ⟨List.forall_mem_cons.2 ⟨.mirror _, List.forall_mem_cons.2 ⟨.oneSided _, List.forall_mem_nil _⟩⟩,
        List.forall_mem_nil _⟩, List.forall_mem_cons.2 ⟨.inl rfl, List.forall_mem_nil _⟩⟩
  have hq : ∀ r ∈ ([⟨⟨2, 0, 0⟩, ⟨-3 / 5, 0, 4 / 5⟩, 1, 0, none, ()⟩] : Bundle ℝ Unit), r.dir.IsUnit := fun r hr => by
    rw [List.mem_singleton.1 hr]
    norm_num [V3.IsUnit, V3.dot]
  obtain ⟨res, h⟩ := C75_opaque hscene hplain
    (List.forall_mem_cons.2 ⟨List.forall_mem_cons.2 ⟨.mirror _, List.forall_mem_cons.2 ⟨.oneSided _, List.forall_mem_nil _⟩⟩,
        List.forall_mem_nil _⟩) () hq (reps := reps) minE (Or.inl rfl)
  refine ⟨res, h, fun lvl hl r hr => ?_⟩
  have hsym : ∀ o ∈ pipeByMirror.getObjects, ∀ s ∈ o.surfs, Extruded ⟨0, 0, 1⟩ s.data.1 s.temp :=
    List.forall_mem_cons.2 ⟨List.forall_mem_cons.2 ⟨.finiteCylinder _ _ _ (by
      show V3.cross ((1 : M3 ℝ).c3) _ = 0
      show V3.cross (⟨0, 0, 1⟩ : V3 ℝ) ⟨0, 0, 1⟩ = 0
      apply V3.ext <;> simp [V3.cross]), List.forall_mem_cons.2 ⟨.flat _ _ .flat (by
        show V3.dot (⟨1, 0, 0⟩ : V3 ℝ) ⟨0, 0, 1⟩ = 0
        simp [V3.dot]),
      List.forall_mem_nil _⟩⟩, List.forall_mem_nil _⟩
  obtain ⟨q, hq', e⟩ := (C94_mirrors hscene.shapeOk hscene.geometry hrig
    (List.forall_mem_cons.2 ⟨List.forall_mem_cons.2 ⟨.mirror _, List.forall_mem_cons.2 ⟨.oneSided _, List.forall_mem_nil _⟩⟩,
        List.forall_mem_nil _⟩) hsym hq h).2 lvl hl r hr
  rw [e, List.mem_singleton.1 hq']
  norm_num [Ray.along, Ray.index, V3.dot]

end Tracer
