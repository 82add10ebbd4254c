import Verif.Spec.Triangulated
import Verif.Props.Flat
import Verif.Props.Heliostats

/-!
# Triangulated surfaces (C60)
-/

set_option linter.unusedSectionVars false

namespace Tracer

open Real

variable {σ E : Type _}

theorem rowNorm_eq (v : V3 ℝ) : rowNorm v = √(V3.dot v v) := by
  unfold rowNorm V3.dot
  congr 1; ring

theorem rowNorm_sq (v : V3 ℝ) : rowNorm v * rowNorm v = V3.dot v v := by
  rw [rowNorm_eq, mul_self_sqrt (dot_self_nonneg v)]

theorem rowNorm_nonneg (v : V3 ℝ) : 0 ≤ rowNorm v := sqrt_nonneg _

theorem long_iff (v : V3 ℝ) : 1 / 10 ^ 8 < |rowNorm v| ↔ (1 / 10 ^ 8) ^ 2 < V3.dot v v := by
  rw [abs_of_nonneg (rowNorm_nonneg v), rowNorm_eq]
  exact Real.lt_sqrt (by positivity)

theorem faceAxes_none {e : V3 ℝ × V3 ℝ} (h : V3.cross e.1 e.2 = 0) : faceAxes e = none := by
  unfold faceAxes
  have hx : V3.cross (⟨e.1.x / rowNorm e.1, e.1.y / rowNorm e.1, e.1.z / rowNorm e.1⟩ : V3 ℝ) e.2 = 0 := by
    have h1 := congrArg V3.x h
    have h2 := congrArg V3.y h
    have h3 := congrArg V3.z h
    simp only [V3.cross, V3.zero_x, V3.zero_y, V3.zero_z] at h1 h2 h3
    apply V3.ext
    · simp only [V3.cross, V3.zero_x]; linear_combination (1 / rowNorm e.1) * h1
    · simp only [V3.cross, V3.zero_y]; linear_combination (1 / rowNorm e.1) * h2
    · simp only [V3.cross, V3.zero_z]; linear_combination (1 / rowNorm e.1) * h3
  simp only
  rw [if_pos]
  rw [hx]
  simp [rowNorm]

theorem faceAxes_some {e : V3 ℝ × V3 ℝ} (hl : 0 < rowNorm e.1) (h : V3.cross e.1 e.2 ≠ 0) :
    ∃ m, faceAxes e = some m ∧ m.IsRotation ∧ (m.transpose.mulVec e.1).z = 0 ∧ (m.transpose.mulVec e.2).z = 0 ∧
      0 < V3.dot m.c3 (V3.cross e.1 e.2) := by
  have hsq := rowNorm_sq e.1
  obtain ⟨n, hn⟩ : ∃ n, n = rowNorm e.1 := ⟨_, rfl⟩
  have hn0 : n ≠ 0 := by rw [hn]; exact hl.ne'
  let x : V3 ℝ := ⟨e.1.x / n, e.1.y / n, e.1.z / n⟩
  have hxe : n • x = e.1 := by
    apply V3.ext <;> simp [x] <;> field_simp
  have hcx : n • V3.cross x e.2 = V3.cross e.1 e.2 := by
    rw [← hxe]
    apply V3.ext <;> simp [V3.cross] <;> ring
  have hxu : V3.dot x x = 1 := by
    have : n * n * V3.dot x x = V3.dot e.1 e.1 := by
      rw [← hxe]; unfold V3.dot; simp; ring
    rw [← hsq, ← hn] at this
    have h2 : n * n ≠ 0 := mul_ne_zero hn0 hn0
    field_simp at this
    exact this
  have hz : V3.cross x e.2 ≠ 0 := by
    intro hc
    apply h
    rw [← hcx, hc]
    apply V3.ext <;> simp
  obtain ⟨w, hw⟩ : ∃ w, w = V3.cross x e.2 := ⟨_, rfl⟩
  obtain ⟨k, hk⟩ : ∃ k, k = rowNorm w := ⟨_, rfl⟩
  have hk2 : k * k = V3.dot w w := by rw [hk]; exact rowNorm_sq w
  have hwp : 0 < V3.dot w w := dot_self_pos (by rw [hw]; exact hz)
  have hk0 : 0 < k := by
    rcases lt_or_eq_of_le (rowNorm_nonneg w) with h0 | h0
    · rw [hk]; exact h0
    · rw [hk, ← h0] at hk2; simp at hk2; linarith
  let z : V3 ℝ := ⟨w.x / k, w.y / k, w.z / k⟩
  have hkz : k • z = w := by
    apply V3.ext <;> simp [z] <;> field_simp
  have hzu : V3.dot z z = 1 := by
    have : k * k * V3.dot z z = V3.dot w w := by
      rw [← hkz]; unfold V3.dot; simp; ring
    rw [← hk2] at this
    have h2 : k * k ≠ 0 := mul_ne_zero hk0.ne' hk0.ne'
    field_simp at this
    exact this
  have hzx : V3.dot z x = 0 := by
    have : k * V3.dot z x = 0 := by
      have e1 : k * V3.dot z x = V3.dot w x := by rw [← hkz]; unfold V3.dot; simp; ring
      rw [e1, hw]; unfold V3.dot V3.cross; ring
    rcases mul_eq_zero.1 this with h0 | h0
    · exact absurd h0 hk0.ne'
    · exact h0
  have hze : V3.dot z e.2 = 0 := by
    have : k * V3.dot z e.2 = 0 := by
      have e1 : k * V3.dot z e.2 = V3.dot w e.2 := by rw [← hkz]; unfold V3.dot; simp; ring
      rw [e1, hw]; unfold V3.dot V3.cross; ring
    rcases mul_eq_zero.1 this with h0 | h0
    · exact absurd h0 hk0.ne'
    · exact h0
  have hbig : 1 / 10 ^ 6 < |z.x| ∨ 1 / 10 ^ 6 < |z.y| ∨ 1 / 10 ^ 6 < |z.z| := by
    by_contra hc
    push Not at hc
    obtain ⟨h1, h2, h3⟩ := hc
    have b : ∀ t : ℝ, |t| ≤ 1 / 10 ^ 6 → t * t ≤ 1 / 10 ^ 6 := by
      intro t ht
      have := mul_le_mul ht ht (abs_nonneg t) (by positivity)
      rw [abs_mul_abs_self] at this
      refine le_trans this ?_
      norm_num
    have := b _ h1; have := b _ h2; have := b _ h3
    unfold V3.dot at hzu
    norm_num at *
    linarith
  have hax : faceAxes e = some ⟨x, V3.cross z x, z⟩ := by
    have hx' : (⟨e.1.x / rowNorm e.1, e.1.y / rowNorm e.1, e.1.z / rowNorm e.1⟩ : V3 ℝ) = x := by rw [← hn]
    unfold faceAxes
    simp only [hx', ← hw, ← hk]
    rw [if_neg hk0.ne']
    exact if_pos hbig
  refine ⟨_, hax, ?_, ?_, ?_, ?_⟩
  · rw [M3.isRotation_iff]
    unfold M3.det
    unfold V3.dot V3.cross at *
    simp only at *
    refine ⟨⟨hxu, ?_, hzu, ?_, ?_, ?_⟩, ?_⟩
    · linear_combination hzu * (x.x * x.x + x.y * x.y + x.z * x.z) + hxu - (z.x * x.x + z.y * x.y + z.z * x.z) * hzx
    · ring
    · linear_combination hzx
    · ring
    · linear_combination hzu * (x.x * x.x + x.y * x.y + x.z * x.z) + hxu - (z.x * x.x + z.y * x.y + z.z * x.z) * hzx
  · simp only [M3.mulVec_z, M3.transpose]
    have : V3.dot z e.1 = n * V3.dot z x := by rw [← hxe]; unfold V3.dot; simp; ring
    rw [hzx, mul_zero] at this
    unfold V3.dot at this
    exact this
  · simp only [M3.mulVec_z, M3.transpose]
    unfold V3.dot at hze
    exact hze
  · have : V3.dot z (V3.cross e.1 e.2) = n * k * V3.dot z z := by
      rw [← hcx, ← hw, ← hkz]; unfold V3.dot; simp; ring
    show 0 < V3.dot z (V3.cross e.1 e.2)
    rw [this, hzu, mul_one]
    exact mul_pos (by rw [hn]; exact hl) hk0

open Classical in
/-- The kept faces are the proper ones, each with its axes. -/
theorem kept_forall₂ : ∀ (tris : List (V3 ℝ × V3 ℝ × V3 ℝ)),
    List.Forall₂ (fun f t => ∃ m, f = (m, (t.2.1 - t.1, t.2.2 - t.1)) ∧ faceAxes f.2 = some m ∧ ProperFace t)
      (keptFaces (tris.map fun c => (c.2.1 - c.1, c.2.2 - c.1))) (tris.filter fun t => decide (ProperFace t))
  | [] => by simp [keptFaces]
  | t :: tris => by
    have ih := kept_forall₂ tris
    have hlong : longEdges (t.2.1 - t.1, t.2.2 - t.1) = true ↔
        (1 / 10 ^ 8) ^ 2 < V3.dist2 t.2.1 t.1 ∧ (1 / 10 ^ 8) ^ 2 < V3.dist2 t.2.2 t.1 := by
      unfold longEdges
      rw [Bool.and_eq_true, decide_eq_true_iff, decide_eq_true_iff, long_iff, long_iff]
      rfl
    unfold keptFaces at ih ⊢
    by_cases hp : ProperFace t
    · rw [List.filter_cons_of_pos (by simpa using hp), List.map_cons,
        List.filter_cons_of_pos (hlong.2 ⟨hp.1, hp.2.1⟩)]
      have hpos : 0 < rowNorm (t.2.1 - t.1) := by
        have h1 := (long_iff (t.2.1 - t.1)).2 hp.1
        rw [abs_of_nonneg (rowNorm_nonneg _)] at h1
        exact lt_trans (by positivity) h1
      obtain ⟨m, hm, _⟩ := faceAxes_some (e := (t.2.1 - t.1, t.2.2 - t.1)) hpos hp.2.2
      rw [List.filterMap_cons_some (b := (m, (t.2.1 - t.1, t.2.2 - t.1))) (by rw [hm]; rfl)]
      exact List.Forall₂.cons ⟨m, rfl, hm, hp⟩ ih
    · rw [List.filter_cons_of_neg (by simpa using hp), List.map_cons]
      by_cases hl : longEdges (t.2.1 - t.1, t.2.2 - t.1) = true
      · rw [List.filter_cons_of_pos hl]
        have hc : V3.cross (t.2.1 - t.1) (t.2.2 - t.1) = 0 := by
          by_contra hc
          exact hp ⟨(hlong.1 hl).1, (hlong.1 hl).2, hc⟩
        rw [List.filterMap_cons_none (by rw [faceAxes_none hc]; rfl)]
        exact ih
      · rw [List.filter_cons_of_neg hl]
        exact ih

/-- The surface made for a face, placed at `pos`, in an object at `T`. -/
theorem faceSurface_isTriangle (optics : Optics σ ℝ E) {T : Tf ℝ} (hT : T.Rigid) (pos : V3 ℝ)
    {t : V3 ℝ × V3 ℝ × V3 ℝ} (ht : ProperFace t) {m : M3 ℝ} (hm : faceAxes (t.2.1 - t.1, t.2.2 - t.1) = some m) :
    ((faceSurface optics pos (m, (t.2.1 - t.1, t.2.2 - t.1))).transformFrame T).IsTriangle
      (T.point pos) (T.point (pos + (t.2.1 - t.1))) (T.point (pos + (t.2.2 - t.1))) := by
  have hpos : 0 < rowNorm (t.2.1 - t.1) := by
    have h1 := (long_iff (t.2.1 - t.1)).2 ht.1
    rw [abs_of_nonneg (rowNorm_nonneg _)] at h1
    exact lt_trans (by positivity) h1
  obtain ⟨m', hm', hrot, hz1, hz2, hup⟩ := faceAxes_some (e := (t.2.1 - t.1, t.2.2 - t.1)) hpos ht.2.2
  rw [hm] at hm'
  obtain rfl : m = m' := by simpa using hm'
  simp only at hz1 hz2 hup
  generalize t.2.1 - t.1 = u at *
  generalize t.2.2 - t.1 = v at *
  have hback : ∀ w : V3 ℝ, m.mulVec (m.transpose.mulVec w) = w := by
    intro w; rw [← M3.mul_mulVec, hrot.mul_transpose, M3.one_mulVec]
  have hfr : (T * (⟨m, pos⟩ : Tf ℝ)).Rigid := Tf.Rigid.mul hT hrot
  have hpt : ∀ w : V3 ℝ, (⟨m, pos⟩ : Tf ℝ).point (m.transpose.mulVec w) = pos + w := by
    intro w
    unfold Tf.point
    rw [hback]
    apply V3.ext <;> simp <;> ring
  have hc3 : (T * (⟨m, pos⟩ : Tf ℝ)).rot.c3 = T.rot.mulVec m.c3 := rfl
  have hd : ∀ w : V3 ℝ, T.point (pos + w) - T.point pos = T.rot.mulVec w := by
    intro w
    rw [Tf.Rigid.point_sub]
    congr 1
    apply V3.ext <;> simp
  have hz : ∀ w : V3 ℝ, V3.dot m.c3 w = (m.transpose.mulVec w).z := by
    intro w; unfold V3.dot; simp [M3.transpose]
  have hset : ∀ p, Placed (T * (⟨m, pos⟩ : Tf ℝ)) (triangle (m.transpose.mulVec u) (m.transpose.mulVec v)) p ↔
      triangleOf (T.point pos) (T.point (pos + u)) (T.point (pos + v)) p := by
    intro p
    have hcomb : ∀ s r : ℝ, (T * (⟨m, pos⟩ : Tf ℝ)).point (s • m.transpose.mulVec u + r • m.transpose.mulVec v) =
        T.point (pos + (s • u + r • v)) := by
      intro s r
      rw [Tf.mul_point, ← M3.mulVec_smul, ← M3.mulVec_smul, ← M3.mulVec_add, hpt]
    have haff : ∀ q s r : ℝ, q + s + r = 1 → T.point (pos + (s • u + r • v)) =
        q • T.point pos + (s • T.point (pos + u) + r • T.point (pos + v)) := by
      intro q s r h
      obtain rfl : q = 1 - s - r := by linarith
      unfold Tf.point
      apply V3.ext <;> simp <;> ring
    constructor
    · rintro ⟨q, ⟨s, r, hs, hr, hsr, rfl⟩, rfl⟩
      refine ⟨1 - s - r, s, r, by linarith, hs, hr, by ring, ?_⟩
      rw [hcomb]; exact haff _ _ _ (by ring)
    · rintro ⟨q, s, r, hq, hs, hr, h1, rfl⟩
      refine ⟨_, ⟨s, r, hs, hr, by linarith, rfl⟩, ?_⟩
      rw [hcomb]; exact (haff _ _ _ h1).symm
  refine ⟨hfr, ⟨?_, ?_⟩, ?_, ?_⟩
  · show V3.dot (T.rot.mulVec m.c3) _ = 0
    rw [hd, M3.IsRotation.dot hT, hz, hz1]
  · show V3.dot (T.rot.mulVec m.c3) _ = 0
    rw [hd, M3.IsRotation.dot hT, hz, hz2]
  · show 0 < V3.dot (T.rot.mulVec m.c3) _
    rw [hd, hd, ← M3.IsRotation.cross hT, M3.IsRotation.dot hT]
    exact hup
  · intro rays i r hr
    have hne : V3.cross (m.transpose.mulVec u) (m.transpose.mulVec v) ≠ 0 := by
      rw [← M3.IsRotation.cross hrot.transpose]
      intro h0
      have : V3.cross u v = 0 := by rw [← hback (V3.cross u v), h0, M3.mulVec_zero]
      rw [this] at hup
      simp [V3.dot] at hup
    obtain ⟨p, h1, h2, h3⟩ := C33_triangle hfr hz1 hz2 hne rays i r hr
    exact ⟨p, h1, fun h => (h2 h).congr hset, h3⟩

/-- The numbers of the faces are in range. -/
theorem vertexAt_nat (vs : List (V3 ℝ)) (i : Nat) : vertexAt vs i = match vs[i]? with
    | none => .error .index
    | some v => .ok v := by
  unfold vertexAt
  have : ¬ ((i : Int) < 0) := by omega
  have h2 : ¬ ((i : Int) + vs.length < 0) := by omega
  simp only [if_neg this, Int.toNat_natCast, if_neg h2]
  cases vs[i]? <;> rfl

theorem corners_ok {vs : List (V3 ℝ)} {idx : List (Nat × Nat × Nat)} {tris : List (V3 ℝ × V3 ℝ × V3 ℝ)}
    (h : List.Forall₂ (HasCorners vs) idx tris) :
    faceCorners vs (idx.map fun (f : Nat × Nat × Nat) => ((f.1 : Int), (f.2.1 : Int), (f.2.2 : Int))) = .ok tris := by
  induction h with
  | nil => rfl
  | cons h _ ih =>
    rw [List.map_cons, faceCorners]
    simp only [vertexAt_nat, h.1, h.2.1, h.2.2, ih]

open Classical in
/-- C60: there is one surface for each proper face, in their order, with the given optics.  Surface number `k` is
the triangle of the `k`-th proper face, moved in parallel so that its first vertex is that of the `k`-th face
overall. -/
theorem C60_surfaces (vertices : List (V3 ℝ)) (optics : Optics σ ℝ E) {transform : Tf ℝ} (hT : transform.Rigid)
    {idx : List (Nat × Nat × Nat)} {tris : List (V3 ℝ × V3 ℝ × V3 ℝ)}
    (hidx : List.Forall₂ (HasCorners vertices) idx tris) :
    ∃ o, triangulatedSurface vertices
        (idx.map fun (f : Nat × Nat × Nat) => ((f.1 : Int), (f.2.1 : Int), (f.2.2 : Int))) optics transform = .ok o ∧
      o.surfs.length = (tris.filter fun t => decide (ProperFace t)).length ∧
      ∀ (k : Nat) s f first, o.surfs[k]? = some s → (tris.filter fun t => decide (ProperFace t))[k]? = some f →
        tris[k]? = some first →
        s.data.2 = optics ∧
        s.IsTriangle (transform.point first.1) (transform.point (first.1 + (f.2.1 - f.1)))
          (transform.point (first.1 + (f.2.2 - f.1))) := by
  have hk := kept_forall₂ tris
  have hlen : (keptFaces (tris.map fun c => (c.2.1 - c.1, c.2.2 - c.1))).length ≤ tris.length := by
    rw [hk.length_eq]; exact List.length_filter_le _ _
  unfold triangulatedSurface
  rw [corners_ok hidx]
  refine ⟨_, rfl, ?_, ?_⟩
  · unfold ObjNode.new ObjNode.transformChildren
    simp only [List.length_map, List.length_zipWith]
    rw [← hk.length_eq]
    exact Nat.min_eq_right hlen
  · intro k s f first hs hf hfirst
    unfold ObjNode.new ObjNode.transformChildren at hs
    simp only [List.getElem?_map, List.getElem?_zipWith, Option.map_eq_some_iff] at hs
    obtain ⟨s0, hs0, rfl⟩ := hs
    rw [hfirst] at hs0
    obtain ⟨g, hg⟩ : ∃ g, (keptFaces (tris.map fun c => (c.2.1 - c.1, c.2.2 - c.1)))[k]? = some g := by
      have : k < (keptFaces (tris.map fun c => (c.2.1 - c.1, c.2.2 - c.1))).length := by
        rw [hk.length_eq]
        exact (List.getElem?_eq_some_iff.1 hf).1
      exact ⟨_, List.getElem?_eq_getElem this⟩
    rw [hg] at hs0
    simp only [Option.map_some, Option.some.injEq] at hs0
    subst hs0
    obtain ⟨hb1, hb2⟩ := List.getElem?_eq_some_iff.1 hg
    obtain ⟨hc1, hc2⟩ := List.getElem?_eq_some_iff.1 hf
    obtain ⟨m, rfl, hm, hp⟩ : ∃ m, g = (m, (f.2.1 - f.1, f.2.2 - f.1)) ∧ faceAxes g.2 = some m ∧ ProperFace f := by
      have := (List.forall₂_iff_get.1 hk).2 k hb1 hc1
      rw [List.get_eq_getElem, List.get_eq_getElem, hb2, hc2] at this
      exact this
    refine ⟨rfl, ?_⟩
    have := faceSurface_isTriangle optics hT first.1 hp hm
    rw [Tf.one_mul']
    exact this

/-- C60, when no face is degenerate: the surfaces are the triangles of the faces, in their order, where the object
was put, with the given optics.  What is missing: with a degenerate face, the surfaces of the faces after it are
in wrong places (`C60_counterexample`), which are those given by `C60_surfaces`. -/
theorem C60_partial (vertices : List (V3 ℝ)) (optics : Optics σ ℝ E) {transform : Tf ℝ} (hT : transform.Rigid)
    {idx : List (Nat × Nat × Nat)} {tris : List (V3 ℝ × V3 ℝ × V3 ℝ)}
    (hidx : List.Forall₂ (HasCorners vertices) idx tris) (hproper : ∀ t ∈ tris, ProperFace t) :
    ∃ o, triangulatedSurface vertices
        (idx.map fun (f : Nat × Nat × Nat) => ((f.1 : Int), (f.2.1 : Int), (f.2.2 : Int))) optics transform = .ok o ∧
      List.Forall₂ (fun (s : SceneSurf σ ℝ E) t => s.data.2 = optics ∧
        s.IsTriangle (transform.point t.1) (transform.point t.2.1) (transform.point t.2.2)) o.surfs tris := by
  classical
  obtain ⟨o, ho, hl, h⟩ := C60_surfaces vertices optics hT hidx
  have hfil : tris.filter (fun t => decide (ProperFace t)) = tris :=
    List.filter_eq_self.2 fun t ht => by simpa using hproper t ht
  rw [hfil] at hl h
  refine ⟨o, ho, List.forall₂_iff_get.2 ⟨hl, fun k h1 h2 => ?_⟩⟩
  have := h k _ _ _ (List.getElem?_eq_getElem h1) (List.getElem?_eq_getElem h2) (List.getElem?_eq_getElem h2)
  have hadd : ∀ p q : V3 ℝ, p + (q - p) = q := by intro p q; apply V3.ext <;> simp
  rw [hadd, hadd] at this
  exact this

/-- C60, indices: a face that refers to a vertex that is not there raises `IndexError`, and nothing else does. -/
theorem C60_index (vertices : List (V3 ℝ)) (faces : List (Int × Int × Int)) (optics : Optics σ ℝ E) (transform : Tf ℝ) :
    ((∃ o, triangulatedSurface vertices faces optics transform = .ok o) ↔
      ∀ f ∈ faces, ∀ i ∈ [f.1, f.2.1, f.2.2], -(vertices.length : Int) ≤ i ∧ i < vertices.length) ∧
    ∀ e, triangulatedSurface vertices faces optics transform = .error e → e = .index := by
  have hv : ∀ i : Int, (∃ v, vertexAt vertices i = .ok v) ↔ -(vertices.length : Int) ≤ i ∧ i < vertices.length := by
    intro i
    unfold vertexAt
    constructor
    · rintro ⟨v, hv⟩
      split at hv
      · cases hv
      · rename_i w hw
        have := (List.getElem?_eq_some_iff.1 hw).1
        split at hv
        · cases hv
        · split at this <;> omega
    · rintro ⟨h1, h2⟩
      have hlt : (if i < 0 then i + vertices.length else i).toNat < vertices.length := by split <;> omega
      rw [List.getElem?_eq_getElem hlt]
      simp only
      rw [if_neg (by omega)]
      exact ⟨_, rfl⟩
  have hc : ∀ fs : List (Int × Int × Int), ((∃ l, faceCorners vertices fs = .ok l) ↔
      ∀ f ∈ fs, ∀ i ∈ [f.1, f.2.1, f.2.2], -(vertices.length : Int) ≤ i ∧ i < vertices.length) ∧
      ∀ e, faceCorners vertices fs = .error e → e = .index := by
    intro fs
    induction fs with
    | nil => simp [faceCorners]
    | cons f fs ih =>
      obtain ⟨i, j, k⟩ := f
      simp only [List.forall_mem_cons, List.not_mem_nil, false_imp_iff, implies_true, and_true] at ih ⊢
      rw [← hv i, ← hv j, ← hv k, ← ih.1]
      simp only [faceCorners]
      constructor
      · constructor
        · rintro ⟨l, hl⟩
          split at hl
          · rename_i h1 h2 h3 h4
            exact ⟨⟨⟨_, h1⟩, ⟨_, h2⟩, ⟨_, h3⟩⟩, _, h4⟩
          · cases hl
        · rintro ⟨⟨⟨_, h1⟩, ⟨_, h2⟩, ⟨_, h3⟩⟩, _, h4⟩
          simp only [h1, h2, h3, h4]
          exact ⟨_, rfl⟩
      · intro e he
        split at he
        · cases he
        · exact (by injection he with he; exact he.symm)
  unfold triangulatedSurface
  have := hc faces
  constructor
  · rw [← this.1]
    constructor
    · rintro ⟨o, ho⟩
      split at ho
      · cases ho
      · rename_i l hl; exact ⟨l, hl⟩
    · rintro ⟨l, hl⟩
      rw [hl]
      exact ⟨_, rfl⟩
  · intro e he
    split at he
    · rename_i e' h'
      injection he with he
      rw [← he]; exact this.2 _ h'
    · cases he

namespace Examples

/-- Six vertices, making two triangles in the XY plane. -/
def sixVertices : List (V3 ℝ) := [⟨0, 0, 0⟩, ⟨1, 0, 0⟩, ⟨0, 1, 0⟩, ⟨5, 0, 0⟩, ⟨6, 0, 0⟩, ⟨5, 1, 0⟩]

/-- The second triangle. -/
def farTriangle : V3 ℝ × V3 ℝ × V3 ℝ := (⟨5, 0, 0⟩, ⟨6, 0, 0⟩, ⟨5, 1, 0⟩)

theorem farTriangle_proper : ProperFace farTriangle := by
  unfold ProperFace farTriangle V3.dist2 V3.dot V3.cross
  refine ⟨by norm_num, by norm_num, ?_⟩
  intro h
  have := congrArg V3.z h
  norm_num at this

end Examples

open Classical in
/-- C60 fails when a degenerate face precedes: the surface of the second face of this list is not its triangle. -/
theorem C60_counterexample (optics : Optics σ ℝ Unit) :
    ¬ ∀ (vertices : List (V3 ℝ)) (idx : List (Nat × Nat × Nat)) (tris : List (V3 ℝ × V3 ℝ × V3 ℝ)),
      List.Forall₂ (HasCorners vertices) idx tris →
      ∃ o, triangulatedSurface vertices
          (idx.map fun (f : Nat × Nat × Nat) => ((f.1 : Int), (f.2.1 : Int), (f.2.2 : Int))) optics 1 = .ok o ∧
        List.Forall₂ (fun (s : SceneSurf σ ℝ Unit) t => s.IsTriangle t.1 t.2.1 t.2.2) o.surfs
          (tris.filter fun t => decide (ProperFace t)) := by
  intro hall
  have hidx : List.Forall₂ (HasCorners Examples.sixVertices) [(0, 0, 1), (3, 4, 5)]
      [(⟨0, 0, 0⟩, ⟨0, 0, 0⟩, ⟨1, 0, 0⟩), Examples.farTriangle] :=
    List.Forall₂.cons ⟨rfl, rfl, rfl⟩ (List.Forall₂.cons ⟨rfl, rfl, rfl⟩ List.Forall₂.nil)
  have hdeg : ¬ ProperFace (⟨0, 0, 0⟩, ⟨0, 0, 0⟩, ⟨1, 0, 0⟩) := by
    rintro ⟨h, -⟩
    unfold V3.dist2 V3.dot at h
    norm_num at h
  have hfil : ([(⟨0, 0, 0⟩, ⟨0, 0, 0⟩, ⟨1, 0, 0⟩), Examples.farTriangle] : List (V3 ℝ × V3 ℝ × V3 ℝ)).filter
      (fun t => decide (ProperFace t)) = [Examples.farTriangle] := by
    rw [List.filter_cons_of_neg (by simpa using hdeg),
      List.filter_cons_of_pos (by simpa using Examples.farTriangle_proper), List.filter_nil]
  obtain ⟨o, ho, hf⟩ := hall _ _ _ hidx
  obtain ⟨o', ho', hl, h⟩ := C60_surfaces Examples.sixVertices optics Tf.Rigid.one hidx
  rw [ho] at ho'
  obtain rfl : o = o' := by simpa using ho'
  rw [hfil] at hf hl h
  obtain ⟨s, hs⟩ : ∃ s, o.surfs = [s] := List.length_eq_one_iff.1 (by simpa using hl)
  rw [hs] at hf h
  have hgood : s.IsTriangle ⟨5, 0, 0⟩ ⟨6, 0, 0⟩ ⟨5, 1, 0⟩ := by
    cases hf with
    | cons h1 _ => exact h1
  have hbad := (h 0 s Examples.farTriangle _ rfl rfl rfl).2
  simp only [Tf.one_point, Examples.farTriangle] at hbad
  -- the axis of the surface is vertical
  have hu : V3.IsUnit s.temp.rot.c3 := ((M3.isRotation_iff _).1 hgood.rigid).1.2.2.1
  obtain ⟨ho1, ho2⟩ := hgood.orthogonal
  unfold V3.IsUnit V3.dot at hu
  unfold V3.dot at ho1 ho2
  simp only [V3.sub_x, V3.sub_y, V3.sub_z] at ho1 ho2
  have hx : s.temp.rot.c3.x = 0 := by linarith
  have hy : s.temp.rot.c3.y = 0 := by linarith
  rw [hx, hy] at hu
  have hz : s.temp.rot.c3.z = 1 ∨ s.temp.rot.c3.z = -1 :=
    mul_self_eq_one_iff.1 (by linarith)
  -- a vertical ray over the second face
  let r : Ray ℝ Unit := ⟨⟨21 / 4, 1 / 4, 1⟩, ⟨0, 0, -1⟩, 1, 0, none, ()⟩
  have hd : 1 / 10 ^ 10 < |V3.dot r.dir s.temp.rot.c3| := by
    have : V3.dot r.dir s.temp.rot.c3 = -s.temp.rot.c3.z := by unfold V3.dot; simp [r]
    rw [this, abs_neg]
    rcases hz with h1 | h1 <;> rw [h1] <;> norm_num
  obtain ⟨p, hp, h1, _⟩ := hgood.meets [r] 0 r rfl
  obtain ⟨q, hq, h2, _⟩ := hbad.meets [r] 0 r rfl
  rw [hp] at hq
  obtain rfl : p = q := by simpa using hq
  have h1 := h1 hd
  have h2 := h2 hd
  cases p with
  | top =>
    refine h1 1 zero_le_one ⟨1 / 2, 1 / 4, 1 / 4, by norm_num, by norm_num, by norm_num, by norm_num, ?_⟩
    apply V3.ext <;> simp [r] <;> norm_num
  | coe t =>
    obtain ⟨-, ⟨a, b, c, ha, hb, hc, habc, hpt⟩, -⟩ := h2
    have hxx := congrArg V3.x hpt
    simp [r] at hxx
    linarith

/-! ## The hypotheses are met -/

example (optics : Optics σ ℝ E) : ∃ o, triangulatedSurface Examples.sixVertices [(0, 1, 2), (3, 4, 5)] optics
      (1 : Tf ℝ) = .ok o ∧ o.surfs.length = 2 ∧
      ∃ s, o.surfs[1]? = some s ∧ s.IsTriangle ⟨5, 0, 0⟩ ⟨6, 0, 0⟩ ⟨5, 1, 0⟩ := by
  have hidx : List.Forall₂ (HasCorners Examples.sixVertices) [(0, 1, 2), (3, 4, 5)]
      [(⟨0, 0, 0⟩, ⟨1, 0, 0⟩, ⟨0, 1, 0⟩), Examples.farTriangle] :=
    List.Forall₂.cons ⟨rfl, rfl, rfl⟩ (List.Forall₂.cons ⟨rfl, rfl, rfl⟩ List.Forall₂.nil)
  have hp : ProperFace (⟨0, 0, 0⟩, ⟨1, 0, 0⟩, ⟨0, 1, 0⟩) := by
    unfold ProperFace V3.dist2 V3.dot V3.cross
    refine ⟨by norm_num, by norm_num, ?_⟩
    intro h
    have := congrArg V3.z h
    norm_num at this
  obtain ⟨o, ho, h⟩ := C60_partial Examples.sixVertices optics Tf.Rigid.one hidx (by
    intro t ht
    rcases List.mem_cons.1 ht with rfl | ht
    · exact hp
    · rw [List.mem_singleton.1 ht]; exact Examples.farTriangle_proper)
  refine ⟨o, ho, h.length_eq, ?_⟩
  cases hs : o.surfs with
  | nil => rw [hs] at h; cases h
  | cons s1 l =>
    rw [hs] at h
    cases h with
    | cons _ h =>
      cases h with
      | cons h2 h3 =>
        refine ⟨_, rfl, ?_⟩
        have := h2.2
        simp only [Tf.one_point, Examples.farTriangle] at this
        exact this

end Tracer
