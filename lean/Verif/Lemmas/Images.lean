import Verif.Spec.Images
import Verif.Spec.Going
import Verif.Lemmas.Variation
import Mathlib.LinearAlgebra.Matrix.NonsingularInverse

/-! Where the rays of a trace through flat mirrors come from. -/

set_option linter.unusedSectionVars false

namespace Tracer

variable {K E σ : Type _} [Field K] [LinearOrder K] [IsStrictOrderedRing K]

theorem mem_sites_surf {objs : List (Obj σ K E)} {x : Site σ K E} (h : x ∈ sites objs) : ∃ o ∈ objs, x.surf ∈ o.surfs := by
  unfold sites at h
  obtain ⟨⟨o, i⟩, ho, h⟩ := List.mem_flatMap.1 h
  obtain ⟨⟨s, j⟩, hs, rfl⟩ := List.mem_map.1 h
  refine ⟨o, ?_, ?_⟩
  · exact (List.mem_zipIdx' ho).2 ▸ List.getElem_mem _
  · exact (List.mem_zipIdx' hs).2 ▸ List.getElem_mem _

theorem goingCut_pos (per : Surf σ K E → Ray K E → WithTop K) (pol : Nat → Policy K E) (xs : List (Site σ K E)) (gs : List (Going K E)) :
    0 < goingCut per pol xs gs := by
  unfold goingCut
  split
  · unfold dropTol; positivity
  · unfold selfTol; positivity

/-- What holds of the source, and passes from a ray to what the surfaces it meets make of it, holds of all rays of a trace. -/
theorem going_induction {objs : List (Obj σ K E)} {w : σ} {pol : Nat → Policy K E} {minE : K} {b : Bundle K E}
    {Q : Nat → Ray K E → Prop} (h0 : ∀ p ∈ b, Q 0 p)
    (hstep : ∀ k r, Q k r → ∀ o ∈ objs, ∀ s ∈ o.surfs, ∀ t : K, s.single r = (t : WithTop K) → 0 < t → ∀ q ∈ s.alone w r, Q (k + 1) q)
    (k : Nat) : ∀ g ∈ goingGeneration Surf.single (Surf.alone w) pol (sites objs) minE b k, Q k g.ray := by
  classical
  induction k with
  | zero =>
    intro g hg
    obtain ⟨p, hp, rfl⟩ := List.mem_map.1 hg
    exact h0 p hp
  | succ k ih =>
    intro g hg
    obtain ⟨g0, hg0, hg⟩ := List.mem_flatMap.1 hg
    have hg0' : g0 ∈ goingGeneration Surf.single (Surf.alone w) pol (sites objs) minE b k := by
      unfold setOut at hg0
      split at hg0
      · exact hg0
      · exact (List.mem_filter.1 hg0).1
    unfold Going.children at hg
    obtain ⟨x, hx, hg⟩ := List.mem_flatMap.1 hg
    split at hg
    · rename_i hm
      obtain ⟨-, t, ht, hc, -⟩ := hm
      obtain ⟨q, hq, rfl⟩ := List.mem_map.1 hg
      obtain ⟨o, ho, hs⟩ := mem_sites_surf hx
      exact hstep k _ (ih _ hg0') o ho _ hs t ht (lt_trans (goingCut_pos _ _ _ _) hc) q hq
    · cases hg

/-! ### Planes -/

theorem flatParam_plane {F : Tf K} {v d : V3 K} {t : K} (h : flatParam F v d = (t : WithTop K)) :
    V3.dot d F.rot.c3 ≠ 0 ∧ V3.dot (v + t • d - F.loc) F.rot.c3 = 0 := by
  unfold flatParam at h
  simp only at h
  by_cases hp : parallelTol < |V3.dot d F.rot.c3|
  · rw [if_pos hp] at h
    have h0 : V3.dot d F.rot.c3 ≠ 0 := by
      intro e
      rw [e, abs_zero] at hp
      exact absurd hp (not_lt.2 parallelTol_nonneg)
    split at h
    · exact absurd h (by simp)
    · have ht : -(V3.dot F.rot.c3 (v - F.loc)) / V3.dot d F.rot.c3 = t := WithTop.coe_injective h
      refine ⟨h0, ?_⟩
      have e : V3.dot (v + t • d - F.loc) F.rot.c3 = V3.dot F.rot.c3 (v - F.loc) + t * V3.dot d F.rot.c3 := by
        simp [V3.dot]
        ring
      rw [e, ← ht]
      field_simp
      ring
  · rw [if_neg hp] at h
    exact absurd h (by simp)

theorem finiteParam_plane {out : Tf K → V3 K → Bool} {F : Tf K} {v d : V3 K} {t : K} (h : finiteParam out F v d = (t : WithTop K)) :
    V3.dot d F.rot.c3 ≠ 0 ∧ V3.dot (v + t • d - F.loc) F.rot.c3 = 0 := by
  unfold finiteParam at h
  split at h
  · exact absurd h (by simp)
  · rename_i t1 h1
    split at h
    · exact absurd h (by simp)
    · obtain rfl : t1 = t := WithTop.coe_injective h
      exact flatParam_plane h1

theorem FlatGeometry.plane {g : Geometry K E} (h : FlatGeometry g) {f} (hf : g.PerRay f) {F : Tf K} {v d : V3 K} {t : K} (r : Ray K E)
    (hv : r.vertex = v) (hd : r.dir = d) (ht : f F v d = (t : WithTop K)) :
    V3.dot d F.rot.c3 ≠ 0 ∧ V3.dot (v + t • d - F.loc) F.rot.c3 = 0 := by
  have hfind : g.find F [r] = [(t : WithTop K)] := by
    rw [hf]
    simp only [List.map_cons, List.map_nil, hv, hd, ht]
  subst hv hd
  have hfin : ∀ out : Tf K → V3 K → Bool, (finiteFlatGM out : Geometry K E).find F [r] = [(t : WithTop K)] →
      V3.dot r.dir F.rot.c3 ≠ 0 ∧ V3.dot (r.vertex + t • r.dir - F.loc) F.rot.c3 = 0 := by
    intro out h
    exact finiteParam_plane (List.cons.inj h).1
  cases h with
  | flat => exact flatParam_plane (List.cons.inj hfind).1
  | rect width height _ hg =>
    unfold rectPlateGM at hg
    split at hg
    · simp at hg
    · split at hg
      · simp at hg
      · cases hg
        exact hfin _ hfind
  | round R _ hg =>
    unfold roundPlateGM at hg
    split at hg
    · simp at hg
    · cases hg
      exact hfin _ hfind
  | triangle a b => exact hfin _ hfind

theorem reflection_turned (F : Tf K) (hit d : V3 K) : reflection d (flatNormal F hit d) = turnedBy F.rot.c3 d := by
  unfold reflection flatNormal turnedBy
  split <;> apply V3.ext <;> simp [V3.dot] <;> ring

/-- What a flat mirror makes of a ray. -/
theorem mirror_child {g : Geometry K E} {opt : Optics σ K E} {F : Tf K} (hg : FlatGeometry g) (ho : MirrorOptics opt) {w : σ}
    {r q : Ray K E} {t : K} (ht : (mkSurf g opt F).single r = (t : WithTop K)) (hq : q ∈ (mkSurf g opt F).alone w r) :
    q.vertex = r.at t ∧ q.dir = turnedBy F.rot.c3 r.dir ∧ V3.dot r.dir F.rot.c3 ≠ 0 ∧ V3.dot (r.at t - F.loc) F.rot.c3 = 0 := by
  obtain ⟨hn, f, hf, -⟩ := hg.spec
  obtain ⟨-, hnf, f2, hph, hmir⟩ := ho.spec
  have hsingle : (mkSurf g opt F).single r = f F r.vertex r.dir := by
    unfold Surf.single
    rw [mkSurf_perRay hf opt F]
    rfl
  rw [hsingle] at ht
  have hq' := (alone_perm hf hph hnf F w r).subset hq
  obtain ⟨r1, hr, rfl⟩ := List.mem_map.1 hq'
  unfold outOf at hr
  split at hr
  · rename_i t1 ht1
    obtain rfl : t1 = t := WithTop.coe_injective (ht1.symm.trans ht)
    obtain ⟨e1, e2⟩ := hmir _ _ r1 hr
    rw [hn] at e2
    exact ⟨e1, e2.trans (reflection_turned F (r.at t1) _), hg.plane hf r rfl rfl ht⟩
  · simp at hr

theorem turnedBy_unit {m d : V3 K} (hm : V3.dot m m = 1) : V3.dot (turnedBy m d) m = -V3.dot d m := by
  have : V3.dot (turnedBy m d) m = V3.dot d m - 2 * V3.dot d m * V3.dot m m := by
    unfold turnedBy
    simp [V3.dot]
    ring
  rw [this, hm]
  ring

/-- A point on the way of a ray is imaged on the way of the image. -/
theorem imageIn_along (c m x d : V3 K) (L : K) : imageIn c m (x + L • d) = imageIn c m x + L • turnedBy m d := by
  unfold imageIn turnedBy
  apply V3.ext <;> simp [V3.dot] <;> ring

theorem imageIn_self {c m x : V3 K} (h : V3.dot (x - c) m = 0) : imageIn c m x = x := by
  unfold imageIn
  rw [h]
  apply V3.ext <;> simp

theorem turnedBy_neg (m d : V3 K) : turnedBy (-m) d = turnedBy m d := by
  unfold turnedBy
  apply V3.ext <;> simp [V3.dot] <;> ring

/-- What a flat mirror in a given plane makes of a ray. -/
theorem FlatMirrorIn.child {P : Plane K} {s : Surf σ K E} (h : FlatMirrorIn P s) {w : σ} {r q : Ray K E} {t : K}
    (ht : s.single r = (t : WithTop K)) (hq : q ∈ s.alone w r) :
    q.vertex = r.at t ∧ q.dir = turnedBy P.normal r.dir ∧ V3.dot r.dir P.normal ≠ 0 ∧ V3.dot (r.at t - P.point) P.normal = 0 := by
  obtain ⟨g, opt, F, rfl, hg, ho, hn, hl⟩ := h
  obtain ⟨h1, h2, h3, h4⟩ := mirror_child hg ho ht hq
  have hsplit : V3.dot (r.at t - P.point) P.normal = V3.dot (r.at t - F.loc) P.normal + V3.dot (F.loc - P.point) P.normal := by
    simp [V3.dot]
    ring
  rw [hsplit, hl, add_zero]
  rcases hn with e | e
  · rw [e] at h2 h3 h4
    exact ⟨h1, h2, h3, h4⟩
  · rw [e] at h2 h3 h4
    have hneg : ∀ x : V3 K, V3.dot x (-P.normal) = -V3.dot x P.normal := by
      intro x
      simp [V3.dot]
      ring
    rw [hneg] at h3 h4
    exact ⟨h1, h2.trans (turnedBy_neg _ _), neg_ne_zero.1 h3, neg_eq_zero.1 h4⟩

/-- Three perpendicular directions tell all vectors apart. -/
theorem Perpendicular.ext {e1 e2 e3 : V3 K} (h : Perpendicular e1 e2 e3) {x y : V3 K} (h1 : V3.dot x e1 = V3.dot y e1)
    (h2 : V3.dot x e2 = V3.dot y e2) (h3 : V3.dot x e3 = V3.dot y e3) : x = y := by
  obtain ⟨h11, h22, h33, h12, h13, h23⟩ := h
  let A : Matrix (Fin 3) (Fin 3) K := !![e1.x, e1.y, e1.z; e2.x, e2.y, e2.z; e3.x, e3.y, e3.z]
  have hA : A * A.transpose = 1 := by
    simp only [V3.dot] at h11 h22 h33 h12 h13 h23
    ext i j
    fin_cases i <;> fin_cases j <;> simp [A, Matrix.mul_apply, Fin.sum_univ_three] <;> linarith
  have hB := mul_eq_one_comm.1 hA
  have hv : ∀ v : V3 K, V3.dot v e1 = 0 → V3.dot v e2 = 0 → V3.dot v e3 = 0 → v.x = 0 ∧ v.y = 0 ∧ v.z = 0 := by
    intro v k1 k2 k3
    have hAv : A.mulVec ![v.x, v.y, v.z] = 0 := by
      simp only [V3.dot] at k1 k2 k3
      ext i
      fin_cases i <;> simp [A, Matrix.mulVec, dotProduct, Fin.sum_univ_three] <;> linarith
    have h0 : ![v.x, v.y, v.z] = 0 := by
      have := congrArg A.transpose.mulVec hAv
      rwa [Matrix.mulVec_mulVec, hB, Matrix.one_mulVec, Matrix.mulVec_zero] at this
    exact ⟨congrFun h0 0, congrFun h0 1, congrFun h0 2⟩
  have hsub : ∀ e : V3 K, V3.dot x e = V3.dot y e → V3.dot (x - y) e = 0 := by
    intro e he
    have : V3.dot (x - y) e = V3.dot x e - V3.dot y e := by
      simp [V3.dot]
      ring
    rw [this, he, sub_self]
  obtain ⟨a, b, c⟩ := hv (x - y) (hsub _ h1) (hsub _ h2) (hsub _ h3)
  simp only [V3.sub_x, V3.sub_y, V3.sub_z] at a b c
  exact V3.ext (sub_eq_zero.1 a) (sub_eq_zero.1 b) (sub_eq_zero.1 c)

end Tracer
