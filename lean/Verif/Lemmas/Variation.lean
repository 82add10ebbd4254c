import Verif.Spec.Variation
import Verif.Lemmas.Exact
import Verif.Lemmas.Contracts
import Verif.Props.Flat

/-! Flat mirrors answer zero about the rays that start on them. -/

set_option linter.unusedSectionVars false

namespace Tracer

variable {K E σ : Type _} [Field K] [LinearOrder K] [IsStrictOrderedRing K]

theorem flatParam_again {frame : Tf K} {v d d' : V3 K} {t : K} (h : flatParam frame v d = (t : WithTop K))
    (hd : V3.dot d' frame.rot.c3 = -V3.dot d frame.rot.c3) : flatParam frame (v + t • d) d' = ((0 : K) : WithTop K) := by
  unfold flatParam at h ⊢
  simp only at h ⊢
  rw [hd, abs_neg]
  by_cases hp : parallelTol < |V3.dot d frame.rot.c3|
  · rw [if_pos hp] at h ⊢
    have h0 : V3.dot d frame.rot.c3 ≠ 0 := by
      intro e
      rw [e, abs_zero] at hp
      exact absurd hp (not_lt.2 parallelTol_nonneg)
    split at h
    · exact absurd h (by simp)
    · have ht : -(V3.dot frame.rot.c3 (v - frame.loc)) / V3.dot d frame.rot.c3 = t := WithTop.coe_injective h
      have hz : V3.dot frame.rot.c3 (v + t • d - frame.loc) = 0 := by
        have e : V3.dot frame.rot.c3 (v + t • d - frame.loc) =
            V3.dot frame.rot.c3 (v - frame.loc) + t * V3.dot d frame.rot.c3 := by
          simp [V3.dot]
          ring
        rw [e, ← ht]
        field_simp
        ring
      rw [hz]
      simp
  · rw [if_neg hp] at h
    exact absurd h (by simp)

theorem finiteParam_again {out : Tf K → V3 K → Bool} {frame : Tf K} {v d d' : V3 K} {t : K}
    (h : finiteParam out frame v d = (t : WithTop K))
    (hd : V3.dot d' frame.rot.c3 = -V3.dot d frame.rot.c3) : finiteParam out frame (v + t • d) d' = ((0 : K) : WithTop K) := by
  unfold finiteParam at h
  split at h
  · exact absurd h (by simp)
  · rename_i t1 h1
    split at h
    · exact absurd h (by simp)
    · rename_i ho
      have : t1 = t := WithTop.coe_injective h
      subst this
      unfold finiteParam
      rw [flatParam_again h1 hd]
      change (if out frame (v + t1 • d + (0 : K) • d') = true then _ else _) = _
      have : v + t1 • d + (0 : K) • d' = v + t1 • d := by
        ext <;> simp
      rw [this, if_neg ho]

/-- What is used of the flat geometry managers. -/
theorem FlatGeometry.spec {g : Geometry K E} (h : FlatGeometry g) :
    g.normal = flatNormal ∧ ∃ f, g.PerRay f ∧ ∀ (frame : Tf K) (v d d' : V3 K) (t : K), f frame v d = (t : WithTop K) →
      V3.dot d' frame.rot.c3 = -V3.dot d frame.rot.c3 → f frame (v + t • d) d' = ((0 : K) : WithTop K) := by
  have hfin : ∀ out : Tf K → V3 K → Bool, (finiteFlatGM out : Geometry K E).normal = flatNormal ∧
      ∃ f, (finiteFlatGM out : Geometry K E).PerRay f ∧ ∀ (frame : Tf K) (v d d' : V3 K) (t : K), f frame v d = (t : WithTop K) →
      V3.dot d' frame.rot.c3 = -V3.dot d frame.rot.c3 → f frame (v + t • d) d' = ((0 : K) : WithTop K) :=
    fun out => ⟨rfl, _, finiteFlatGM_perRay _, fun _ _ _ _ _ h hd => finiteParam_again h hd⟩
  cases h with
  | flat => exact ⟨rfl, _, flatGM_perRay, fun _ _ _ _ _ h hd => flatParam_again h hd⟩
  | rect width height _ hg =>
    unfold rectPlateGM at hg
    split at hg
    · simp at hg
    · split at hg
      · simp at hg
      · cases hg
        exact hfin _
  | round R _ hg =>
    unfold roundPlateGM at hg
    split at hg
    · simp at hg
    · cases hg
      exact hfin _
  | triangle a b => exact hfin _

/-- What is used of the mirrors. -/
theorem MirrorOptics.spec {opt : Optics σ K E} (h : MirrorOptics opt) :
    Optics.AtHit opt ∧ Optics.NoFail opt ∧ ∃ f, Optics.PerHit opt f ∧ ∀ up (q : HitRec K E), ∀ r ∈ f up q,
      r.vertex = q.point ∧ r.dir = reflection q.ray.dir q.normal := by
  induction h with
  | mirror a =>
    refine ⟨reflective_atHit _, reflective_noFail _, _, reflective_perHit _, ?_⟩
    intro up q r hr
    rw [List.mem_singleton] at hr
    subst hr
    exact ⟨rfl, rfl⟩
  | oneSided a =>
    refine ⟨absorberReflector_atHit _, absorberReflector_noFail _, _, absorberReflector_perHit _, ?_⟩
    intro up q r hr
    rw [List.mem_singleton] at hr
    subst hr
    simp only
    split <;> exact ⟨rfl, rfl⟩
  | receiver a get set opt _ ih =>
    obtain ⟨h1, h2, f, h3, h4⟩ := ih
    exact ⟨accountant_atHit h1, accountant_noFail h2, f, accountant_perHit h3, h4⟩

theorem reflection_flat {frame : Tf K} (hu : V3.dot frame.rot.c3 frame.rot.c3 = 1) (hit d : V3 K) :
    V3.dot (reflection d (flatNormal frame hit d)) frame.rot.c3 = -V3.dot d frame.rot.c3 := by
  have key : ∀ n : V3 K, V3.dot n n = 1 → V3.dot (d - (2 : K) • (V3.dot d n • n)) n = -V3.dot d n := by
    intro n hn
    have : V3.dot (d - (2 : K) • (V3.dot d n • n)) n = V3.dot d n - 2 * (V3.dot d n * V3.dot n n) := by
      simp [V3.dot]
      ring
    rw [this, hn]
    ring
  unfold reflection flatNormal
  split
  · have e : V3.dot d (-frame.rot.c3) • (-frame.rot.c3) = V3.dot d frame.rot.c3 • frame.rot.c3 := by
      ext <;> simp [V3.dot] <;> ring
    rw [e]
    exact key _ hu
  · exact key _ hu

/-- What is used of flat mirrors. -/
theorem FlatMirror.spec {s : Surf σ K E} (h : FlatMirror s) (w : σ) :
    s.PerRay s.single ∧ s.ParentsOk ∧ s.PerHit (s.alone w) ∧
    (∀ p : Ray K E, s.single p.strip = s.single p ∧ ((s.alone w p.strip).map Ray.strip).Perm ((s.alone w p).map Ray.strip)) ∧
    ∀ p, ∀ q ∈ s.alone w p, s.single q = ((0 : K) : WithTop K) := by
  obtain ⟨g, opt, frame, rfl, hg, ho, hu⟩ := h
  obtain ⟨hn, f, hf, hagain⟩ := hg.spec
  obtain ⟨hat, hnf, f2, hph, hmir⟩ := ho.spec
  have hsingle : ∀ r : Ray K E, (mkSurf g opt frame).single r = f frame r.vertex r.dir := by
    intro r
    unfold Surf.single
    rw [mkSurf_perRay hf opt frame]
    rfl
  refine ⟨(mkSurf_perRay hf opt frame).single, mkSurf_parentsOk g hat frame, mkSurf_perHit_alone hf hph hnf frame w, ?_, ?_⟩
  · intro p
    refine ⟨?_, mkSurf_alone_blind hf hph hnf frame w p⟩
    rw [hsingle, hsingle]
    rfl
  · intro p q hq
    have hq' := (alone_perm hf hph hnf frame w p).subset hq
    obtain ⟨r, hr, rfl⟩ := List.mem_map.1 hq'
    rw [hsingle]
    change f frame r.vertex r.dir = _
    unfold outOf at hr
    split at hr
    · rename_i t ht
      obtain ⟨e1, e2⟩ := hmir _ _ r hr
      rw [e1, e2, hn]
      exact hagain frame p.vertex p.dir _ t ht (reflection_flat hu (p.at t) _)
    · simp at hr

end Tracer
