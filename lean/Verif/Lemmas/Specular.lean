import Verif.Lemmas.Refractive
import Verif.Lemmas.Surface
import Verif.Lemmas.Variation
import Verif.Spec.Specular

/-! Mirrors and refracting surfaces answer hit rays one by one. -/

namespace Tracer

variable {E σ : Type _}

/-- `f` gives nothing where the callable, asked about one hit alone, raises. -/
def Optics.AloneOk {K : Type _} (opt : Optics σ K E) (f : V3 K → HitRec K E → Bundle K E) : Prop :=
  ∀ w up h e, opt w up [h] = .error e → f up h = []

theorem Optics.NoFail.aloneOk {K : Type _} {opt : Optics σ K E} (h : Optics.NoFail opt) (f : V3 K → HitRec K E → Bundle K E) :
    opt.AloneOk f := by
  intro w up q e he
  obtain ⟨out, w', ho⟩ := h w up [q] (by simp)
  rw [ho] at he
  cases he

section
variable {K : Type _} [Field K] [LinearOrder K] [IsStrictOrderedRing K] {g : Geometry K E} {p : Tf K → V3 K → V3 K → WithTop K} {opt : Optics σ K E}
  {f : V3 K → HitRec K E → Bundle K E}

theorem alone_perm' (hg : g.PerRay p) (ho : Optics.PerHit opt f) (hn : opt.AloneOk f) (frame : Tf K) (w : σ) (r : Ray K E) :
    ((mkSurf g opt frame).alone w r).Perm ((outOf g p f frame r).map fun q => { q with parent := 0 }) := by
  unfold Surf.alone
  split
  · rename_i raw w' h
    simpa using mkSurf_perHit hg ho frame _ _ _ _ _ h
  · rename_i e h
    unfold outOf
    split
    · rename_i t ht
      have hfind : g.find frame [r] = [((t : K) : WithTop K)] := by
        rw [hg]
        simp only [List.map_cons, List.map_nil, List.cons.injEq, and_true]
        exact ht
      have hrec : hitRecs g frame [r] [0] = .ok [⟨0, r, r.at t, g.normal frame (r.at t) r.dir⟩] := by
        unfold hitRecs
        rw [hfind]
        rfl
      have h' : opt w frame.rot.c3 [⟨0, r, r.at t, g.normal frame (r.at t) r.dir⟩] = .error e := by
        simpa [mkSurf, hrec] using h
      rw [hn _ _ _ _ h']
      exact List.Perm.refl _
    · exact List.Perm.refl _

theorem mkSurf_perHit_alone' (hg : g.PerRay p) (ho : Optics.PerHit opt f) (hn : opt.AloneOk f) (frame : Tf K) (w : σ) :
    (mkSurf g opt frame).PerHit ((mkSurf g opt frame).alone w) := by
  intro w1 rays sel raw w' h
  refine (mkSurf_perHit hg ho frame _ _ _ _ _ h).trans ?_
  refine List.Perm.flatMap_left _ ?_
  intro i _
  refine List.Perm.flatMap_left _ ?_
  intro r _
  have := ((alone_perm' hg ho hn frame w r).symm.map fun q => { q with parent := i })
  rw [List.map_map] at this
  exact this

theorem mkSurf_alone_blind' (hg : g.PerRay p) (ho : Optics.PerHit opt f) (hn : opt.AloneOk f) (frame : Tf K) (w : σ) (r : Ray K E) :
    (((mkSurf g opt frame).alone w r.strip).map Ray.strip).Perm (((mkSurf g opt frame).alone w r).map Ray.strip) := by
  have h : ∀ r, (((mkSurf g opt frame).alone w r).map Ray.strip).Perm ((outOf g p f frame r).map Ray.strip) := by
    intro r
    have := (alone_perm' hg ho hn frame w r).map Ray.strip
    rw [List.map_map] at this
    exact this
  refine (h _).trans ?_
  rw [outOf_blind ho]
  exact (h r).symm

end

theorem accountant_aloneOk {K : Type _} {a : K} [Field K] [LinearOrder K] {get : σ → Account K} {set : Account K → σ → σ} {opt : Optics σ K E}
    {f : V3 K → HitRec K E → Bundle K E} (h : opt.AloneOk f) : (accountant a get set opt).AloneOk f :=
  fun w up q e he => h _ up q e he

open Classical in
/-- The children of a hit on a refracting surface, none if the callable raises. -/
noncomputable def refractiveChildren (a b : ℝ) (_up : V3 ℝ) (h : HitRec ℝ E) : Bundle ℝ E :=
  if h.ray.ref = none ∨ (hitRefr a b h = true ∧ fresnelDefined h.ray.dir h.normal (idxIn h) (idxOut a b h) = false) then []
  else hitReflected a b h :: (if hitRefr a b h then [hitRefracted a b h] else [])

theorem perm_reflected_refracted {α β : Type _} (f g : α → β) (p : α → Bool) (l : List α) :
    (l.map f ++ (l.filter p).map g).Perm (l.flatMap fun a => f a :: (if p a then [g a] else [])) := by
  induction l with
  | nil => exact List.Perm.refl _
  | cons a l ih =>
    rw [List.flatMap_cons, List.map_cons, List.filter_cons]
    by_cases h : p a = true
    · simp only [h, if_true, List.map_cons, List.cons_append]
      refine List.Perm.cons _ ?_
      exact (List.perm_middle).trans (List.Perm.cons _ ih)
    · simp only [h]
      exact List.Perm.cons _ ih

theorem refractive_perHit (a b : ℝ) :
    Optics.PerHit (refractiveHomogenous a b : Optics σ ℝ E) (refractiveChildren a b) where
  perm := by
    intro w up hits out w' h
    obtain ⟨_, href, _, hdef, rfl⟩ := refractive_ok h
    refine (perm_reflected_refracted _ _ _ _).trans (List.Perm.of_eq ?_)
    refine List.flatMap_congr fun q hq => ?_
    unfold refractiveChildren
    refine (if_neg ?_).symm
    rintro (e | ⟨e1, e2⟩)
    · rw [href q hq] at e
      cases e
    · rw [hdef q hq e1] at e2
      cases e2
  idx := by
    intro up h i
    unfold refractiveChildren
    have e1 : hitRefr a b { h with idx := i } = hitRefr a b h := rfl
    have e2 : (idxIn { h with idx := i } : ℝ) = idxIn h := rfl
    have e3 : idxOut a b { h with idx := i } = idxOut a b h := rfl
    rw [e1, e2, e3]
    simp only
    split_ifs <;> rfl
  blind := by
    intro up h
    unfold refractiveChildren
    have e1 : hitRefr a b { h with ray := h.ray.strip } = hitRefr a b h := rfl
    have e2 : (idxIn { h with ray := h.ray.strip } : ℝ) = idxIn h := rfl
    have e3 : idxOut a b { h with ray := h.ray.strip } = idxOut a b h := rfl
    have e4 : h.ray.strip.ref = h.ray.ref := rfl
    have e5 : h.ray.strip.dir = h.ray.dir := rfl
    rw [e1, e2, e3]
    simp only [e4, e5]
    split_ifs <;> rfl

theorem refractive_aloneOk (a b : ℝ) : (refractiveHomogenous a b : Optics σ ℝ E).AloneOk (refractiveChildren a b) := by
  intro w up h e he
  unfold refractiveChildren
  by_cases hr : h.ray.ref = none
  · rw [if_pos (Or.inl hr)]
  · rw [refractive_eq a b w up [h] (by simp) (by simpa using hr)] at he
    simp only [List.any_cons, List.any_nil, Bool.or_false] at he
    split at he
    · rename_i h1
      split at he
      · rename_i h2
        rw [Bool.and_eq_true, Bool.not_eq_true'] at h2
        rw [if_pos (Or.inr ⟨h1, h2.2⟩)]
      · cases he
    · cases he

/-- What is used of mirrors and refracting surfaces. -/
theorem SpecularOptics.spec {n1 n2 : ℝ} {opt : Optics σ ℝ E} (h : SpecularOptics n1 n2 opt) :
    Optics.AtHit opt ∧ ∃ f, Optics.PerHit opt f ∧ opt.AloneOk f := by
  induction h with
  | mirror a => exact ⟨reflective_atHit _, _, reflective_perHit _, (reflective_noFail _).aloneOk _⟩
  | oneSided a => exact ⟨absorberReflector_atHit _, _, absorberReflector_perHit _, (absorberReflector_noFail _).aloneOk _⟩
  | refractive =>
    refine ⟨?_, _, refractive_perHit _ _, refractive_aloneOk _ _⟩
    intro w up hits out w' h r hr
    obtain ⟨_, _, _, _, rfl⟩ := refractive_ok h
    rcases List.mem_append.1 hr with hr | hr
    · obtain ⟨q, hq, rfl⟩ := List.mem_map.1 hr
      exact ⟨q, hq, rfl, rfl⟩
    · obtain ⟨q, hq, rfl⟩ := List.mem_map.1 hr
      exact ⟨q, (List.mem_filter.1 hq).1, rfl, rfl⟩
  | receiver a get set opt _ ih =>
    obtain ⟨h1, f, h2, h3⟩ := ih
    exact ⟨accountant_atHit h1, f, accountant_perHit h2, accountant_aloneOk h3⟩

end Tracer
