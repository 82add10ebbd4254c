import Verif.Model.Refraction
import Verif.Lemmas.Quadric
import Verif.Lemmas.Contracts

/-! What `RefractiveHomogenous` and `LambertianReflector` return, hit by hit. -/

namespace Tracer

open Real

variable {E σ : Type _}

/-- The index a hit ray comes with (0 if it has none; only used for rays that have one). -/
noncomputable def idxIn (h : HitRec ℝ E) : ℝ := h.ray.ref.getD 0

/-- The index on the other side. -/
noncomputable def idxOut (a b : ℝ) (h : HitRec ℝ E) : ℝ := toggleRefIdx a b (idxIn h)

/-- Whether the hit ray refracts. -/
noncomputable def hitRefr (a b : ℝ) (h : HitRec ℝ E) : Bool := refractedOne (idxIn h) (idxOut a b h) h.ray.dir h.normal

/-- The reflected fraction. -/
noncomputable def hitR (a b : ℝ) (h : HitRec ℝ E) : ℝ :=
  if hitRefr a b h then fresnelOne h.ray.dir h.normal (idxIn h) (idxOut a b h) else 1

/-- The reflected and the refracted child of a hit. -/
noncomputable def hitReflected (a b : ℝ) (h : HitRec ℝ E) : Ray ℝ E := reflectedRay h (hitR a b h)

@[inherit_doc hitReflected]
noncomputable def hitRefracted (a b : ℝ) (h : HitRec ℝ E) : Ray ℝ E :=
  refractedRay h (hitR a b h) (idxOut a b h) (refractOne (idxIn h) (idxOut a b h) h.ray.dir h.normal)

theorem refIndices_ok {hits : List (HitRec ℝ E)} {ns : List ℝ} (h : refIndices hits = .ok ns) :
    (∀ q ∈ hits, q.ray.ref = some (idxIn q)) ∧ ns = hits.map idxIn := by
  induction hits generalizing ns with
  | nil => simp [refIndices] at h; subst h; simp
  | cons q hits ih =>
    unfold refIndices at h
    split at h
    · cases h
    · rename_i n hn
      split at h
      · cases h
      · rename_i ns' hns
        obtain ⟨h1, h2⟩ := ih hns
        simp only [Except.ok.injEq] at h
        subst h
        have hq : idxIn q = n := by simp [idxIn, hn]
        refine ⟨?_, by simp [hq, h2]⟩
        intro q' hq'
        rcases List.mem_cons.1 hq' with rfl | hq'
        · rw [hq, hn]
        · exact h1 q' hq'

theorem refIndices_exists {hits : List (HitRec ℝ E)} (h : ∀ q ∈ hits, q.ray.ref ≠ none) :
    refIndices hits = .ok (hits.map idxIn) := by
  have : ∃ ns, refIndices hits = .ok ns := by
    induction hits with
    | nil => exact ⟨[], rfl⟩
    | cons q hits ih =>
      obtain ⟨ns, hns⟩ := ih (fun q hq => h q (List.mem_cons_of_mem _ hq))
      obtain ⟨n, hn⟩ := Option.ne_none_iff_exists'.1 (h q (by simp))
      exact ⟨n :: ns, by simp [refIndices, hn, hns]⟩
  obtain ⟨ns, hns⟩ := this
  rw [hns, (refIndices_ok hns).2]

theorem zipWith_map_self {α β γ δ : Type _} (f : β → γ → δ) (g : α → β) (h : α → γ) (l : List α) :
    List.zipWith f (l.map g) (l.map h) = l.map fun a => f (g a) (h a) := by
  induction l with
  | nil => rfl
  | cons a l ih => simp [ih]

/-- One hit's arguments of `refractions`. -/
noncomputable def hitInc (a b : ℝ) (h : HitRec ℝ E) : Incidence := ⟨idxIn h, idxOut a b h, h.ray.dir, h.normal⟩

theorem map_congr_filter {α β : Type _} {p : α → Bool} {f g : α → β} {l : List α} (h : ∀ a, p a = true → f a = g a) :
    (l.filter p).map f = (l.filter p).map g :=
  List.map_congr_left fun a ha => h a (List.mem_filter.1 ha).2

/-- The callable, computed. -/
theorem refractive_eq (a b : ℝ) (w : σ) (up : V3 ℝ) (hits : List (HitRec ℝ E)) (hne : hits ≠ [])
    (href : ∀ q ∈ hits, q.ray.ref ≠ none) :
    refractiveHomogenous a b w up hits =
      if hits.any (hitRefr a b) then
        if hits.any fun h => hitRefr a b h && ! fresnelDefined h.ray.dir h.normal (idxIn h) (idxOut a b h) then
          .error .nonfinite
        else .ok (hits.map (hitReflected a b) ++ (hits.filter (hitRefr a b)).map (hitRefracted a b), w)
      else .ok (hits.map (hitReflected a b), w) := by
  unfold refractiveHomogenous
  rw [refIndices_exists href]
  have h0 : hits.isEmpty = false := by cases hits <;> simp_all
  have hinc : List.zipWith (fun (h : HitRec ℝ E) (n : ℝ × ℝ) => (⟨n.1, n.2, h.ray.dir, h.normal⟩ : Incidence))
      hits ((hits.map idxIn).zip ((hits.map idxIn).map (toggleRefIdx a b))) = hits.map (hitInc a b) := by
    have e1 : ((hits.map idxIn).zip ((hits.map idxIn).map (toggleRefIdx a b))) =
        hits.map fun h => (idxIn h, idxOut a b h) := by
      rw [List.map_map, List.zip, zipWith_map_self]; rfl
    rw [e1]
    conv_lhs => arg 2; rw [← List.map_id hits]
    rw [zipWith_map_self]; rfl
  have hmask : (refractions (hits.map (hitInc a b))).1 = hits.map (hitRefr a b) := by
    unfold refractions
    simp only [List.map_map]; rfl
  have hfil : Np.mask (hits.map (hitRefr a b)) (hits.map (hitInc a b)) = (hits.filter (hitRefr a b)).map (hitInc a b) := by
    rw [Np.mask_map, Np.mask_map_self]
  have hdirs : (refractions (hits.map (hitInc a b))).2 =
      (hits.filter (hitRefr a b)).map fun h => refractOne (idxIn h) (idxOut a b h) h.ray.dir h.normal := by
    have : (refractions (hits.map (hitInc a b))).2 =
      (Np.mask (refractions (hits.map (hitInc a b))).1 (hits.map (hitInc a b))).map
        fun i => refractOne i.n1 i.n2 i.dir i.normal := rfl
    rw [this, hmask, hfil, List.map_map]; rfl
  simp only [h0, Bool.false_eq_true, if_false, hinc, hmask, hdirs, hfil]
  have hany : (hits.map (hitRefr a b)).any id = hits.any (hitRefr a b) := by rw [List.any_map]; rfl
  rw [hany]
  by_cases hr : hits.any (hitRefr a b) = true
  · have hany2 : ((hits.filter (hitRefr a b)).map (hitInc a b)).any (fun i => ! fresnelDefined i.dir i.normal i.n1 i.n2) =
        hits.any fun h => hitRefr a b h && ! fresnelDefined h.ray.dir h.normal (idxIn h) (idxOut a b h) := by
      rw [List.any_map, List.any_filter]; rfl
    simp only [hr, Bool.not_true, Bool.false_eq_true, if_false, if_true, hany2]
    split
    · rfl
    · have hR : Np.scatter (hits.map (hitRefr a b))
          (((hits.filter (hitRefr a b)).map (hitInc a b)).map fun i => fresnelOne i.dir i.normal i.n1 i.n2)
          (List.replicate hits.length 1) = hits.map (hitR a b) := by
        have : List.replicate hits.length (1 : ℝ) = hits.map fun _ => 1 := by simp
        rw [this, List.map_map, scatter_map]; rfl
      rw [hR]
      have e1 : List.zipWith reflectedRay hits (hits.map (hitR a b)) = hits.map (hitReflected a b) := by
        conv_lhs => arg 2; rw [← List.map_id hits]
        rw [zipWith_map_self]; rfl
      have e2 : (Np.mask (hits.map (hitRefr a b)) hits).zip (Np.mask (hits.map (hitRefr a b)) (hits.map (hitR a b))) =
          (hits.filter (hitRefr a b)).map fun h => (h, hitR a b h) := by
        rw [Np.mask_map, Np.mask_map_self]
        conv_lhs => arg 1; rw [← List.map_id (List.filter _ _)]
        rw [List.zip, zipWith_map_self]; rfl
      have e3 : (Np.mask (hits.map (hitRefr a b)) ((hits.map idxIn).map (toggleRefIdx a b))).zip
          ((hits.filter (hitRefr a b)).map fun h => refractOne (idxIn h) (idxOut a b h) h.ray.dir h.normal) =
          (hits.filter (hitRefr a b)).map fun h =>
            (idxOut a b h, refractOne (idxIn h) (idxOut a b h) h.ray.dir h.normal) := by
        rw [List.map_map, Np.mask_map, Np.mask_map_self, List.zip, zipWith_map_self]; rfl
      rw [e1, e2, e3, zipWith_map_self]
      rfl
  · have hr' : hits.any (hitRefr a b) = false := by simpa using hr
    simp only [hr', Bool.not_false, if_true, Bool.false_eq_true, if_false]
    unfold perfectMirror reflective
    congr 2
    apply List.map_congr_left
    intro h hh
    have : hitRefr a b h = false := by
      have := List.any_eq_false.1 hr' h hh
      simpa using this
    unfold hitReflected reflectedRay reflectOne hitR
    simp [this]

/-- Everything there is to know about a call that returns. -/
theorem refractive_ok {a b : ℝ} {w w' : σ} {up : V3 ℝ} {hits : List (HitRec ℝ E)} {out : Bundle ℝ E}
    (h : refractiveHomogenous a b w up hits = .ok (out, w')) :
    hits ≠ [] ∧ (∀ q ∈ hits, q.ray.ref = some (idxIn q)) ∧ w' = w ∧
    (∀ q ∈ hits, hitRefr a b q = true → fresnelDefined q.ray.dir q.normal (idxIn q) (idxOut a b q) = true) ∧
    out = hits.map (hitReflected a b) ++ (hits.filter (hitRefr a b)).map (hitRefracted a b) := by
  have hne : hits ≠ [] := by
    rintro rfl; simp [refractiveHomogenous] at h
  have href : ∀ q ∈ hits, q.ray.ref = some (idxIn q) := by
    unfold refractiveHomogenous at h
    split at h
    · cases h
    · split at h
      · cases h
      · rename_i ns hns
        exact (refIndices_ok hns).1
  refine ⟨hne, href, ?_⟩
  rw [refractive_eq a b w up hits hne (fun q hq => by rw [href q hq]; simp)] at h
  split at h
  · split at h
    · cases h
    · rename_i h1 h2
      simp only [Except.ok.injEq, Prod.mk.injEq] at h
      refine ⟨h.2.symm, ?_, h.1.symm⟩
      simpa using h2
  · rename_i h1
    simp only [Except.ok.injEq, Prod.mk.injEq] at h
    have h1' := List.any_eq_false.1 (by simpa using h1 : hits.any (hitRefr a b) = false)
    refine ⟨h.2.symm, fun q hq hr => absurd hr (by simpa using h1' q hq), ?_⟩
    have : hits.filter (hitRefr a b) = [] := List.filter_eq_nil_iff.2 h1'
    rw [this, ← h.1]; simp

end Tracer
