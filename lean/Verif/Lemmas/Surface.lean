import Verif.Spec.Surface
import Mathlib.Data.List.Perm.Basic

/-! Surfaces built from geometry managers and optics callables keep the engine's contracts. -/

set_option linter.unusedSectionVars false

namespace Tracer

variable {K E σ : Type _} [Field K] [LinearOrder K] [IsStrictOrderedRing K]

theorem hitRecs_ok {g : Geometry K E} {frame : Tf K} {rays : Bundle K E} {sel : List Nat}
    {recs : List (HitRec K E)} (h : hitRecs g frame rays sel = .ok recs) :
    recs.map HitRec.idx = sel ∧
    ∀ r ∈ recs, rays[r.idx]? = some r.ray ∧ ∃ t : K, (g.find frame rays)[r.idx]? = some (t : WithTop K) ∧
      r.point = r.ray.at t ∧ r.normal = g.normal frame r.point r.ray.dir := by
  induction sel generalizing recs with
  | nil =>
    simp only [hitRecs, Except.ok.injEq] at h
    subst h
    simp
  | cons i sel ih =>
    unfold hitRecs at h
    split at h
    · rename_i r t hr ht
      split at h
      · simp at h
      · rename_i recs' hrecs
        simp only [Except.ok.injEq] at h
        subst h
        obtain ⟨h1, h2⟩ := ih hrecs
        refine ⟨by simp [h1], ?_⟩
        intro q hq
        rcases List.mem_cons.1 hq with rfl | hq
        · exact ⟨hr, t, ht, rfl, rfl⟩
        · exact h2 q hq
    · simp at h
    · simp at h

theorem hitRecs_exists {g : Geometry K E} {frame : Tf K} {rays : Bundle K E} {sel : List Nat}
    (hl : g.LengthOk)
    (h : ∀ i ∈ sel, ∃ t : K, (g.find frame rays)[i]? = some (t : WithTop K)) :
    ∃ recs, hitRecs g frame rays sel = .ok recs := by
  induction sel with
  | nil => exact ⟨[], rfl⟩
  | cons i sel ih =>
    obtain ⟨recs, hrecs⟩ := ih (fun j hj => h j (List.mem_cons_of_mem _ hj))
    obtain ⟨t, ht⟩ := h i (by simp)
    have hlt := (List.getElem?_eq_some_iff.1 ht).1
    rw [hl] at hlt
    have hr : rays[i]? = some rays[i] := List.getElem?_eq_getElem hlt
    have ht' : (g.find frame rays)[i]? = some (some t) := ht
    unfold hitRecs
    rw [hr, ht', hrecs]
    exact ⟨_, rfl⟩

theorem mkSurf_ok {g : Geometry K E} {opt : Optics σ K E} {frame : Tf K} {w w' : σ}
    {rays : Bundle K E} {sel : List Nat} {out : Bundle K E}
    (h : (mkSurf g opt frame).outgoing w rays sel = .ok (out, w')) :
    ∃ recs, hitRecs g frame rays sel = .ok recs ∧ opt w frame.rot.c3 recs = .ok (out, w') := by
  simp only [mkSurf] at h
  split at h
  · simp at h
  · exact ⟨_, by assumption, h⟩

theorem mkSurf_lengthOk {g : Geometry K E} (hg : g.LengthOk) (opt : Optics σ K E) (frame : Tf K) :
    (mkSurf g opt frame).LengthOk := fun rays => hg frame rays

theorem Geometry.PerRay.lengthOk {g : Geometry K E} {f} (hg : g.PerRay f) : g.LengthOk := by
  intro frame rays
  rw [hg]; simp

theorem mkSurf_perRay {g : Geometry K E} {f} (hg : g.PerRay f) (opt : Optics σ K E) (frame : Tf K) :
    (mkSurf g opt frame).PerRay fun r => f frame r.vertex r.dir := fun rays => hg frame rays

/-- A per-ray surface answers as it does about single rays. -/
theorem Surf.PerRay.single {s : Surf σ K E} {f : Ray K E → WithTop K} (h : s.PerRay f) :
    s.PerRay s.single := by
  intro rays
  have : s.single = f := by
    funext r
    unfold Surf.single
    rw [h]
    rfl
  rw [this, h]

theorem mkSurf_parentsOk (g : Geometry K E) {opt : Optics σ K E} (ho : Optics.AtHit opt) (frame : Tf K) :
    (mkSurf g opt frame).ParentsOk := by
  intro w rays sel out w' h r hr
  obtain ⟨recs, h1, h2⟩ := mkSurf_ok h
  obtain ⟨q, hq, hp, _⟩ := ho _ _ _ _ _ h2 r hr
  rw [hp, ← (hitRecs_ok h1).1]
  exact List.mem_map.2 ⟨q, hq, rfl⟩

theorem mkSurf_total (g : Geometry K E) {opt : Optics σ K E} (ho : Optics.Total opt) (frame : Tf K) :
    (mkSurf g opt frame).Total := by
  intro w rays sel out w' h i hi
  obtain ⟨recs, h1, h2⟩ := mkSurf_ok h
  rw [← (hitRecs_ok h1).1] at hi
  obtain ⟨q, hq, rfl⟩ := List.mem_map.1 hi
  exact ho _ _ _ _ _ h2 q hq

theorem mkSurf_onRay (g : Geometry K E) {opt : Optics σ K E} (ho : Optics.AtHit opt) (frame : Tf K) :
    (mkSurf g opt frame).OnRay := by
  intro w rays sel out w' _ h r hr
  obtain ⟨recs, h1, h2⟩ := mkSurf_ok h
  obtain ⟨q, hq, hp, hv⟩ := ho _ _ _ _ _ h2 r hr
  obtain ⟨hr1, t, ht, hpt, _⟩ := (hitRecs_ok h1).2 q hq
  exact ⟨q.ray, t, by rw [hp]; exact hr1, by rw [hp]; exact ht, by rw [hv, hpt]⟩

theorem mkSurf_energyOk (g : Geometry K E) {opt : Optics σ K E} (ha : Optics.AtHit opt)
    (ho : Optics.EnergyOk opt) (frame : Tf K) : (mkSurf g opt frame).EnergyOk := by
  intro w rays sel out w' hnd hpos h
  obtain ⟨recs, h1, h2⟩ := mkSurf_ok h
  obtain ⟨hidx, hrec⟩ := hitRecs_ok h1
  have := ho _ _ _ _ _ (by rw [hidx]; exact hnd)
    (fun q hq => hpos q.ray (List.mem_of_getElem? (hrec q hq).1)) h2
  refine ⟨this.1, ?_⟩
  intro i p hp
  by_cases hi : i ∈ sel
  · rw [← hidx] at hi
    obtain ⟨q, hq, rfl⟩ := List.mem_map.1 hi
    have hqp := (hrec q hq).1
    rw [hp] at hqp
    cases hqp
    exact this.2 q hq
  · have hnil : (out.filter fun r => r.parent == i) = [] := by
      rw [List.filter_eq_nil_iff]
      intro r hr hri
      obtain ⟨q, hq, hpq, _⟩ := ha _ _ _ _ _ h2 r hr
      apply hi
      rw [← hidx]
      exact List.mem_map.2 ⟨q, hq, by rw [← hpq]; simpa using hri⟩
    rw [hnil]
    simpa using hpos p (List.mem_of_getElem? hp)

/-- The children of one ray at a surface with a per-ray geometry `p` and per-hit optics `f`. -/
def outOf (g : Geometry K E) (p : Tf K → V3 K → V3 K → WithTop K) (f : V3 K → HitRec K E → Bundle K E)
    (frame : Tf K) (r : Ray K E) : Bundle K E :=
  match p frame r.vertex r.dir with
  | some t => f frame.rot.c3 ⟨0, r, r.at t, g.normal frame (r.at t) r.dir⟩
  | none => []

theorem mkSurf_perHit {g : Geometry K E} {p} (hg : g.PerRay p) {opt : Optics σ K E} {f}
    (ho : Optics.PerHit opt f) (frame : Tf K) : (mkSurf g opt frame).PerHit (outOf g p f frame) := by
  intro w rays sel raw w' h
  obtain ⟨recs, h1, h2⟩ := mkSurf_ok h
  refine (ho.perm _ _ _ _ _ h2).trans (List.Perm.of_eq ?_)
  obtain ⟨hidx, hrec⟩ := hitRecs_ok h1
  rw [← hidx, List.flatMap_map]
  apply List.flatMap_congr
  intro h hh
  obtain ⟨e1, t, e2, e3, e4⟩ := hrec h hh
  rw [e1]
  simp only [Option.toList_some, List.flatMap_cons, List.flatMap_nil, List.append_nil]
  rw [hg, List.getElem?_map, e1] at e2
  simp only [Option.map_some, Option.some.injEq] at e2
  unfold outOf
  rw [e2]
  change f _ _ = List.map _ (f _ _)
  rw [← ho.idx]
  congr 1
  rw [← e3, ← e4]

theorem outOf_blind {g : Geometry K E} {p} {opt : Optics σ K E} {f} (ho : Optics.PerHit opt f)
    (frame : Tf K) (r : Ray K E) :
    (outOf g p f frame r.strip).map Ray.strip = (outOf g p f frame r).map Ray.strip := by
  unfold outOf
  change List.map _ (match p frame r.vertex r.dir with | some t => _ | none => _) = _
  split
  · exact ho.blind _ ⟨0, r, _, _⟩
  · rfl

theorem alone_perm {g : Geometry K E} {p} (hg : g.PerRay p) {opt : Optics σ K E} {f}
    (ho : Optics.PerHit opt f) (hn : Optics.NoFail opt) (frame : Tf K) (w : σ) (r : Ray K E) :
    ((mkSurf g opt frame).alone w r).Perm
      ((outOf g p f frame r).map fun q => { q with parent := 0 }) := by
  unfold Surf.alone
  split
  · rename_i raw w' h
    simpa using mkSurf_perHit hg ho frame _ _ _ _ _ h
  · rename_i e h
    unfold outOf
    split
    · rename_i t ht
      exfalso
      obtain ⟨recs, hrecs⟩ := hitRecs_exists (g := g) (frame := frame) (rays := [r]) (sel := [0])
        hg.lengthOk (by
          intro i hi
          simp at hi
          subst hi
          refine ⟨t, ?_⟩
          rw [hg]
          simp only [List.map_cons, List.map_nil, List.getElem?_cons_zero, Option.some.injEq]
          exact ht)
      obtain ⟨out, w', hout⟩ := hn w frame.rot.c3 recs (by
        rintro rfl
        simpa using (hitRecs_ok hrecs).1)
      simp [mkSurf, hrecs, hout] at h
    · exact List.Perm.refl _

theorem mkSurf_perHit_alone {g : Geometry K E} {p} (hg : g.PerRay p) {opt : Optics σ K E} {f}
    (ho : Optics.PerHit opt f) (hn : Optics.NoFail opt) (frame : Tf K) (w : σ) :
    (mkSurf g opt frame).PerHit ((mkSurf g opt frame).alone w) := by
  intro w1 rays sel raw w' h
  refine (mkSurf_perHit hg ho frame _ _ _ _ _ h).trans ?_
  refine List.Perm.flatMap_left _ ?_
  intro i _
  refine List.Perm.flatMap_left _ ?_
  intro r _
  have := ((alone_perm hg ho hn frame w r).symm.map fun q => { q with parent := i })
  rw [List.map_map] at this
  exact this

theorem mkSurf_alone_blind {g : Geometry K E} {p} (hg : g.PerRay p) {opt : Optics σ K E} {f}
    (ho : Optics.PerHit opt f) (hn : Optics.NoFail opt) (frame : Tf K) (w : σ) (r : Ray K E) :
    (((mkSurf g opt frame).alone w r.strip).map Ray.strip).Perm
      (((mkSurf g opt frame).alone w r).map Ray.strip) := by
  have h : ∀ r, (((mkSurf g opt frame).alone w r).map Ray.strip).Perm
      ((outOf g p f frame r).map Ray.strip) := by
    intro r
    have := (alone_perm hg ho hn frame w r).map Ray.strip
    rw [List.map_map] at this
    exact this
  refine (h _).trans ?_
  rw [outOf_blind ho]
  exact (h r).symm

end Tracer
