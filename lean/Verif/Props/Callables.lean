import Verif.Lemmas.Refractive
import Verif.Props.Fresnel
import Verif.Props.Spatial
import Verif.Examples.Scene

/-!
# Optics callables (C48 - C54)
-/

set_option linter.unusedSectionVars false

namespace Tracer

open Real

section Reflective
variable {K E σ : Type _} [Field K] [LinearOrder K] [IsStrictOrderedRing K]
  {g : Geometry K E} {frame : Tf K} {w w' : σ} {rays : Bundle K E} {sel : List Nat} {out : Bundle K E}

/-- What a surface with a callable that makes one child `f h` per hit `h` returns. -/
theorem one_child_surface {opt : Optics σ K E} {f : V3 K → HitRec K E → Ray K E}
    (hopt : ∀ w up hits out w', opt w up hits = .ok (out, w') → out = hits.map (f up))
    (h : (mkSurf g opt frame).outgoing w rays sel = .ok (out, w')) :
    out.length = sel.length ∧
    ∀ (i : Nat) (j : Nat), sel[i]? = some j → ∃ p t, rays[j]? = some p ∧
      (g.find frame rays)[j]? = some ((t : K) : WithTop K) ∧
      out[i]? = some (f frame.rot.c3 ⟨j, p, p.at t, g.normal frame (p.at t) p.dir⟩) := by
  obtain ⟨recs, hrecs, hopt'⟩ := mkSurf_ok h
  have hout := hopt _ _ _ _ _ hopt'
  obtain ⟨h1, h2⟩ := hitRecs_ok hrecs
  refine ⟨by rw [hout, List.length_map, ← h1, List.length_map], ?_⟩
  intro i j hij
  rw [← h1, List.getElem?_map, Option.map_eq_some_iff] at hij
  obtain ⟨q, hq, rfl⟩ := hij
  obtain ⟨a1, t, a2, a3, a4⟩ := h2 q (List.mem_of_getElem? hq)
  refine ⟨q.ray, t, a1, a2, ?_⟩
  rw [hout, List.getElem?_map, hq, ← a3, ← a4]
  rfl

/-- C48: a `Reflective` surface returns one ray per selected ray: it starts at the hit point, has the
mirrored direction (for a unit normal), the energy times (1 - absorptivity), the selected index as
parent, and everything else from the incoming ray. -/
theorem C48_reflective {a : K} (h : (mkSurf g (reflective a) frame).outgoing w rays sel = .ok (out, w')) :
    w' = w ∧ out.length = sel.length ∧
    ∀ (i : Nat) (j : Nat), sel[i]? = some j → ∃ p t r, rays[j]? = some p ∧
      (g.find frame rays)[j]? = some ((t : K) : WithTop K) ∧ out[i]? = some r ∧
      r.vertex = p.vertex + t • p.dir ∧
      (V3.IsUnit (g.normal frame r.vertex p.dir) → Mirrored p.dir (g.normal frame r.vertex p.dir) r.dir) ∧
      r.energy = p.energy * (1 - a) ∧ r.parent = j ∧ r.ref = p.ref ∧ r.extra = p.extra := by
  obtain ⟨h1, h2⟩ := one_child_surface (f := fun _ => reflectOne a) (by
    intro w up hits out w' h
    simp only [reflective, Except.ok.injEq, Prod.mk.injEq] at h
    exact h.1.symm) h
  refine ⟨?_, h1, ?_⟩
  · obtain ⟨recs, _, ho⟩ := mkSurf_ok h
    simp only [reflective, Except.ok.injEq, Prod.mk.injEq] at ho
    exact ho.2.symm
  intro i j hij
  obtain ⟨p, t, a1, a2, a3⟩ := h2 i j hij
  exact ⟨p, t, _, a1, a2, a3, rfl, fun hu => C44_mirrored hu _, rfl, rfl, rfl, rfl⟩

/-- C48: the surface answers whenever only rays that hit it are selected. -/
theorem C48_answers (a : K) (hl : g.LengthOk)
    (hs : ∀ i ∈ sel, ∃ t : K, (g.find frame rays)[i]? = some (t : WithTop K)) :
    ∃ out, (mkSurf g (reflective a) frame).outgoing w rays sel = .ok (out, w) := by
  obtain ⟨recs, hrecs⟩ := hitRecs_exists hl hs
  exact ⟨recs.map (reflectOne a), by simp [mkSurf, hrecs, reflective]⟩

/-- A half absorbing mirror in the plane z = 0 and two rays that reach it. -/
example : ∃ out, (mkSurf flatGM (reflective (1/2)) 1).outgoing () Examples.source [1, 0] = .ok (out, ()) ∧ out.length = 2 ∧
    ∃ p t r, Examples.source[1]? = some p ∧ ((flatGM : Geometry ℚ Unit).find 1 Examples.source)[1]? = some ((t : ℚ) : WithTop ℚ) ∧
      out[0]? = some r ∧ r.vertex = p.vertex + t • p.dir ∧ r.energy = p.energy * (1 - 1/2) ∧ r.parent = 1 := by
  obtain ⟨out, h⟩ := C48_answers (g := flatGM) (frame := 1) (w := ()) (rays := Examples.source) (sel := [1, 0]) (1/2 : ℚ)
    flatGM_perRay.lengthOk (by
      have e : (flatGM : Geometry ℚ Unit).find 1 Examples.source = [((5/4 : ℚ) : WithTop ℚ), ((1 : ℚ) : WithTop ℚ)] := by decide +kernel
      intro i hi
      rw [e]
      simp only [List.mem_cons, List.not_mem_nil, or_false] at hi
      rcases hi with rfl | rfl
      · exact ⟨1, rfl⟩
      · exact ⟨5/4, rfl⟩)
  obtain ⟨_, h2, h3⟩ := C48_reflective h
  obtain ⟨p, t, r, e1, e2, e3, e4, _, e5, e6, _⟩ := h3 0 1 rfl
  exact ⟨out, h, h2, p, t, r, e1, e2, e3, e4, e5, e6⟩

/-- C52: an `AbsorberReflector` takes all energy from rays that come from behind (a positive component along
the surface's Z axis), and is otherwise a `Reflective` surface. -/
theorem C52_one_sided {a : K} (h : (mkSurf g (absorberReflector a) frame).outgoing w rays sel = .ok (out, w')) :
    w' = w ∧ out.length = sel.length ∧
    ∀ (i : Nat) (j : Nat), sel[i]? = some j → ∃ p t r, rays[j]? = some p ∧
      (g.find frame rays)[j]? = some ((t : K) : WithTop K) ∧ out[i]? = some r ∧
      r.vertex = p.vertex + t • p.dir ∧
      (V3.IsUnit (g.normal frame r.vertex p.dir) → Mirrored p.dir (g.normal frame r.vertex p.dir) r.dir) ∧
      (0 < V3.dot p.dir (frame.dir ⟨0, 0, 1⟩) → r.energy = 0) ∧
      (V3.dot p.dir (frame.dir ⟨0, 0, 1⟩) ≤ 0 → r.energy = p.energy * (1 - a)) ∧
      r.parent = j ∧ r.ref = p.ref ∧ r.extra = p.extra := by
  obtain ⟨h1, h2⟩ := one_child_surface (f := fun up h =>
      let r := reflectOne a h
      if 0 < V3.dot h.ray.dir up then { r with energy := 0 } else r) (by
    intro w up hits out w' h
    simp only [absorberReflector, Except.ok.injEq, Prod.mk.injEq] at h
    exact h.1.symm) h
  refine ⟨?_, h1, ?_⟩
  · obtain ⟨recs, _, ho⟩ := mkSurf_ok h
    simp only [absorberReflector, Except.ok.injEq, Prod.mk.injEq] at ho
    exact ho.2.symm
  have hz : frame.dir ⟨0, 0, 1⟩ = frame.rot.c3 := by
    unfold Tf.dir; apply V3.ext <;> simp
  intro i j hij
  obtain ⟨p, t, a1, a2, a3⟩ := h2 i j hij
  rw [hz]
  by_cases hd : 0 < V3.dot p.dir frame.rot.c3
  · rw [if_pos hd] at a3
    exact ⟨p, t, _, a1, a2, a3, rfl, fun hu => C44_mirrored hu _, fun _ => rfl, fun h => absurd hd (not_lt.2 h),
      rfl, rfl, rfl⟩
  · rw [if_neg hd] at a3
    exact ⟨p, t, _, a1, a2, a3, rfl, fun hu => C44_mirrored hu _, fun h => absurd h hd, fun _ => rfl,
      rfl, rfl, rfl⟩

/-- A ray from below, for the back of a one-sided plate, and one from above. -/
def Examples.bothSides : Bundle ℚ Unit :=
  [⟨⟨0, 0, -1⟩, ⟨0, 0, 1⟩, 4, 0, none, ()⟩, ⟨⟨0, 0, 1⟩, ⟨3/5, 0, -4/5⟩, 4, 0, none, ()⟩]

example : ∃ out, (mkSurf flatGM (absorberReflector (1/4)) 1).outgoing () Examples.bothSides [0, 1] = .ok (out, ()) ∧
    ∃ r r', out[0]? = some r ∧ out[1]? = some r' ∧ r.energy = 0 ∧ r'.energy = 4 * (1 - 1/4) := by
  have h : ((mkSurf flatGM (absorberReflector (1/4)) 1).outgoing () Examples.bothSides [0, 1]).toOption.isSome = true := by
    decide +kernel
  cases hc : (mkSurf flatGM (absorberReflector (1/4)) 1).outgoing () Examples.bothSides [0, 1] with
  | error e => rw [hc] at h; simp [Except.toOption] at h
  | ok x =>
    obtain ⟨out, w⟩ := x
    refine ⟨out, rfl, ?_⟩
    obtain ⟨_, _, h3⟩ := C52_one_sided hc
    obtain ⟨p, _, r, e1, _, e3, _, _, e4, _⟩ := h3 0 0 rfl
    obtain ⟨p', _, r', e1', _, e3', _, _, _, e5', _⟩ := h3 1 1 rfl
    cases e1
    cases e1'
    exact ⟨r, r', e3, e3', e4 (by decide +kernel), e5' (by decide +kernel)⟩

end Reflective

/-! ### RefractiveHomogenous -/

section Refractive
variable {E σ : Type _} {a b : ℝ} {w w' : σ} {up : V3 ℝ} {hits : List (HitRec ℝ E)} {out : Bundle ℝ E}

/-- `n'` is the index on the other side of a border between `a` and `b`. -/
def OtherSide (a b n n' : ℝ) : Prop := (n = a ∧ n' = b) ∨ (n = b ∧ n' = a)

/-- C50: the surface's indices are swapped, anything else is taken to enter the first one; toggling twice restores
either index. -/
theorem C50_toggle (a b : ℝ) (current : List ℝ) :
    (∀ n ∈ current, (n = a ∨ n = b) → OtherSide a b n (toggleRefIdx a b n)) ∧
    (∀ n ∈ current, n ≠ a → n ≠ b → toggleRefIdx a b n = a) ∧
    ((∀ n ∈ current, n = a ∨ n = b) →
      (current.map (toggleRefIdx a b)).map (toggleRefIdx a b) = current) := by
  have h1 : ∀ n, (n = a ∨ n = b) → OtherSide a b n (toggleRefIdx a b n) := by
    intro n hn
    unfold OtherSide toggleRefIdx
    by_cases h : n = a
    · simp [h]
    · rcases hn with hn | hn
      · exact absurd hn h
      · simp [h, hn]
  refine ⟨fun n _ => h1 n, ?_, ?_⟩
  · intro n _ ha _
    simp [toggleRefIdx, ha]
  · intro hc
    rw [List.map_map]
    conv_rhs => rw [← List.map_id current]
    apply List.map_congr_left
    intro n hn
    unfold toggleRefIdx
    simp only [Function.comp_apply, id]
    rcases hc n hn with rfl | rfl
    · by_cases h : b = n <;> simp [h]
    · by_cases h : n = a <;> simp [h]

/-- The hit ray has an index and Snell's law has a solution for it. -/
def Refracts (a b : ℝ) (h : HitRec ℝ E) : Prop :=
  ∃ n n' e, h.ray.ref = some n ∧ OtherSide a b n n' ∧ Snell n n' h.ray.dir h.normal e

/-- A hit as a refractive surface between indices `a` and `b` should see it: unit vectors, and the ray comes
from one of the two media. -/
structure ProperHit (a b : ℝ) (h : HitRec ℝ E) : Prop where
  dir : h.ray.dir.IsUnit
  normal : h.normal.IsUnit
  idx : h.ray.ref = some a ∨ h.ray.ref = some b

theorem OtherSide.eq {n n' n'' : ℝ} (h : OtherSide a b n n') (h' : OtherSide a b n n'') : n' = n'' := by
  rcases h with ⟨rfl, rfl⟩ | ⟨rfl, rfl⟩ <;> rcases h' with ⟨h1, rfl⟩ | ⟨h1, rfl⟩ <;> simp_all

theorem ProperHit.otherSide {h : HitRec ℝ E} (hp : ProperHit a b h) :
    h.ray.ref = some (idxIn h) ∧ OtherSide a b (idxIn h) (idxOut a b h) := by
  have h1 : h.ray.ref = some (idxIn h) ∧ (idxIn h = a ∨ idxIn h = b) := by
    unfold idxIn
    rcases hp.idx with h | h <;> simp [h]
  exact ⟨h1.1, (C50_toggle a b [idxIn h]).1 _ (by simp) h1.2⟩

theorem ProperHit.pos {h : HitRec ℝ E} (ha : 0 < a) (hb : 0 < b) (hp : ProperHit a b h) :
    0 < idxIn h ∧ 0 < idxOut a b h := by
  rcases hp.otherSide.2 with ⟨h1, h2⟩ | ⟨h1, h2⟩ <;> rw [h1, h2] <;> exact ⟨by assumption, by assumption⟩

theorem ProperHit.refracts {h : HitRec ℝ E} (ha : 0 < a) (hb : 0 < b) (hp : ProperHit a b h) :
    hitRefr a b h = true ↔ Refracts a b h := by
  obtain ⟨p1, p2⟩ := hp.pos ha hb
  constructor
  · intro hr
    exact ⟨_, _, _, hp.otherSide.1, hp.otherSide.2, C45_snell p1 p2 hp.dir hp.normal hr⟩
  · rintro ⟨n, n', e, h1, h2, h3⟩
    have e1 : idxIn h = n := by simpa [hp.otherSide.1] using h1
    have e2 : idxOut a b h = n' := by
      have := hp.otherSide.2
      rw [e1] at this
      exact this.eq h2
    by_contra hf
    refine (C46_total_reflection p1 p2 hp.dir hp.normal).1 ?_ ⟨e, by rw [e1, e2]; exact h3⟩
    unfold hitRefr at hf
    simpa using hf

open Classical in
/-- C49: what a refractive surface returns.  First one mirrored ray per hit, then one ray obeying Snell's
law per hit for which the law has a solution, in order.  Reflected rays stay in their medium, refracted rays are
in the other one; all children start at the hit, name the hit ray as parent and inherit the rest. -/
theorem C49_children (ha : 0 < a) (hb : 0 < b) (hp : ∀ h ∈ hits, ProperHit a b h)
    (h : refractiveHomogenous a b w up hits = .ok (out, w')) :
    w' = w ∧ ∃ reflected refracted, out = reflected ++ refracted ∧
      List.Forall₂ (fun h r => Mirrored h.ray.dir h.normal r.dir ∧ r.ref = h.ray.ref ∧
        r.vertex = h.point ∧ r.parent = h.idx ∧ r.extra = h.ray.extra) hits reflected ∧
      List.Forall₂ (fun h r => (∃ n n', h.ray.ref = some n ∧ OtherSide a b n n' ∧
          Snell n n' h.ray.dir h.normal r.dir ∧ r.ref = some n') ∧
        r.vertex = h.point ∧ r.parent = h.idx ∧ r.extra = h.ray.extra)
        (hits.filter fun h => decide (Refracts a b h)) refracted := by
  obtain ⟨_, href, hw, _, hout⟩ := refractive_ok h
  refine ⟨hw, _, _, hout, ?_, ?_⟩
  · rw [List.forall₂_map_right_iff]
    have : ∀ l : List (HitRec ℝ E), (∀ q ∈ l, ProperHit a b q) →
        List.Forall₂ (fun h q => Mirrored h.ray.dir h.normal (hitReflected a b q).dir ∧
          (hitReflected a b q).ref = h.ray.ref ∧ (hitReflected a b q).vertex = h.point ∧
          (hitReflected a b q).parent = h.idx ∧ (hitReflected a b q).extra = h.ray.extra) l l := by
      intro l hl
      rw [List.forall₂_same]
      intro q hq
      exact ⟨C44_mirrored (hl q hq).normal _, rfl, rfl, rfl, rfl⟩
    exact this hits hp
  · have hf : (hits.filter fun h => decide (Refracts a b h)) = hits.filter (hitRefr a b) := by
      apply List.filter_congr
      intro q hq
      rw [Bool.eq_iff_iff, decide_eq_true_iff]
      exact ((hp q hq).refracts ha hb).symm
    rw [hf, List.forall₂_map_right_iff, List.forall₂_same]
    intro q hq
    obtain ⟨hq, hr⟩ := List.mem_filter.1 hq
    obtain ⟨p1, p2⟩ := (hp q hq).pos ha hb
    exact ⟨⟨_, _, (hp q hq).otherSide.1, (hp q hq).otherSide.2,
      C45_snell p1 p2 (hp q hq).dir (hp q hq).normal hr, rfl⟩, rfl, rfl, rfl⟩

theorem filter_parent {f : HitRec ℝ E → Ray ℝ E} {hits : List (HitRec ℝ E)} (hf : ∀ h ∈ hits, (f h).parent = h.idx)
    (p : HitRec ℝ E → Bool) (hnd : (hits.map HitRec.idx).Nodup) {h : HitRec ℝ E} (hh : h ∈ hits) :
    (((hits.filter p).map f).filter fun r => r.parent == h.idx) = if p h then [f h] else [] := by
  have hsub : ((hits.filter p).map HitRec.idx).Nodup := hnd.sublist ((List.filter_sublist).map _)
  split
  · rename_i hp
    exact filter_map_idx (fun q hq => hf q (List.mem_filter.1 hq).1) hsub (List.mem_filter.2 ⟨hh, hp⟩)
  · rename_i hp
    rw [List.filter_eq_nil_iff]
    intro r hr hri
    obtain ⟨q, hq, rfl⟩ := List.mem_map.1 hr
    rw [hf q (List.mem_filter.1 hq).1] at hri
    have hqh : q = h := by
      have hi := List.inj_on_of_nodup_map hnd
      exact hi (List.mem_filter.1 hq).1 hh (by simpa using hri)
    subst hqh
    exact hp (List.mem_filter.1 hq).2

/-- C49: for every hit ray the energies of its children sum to its energy, whether it is split or
totally reflected; energies stay non-negative. -/
theorem C49_energy (ha : 0 < a) (hb : 0 < b) (hp : ∀ h ∈ hits, ProperHit a b h)
    (hnd : (hits.map HitRec.idx).Nodup) (hpos : ∀ h ∈ hits, 0 ≤ h.ray.energy)
    (h : refractiveHomogenous a b w up hits = .ok (out, w')) :
    (∀ q ∈ hits, ((out.filter fun r => r.parent == q.idx).map Ray.energy).sum = q.ray.energy) ∧
    (∀ r ∈ out, 0 ≤ r.energy) ∧
    ∀ q ∈ hits, ¬ Refracts a b q →
      ∃ r, (out.filter fun r => r.parent == q.idx) = [r] ∧ r.energy = q.ray.energy := by
  obtain ⟨_, href, hw, _, hout⟩ := refractive_ok h
  have hfil : ∀ q ∈ hits, (out.filter fun r => r.parent == q.idx) =
      hitReflected a b q :: if hitRefr a b q then [hitRefracted a b q] else [] := by
    intro q hq
    rw [hout, List.filter_append, filter_parent (fun _ _ => rfl) _ hnd hq,
      filter_map_idx (fun _ _ => rfl) hnd hq]
    rfl
  refine ⟨?_, ?_, ?_⟩
  · intro q hq
    rw [hfil q hq]
    split
    · simp [hitReflected, hitRefracted, reflectedRay, refractedRay]; ring
    · rename_i hr
      simp [hitReflected, reflectedRay, hitR, hr]
  · intro r hr
    have hR : ∀ q ∈ hits, 0 ≤ hitR a b q ∧ hitR a b q ≤ 1 := by
      intro q hq
      unfold hitR
      split
      · obtain ⟨p1, p2⟩ := (hp q hq).pos ha hb
        exact C47_fraction p1 p2 (hp q hq).dir (hp q hq).normal
      · norm_num
    rw [hout, List.mem_append] at hr
    rcases hr with hr | hr
    · obtain ⟨q, hq, rfl⟩ := List.mem_map.1 hr
      exact mul_nonneg (hpos q hq) (hR q hq).1
    · obtain ⟨q, hq, rfl⟩ := List.mem_map.1 hr
      have hq := (List.mem_filter.1 hq).1
      exact mul_nonneg (hpos q hq) (by linarith [(hR q hq).2])
  · intro q hq hr
    have hr' : hitRefr a b q = false := by
      by_contra hf
      exact hr (((hp q hq).refracts ha hb).1 (by simpa using hf))
    refine ⟨hitReflected a b q, by rw [hfil q hq, hr']; simp, ?_⟩
    simp [hitReflected, reflectedRay, hitR, hr']

/-- C49: the callable answers every non-empty selection of rays that have an index, unless a ray grazes a border
between equal indices. -/
theorem C49_answers (ha : 0 < a) (hb : 0 < b) (hne : hits ≠ []) (hp : ∀ h ∈ hits, ProperHit a b h)
    (hg : a ≠ b ∨ ∀ h ∈ hits, V3.dot h.ray.dir h.normal ≠ 0) :
    ∃ out, refractiveHomogenous a b w up hits = .ok (out, w) := by
  rw [refractive_eq a b w up hits hne (fun q hq => by rw [(hp q hq).otherSide.1]; simp)]
  split
  · have : (hits.any fun h => hitRefr a b h && ! fresnelDefined h.ray.dir h.normal (idxIn h) (idxOut a b h)) = false := by
      rw [List.any_eq_false]
      intro q hq
      rw [Bool.and_eq_true, not_and]
      intro hr
      obtain ⟨p1, p2⟩ := (hp q hq).pos ha hb
      have := (C47_defined_iff p1 p2 (hp q hq).dir (hp q hq).normal hr).2 (by
        rintro ⟨h0, hn⟩
        rcases hg with hg | hg
        · rcases (hp q hq).otherSide.2 with ⟨h1, h2⟩ | ⟨h1, h2⟩ <;> rw [h1, h2] at hn
          · exact hg hn
          · exact hg hn.symm
        · exact hg q hq h0)
      simp [this]
    rw [this]
    exact ⟨_, rfl⟩
  · exact ⟨_, rfl⟩

/-- C49: a bundle without indices is an error, and so is an empty selection, for which the code means to return an
empty bundle. -/
theorem C49_errors (a b : ℝ) (w : σ) (up : V3 ℝ) :
    refractiveHomogenous a b w up ([] : List (HitRec ℝ E)) = .error .attribute ∧
    ∀ (h : HitRec ℝ E) hits, h.ray.ref = none → refractiveHomogenous a b w up (h :: hits) = .error .attribute := by
  refine ⟨rfl, ?_⟩
  intro h hits hn
  simp [refractiveHomogenous, refIndices, hn]

/-- The hypotheses of C49 hold for a pair of hits of which one is refracted (from air into water-like glass of
index 4/3) and one is totally reflected (the other way at the same angle). -/
noncomputable def Examples.pair : List (HitRec ℝ Unit) :=
  [⟨0, ⟨⟨0, 0, 0⟩, ⟨4/5, 0, -3/5⟩, 1, 0, some 1, ()⟩, ⟨4, 0, -3⟩, ⟨0, 0, 1⟩⟩,
   ⟨2, ⟨⟨0, 1, 0⟩, ⟨4/5, 0, -3/5⟩, 2, 0, some (4/3), ()⟩, ⟨4, 1, -3⟩, ⟨0, 0, 1⟩⟩]

theorem Examples.pair_proper : ∀ h ∈ Examples.pair, ProperHit 1 (4/3) h := by
  intro h hh
  simp only [Examples.pair, List.mem_cons, List.not_mem_nil, or_false] at hh
  rcases hh with rfl | rfl
  · exact ⟨by norm_num [V3.IsUnit, V3.dot], by norm_num [V3.IsUnit, V3.dot], by simp⟩
  · exact ⟨by norm_num [V3.IsUnit, V3.dot], by norm_num [V3.IsUnit, V3.dot], by simp⟩

example : ∃ out, refractiveHomogenous 1 (4/3) () ⟨0, 0, 1⟩ Examples.pair = .ok (out, ()) ∧ out.length = 3 ∧
    (out.map Ray.energy).sum = 3 := by
  obtain ⟨out, h⟩ := C49_answers (w := ()) (up := ⟨0, 0, 1⟩) one_pos (by norm_num : (0 : ℝ) < 4/3)
    (by simp [Examples.pair]) Examples.pair_proper (Or.inl (by norm_num))
  refine ⟨out, h, ?_⟩
  obtain ⟨_, _, _, _, hout⟩ := refractive_ok h
  have h1 : hitRefr 1 (4/3) (⟨0, ⟨⟨0, 0, 0⟩, ⟨4/5, 0, -3/5⟩, 1, 0, some 1, ()⟩, ⟨4, 0, -3⟩, ⟨0, 0, 1⟩⟩ : HitRec ℝ Unit) = true := by
    norm_num [hitRefr, refractedOne, idxIn, idxOut, toggleRefIdx, V3.dot]
  have h2 : hitRefr 1 (4/3) (⟨2, ⟨⟨0, 1, 0⟩, ⟨4/5, 0, -3/5⟩, 2, 0, some (4/3), ()⟩, ⟨4, 1, -3⟩, ⟨0, 0, 1⟩⟩ : HitRec ℝ Unit) = false := by
    norm_num [hitRefr, refractedOne, idxIn, idxOut, toggleRefIdx, V3.dot]
  rw [hout]
  simp only [Examples.pair, List.map_cons, List.map_nil, List.filter_cons, h1, h2, List.filter_nil]
  constructor
  · simp
  · simp [hitReflected, hitRefracted, reflectedRay, refractedRay, hitR, h2]
    ring

end Refractive

/-- The two hits of the example above: the first ray has two children, the second one. -/
example : ∃ out, refractiveHomogenous 1 (4/3) () ⟨0, 0, 1⟩ Examples.pair = .ok (out, ()) ∧
    (∃ reflected refracted : Bundle ℝ Unit, out = reflected ++ refracted ∧ reflected.length = 2) ∧
    ∀ q ∈ Examples.pair, ((out.filter fun r => r.parent == q.idx).map Ray.energy).sum = q.ray.energy := by
  obtain ⟨out, h⟩ := C49_answers (w := ()) (up := ⟨0, 0, 1⟩) one_pos (by norm_num : (0 : ℝ) < 4/3)
    (by simp [Examples.pair]) Examples.pair_proper (Or.inl (by norm_num))
  obtain ⟨_, a, b, e1, e2, _⟩ := C49_children one_pos (by norm_num) Examples.pair_proper h
  refine ⟨out, h, ⟨a, b, e1, e2.length_eq.symm⟩, (C49_energy one_pos (by norm_num) Examples.pair_proper ?_ ?_ h).1⟩
  · simp [Examples.pair]
  · intro q hq
    simp only [Examples.pair, List.mem_cons, List.not_mem_nil, or_false] at hq
    rcases hq with rfl | rfl <;> norm_num

end Tracer
