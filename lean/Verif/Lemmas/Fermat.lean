import Verif.Spec.Fermat
import Verif.Props.Symmetry
import Verif.Lemmas.Images

/-! Lemmas for `Props/Fermat.lean`. -/

set_option linter.unusedSectionVars false

namespace Tracer

variable {E σ : Type _}

theorem V3.length_nonneg (v : V3 ℝ) : 0 ≤ v.length := Real.sqrt_nonneg _

theorem V3.dot_le_length {d : V3 ℝ} (hd : d.IsUnit) (v : V3 ℝ) : V3.dot d v ≤ v.length := by
  unfold V3.length
  refine Real.le_sqrt_of_sq_le ?_
  unfold V3.IsUnit at hd
  have h2 := V3.dot_self_nonneg (V3.cross d v)
  have h3 : V3.dot (V3.cross d v) (V3.cross d v) = V3.dot d d * V3.dot v v - V3.dot d v ^ 2 := by
    simp only [V3.dot, V3.cross]; ring
  rw [h3, hd] at h2
  linarith

theorem V3.length_smul_unit {d : V3 ℝ} (hd : d.IsUnit) {t : ℝ} (ht : 0 ≤ t) : (t • d).length = t := by
  unfold V3.length
  have : V3.dot (t • d) (t • d) = t ^ 2 := by
    unfold V3.IsUnit at hd
    unfold V3.dot at *
    simp only [V3.smul_x, V3.smul_y, V3.smul_z]
    linear_combination t ^ 2 * hd
  rw [this, Real.sqrt_sq ht]

theorem at_sub (r : Ray ℝ E) (t : ℝ) : r.at t - r.vertex = t • r.dir := by
  unfold Ray.at
  apply V3.ext <;> simp

theorem opticalLength_snoc (n : ℝ) (q e : V3 ℝ) : ∀ (ns : List ℝ) (pts : List (V3 ℝ)), pts.length = ns.length →
    opticalLength (ns ++ [n]) (pts ++ [q, e]) = opticalLength ns (pts ++ [q]) + n * (e - q).length
  | [], [], _ => by simp [opticalLength]
  | m :: ns, p :: pts, h => by
    have ih := opticalLength_snoc n q e ns pts (by simpa using h)
    cases pts with
    | nil =>
      cases ns with
      | nil => simp [opticalLength]
      | cons _ _ => simp at h
    | cons p' pts =>
      simp only [List.cons_append, opticalLength] at ih ⊢
      rw [ih]
      ring
  | [], _ :: _, h => by simp at h
  | _ :: _, [], h => by simp at h

/-- One ray and its child: the child starts on the parent, and momenta agree along the plane `S`. -/
structure Bent (S : V3 ℝ → Prop) (p r : Ray ℝ E) : Prop where
  on : S r.vertex
  ahead : ∃ t, 0 < t ∧ r.vertex = p.at t
  along : ∀ q, S q → r.index * V3.dot r.dir (q - r.vertex) = p.index * V3.dot p.dir (q - r.vertex)

/-- The heart of the matter: the path through other points of the planes is longer than the path of the light up to a wave front of the ray. -/
theorem shortest_step {tree : List (Bundle ℝ E)} {q : Ray ℝ E} {k : Nat} {r : Ray ℝ E} {rays : List (Ray ℝ E)}
    (hl : Lineage tree q k r rays)
    (hgood : ∀ lvl ∈ tree, ∀ r ∈ lvl, r.dir.IsUnit ∧ 0 ≤ r.index)
    {T : Ray ℝ E → Ray ℝ E → (V3 ℝ → Prop) → Prop} (hT : ∀ p r S, T p r S → Bent S p r)
    (hstep : ∀ (k : Nat) (lvl prev : Bundle ℝ E) (r p : Ray ℝ E), tree[k + 1]? = some lvl → r ∈ lvl →
      tree[k]? = some prev → prev[r.parent]? = some p → ∃ S, T p r S) :
    ∃ planes : List (V3 ℝ → Prop), List.Forall₂ (fun S r => ∃ p, T p r S) planes rays ∧
      (∀ pts, List.Forall₂ (fun S q => S q) planes pts → ∀ e : V3 ℝ,
        opticalLength ((q :: rays).map Ray.index) (q.vertex :: (rays.map Ray.vertex ++ [e])) ≤
          opticalLength ((q :: rays).map Ray.index) (q.vertex :: (pts ++ [e])) +
          r.index * ((e - r.vertex).length - V3.dot r.dir (e - r.vertex))) := by
  suffices H : ∃ planes : List (V3 ℝ → Prop), List.Forall₂ (fun S r => ∃ p, T p r S) planes rays ∧
      ∃ (ns : List ℝ) (vs : List (V3 ℝ)), (q :: rays).map Ray.index = ns ++ [r.index] ∧ q.vertex :: rays.map Ray.vertex = vs ++ [r.vertex] ∧
      vs.length = ns.length ∧
      (∀ pts, List.Forall₂ (fun S q => S q) planes pts → ∃ (ps : List (V3 ℝ)) (x : V3 ℝ), q.vertex :: pts = ps ++ [x] ∧ ps.length = ns.length ∧
        opticalLength ns (vs ++ [r.vertex]) + r.index * V3.dot r.dir (x - r.vertex) ≤ opticalLength ns (ps ++ [x])) by
    obtain ⟨planes, h1, ns, vs, h2, h3, h4, h5⟩ := H
    refine ⟨planes, h1, fun pts hp e => ?_⟩
    obtain ⟨ps, x, h6, h7, h8⟩ := h5 pts hp
    have e1 : q.vertex :: (rays.map Ray.vertex ++ [e]) = vs ++ [r.vertex, e] := by
      rw [← List.cons_append, h3, List.append_assoc]; rfl
    have e2 : q.vertex :: (pts ++ [e]) = ps ++ [x, e] := by
      rw [← List.cons_append, h6, List.append_assoc]; rfl
    rw [e1, e2, h2, opticalLength_snoc _ _ _ _ _ h4, opticalLength_snoc _ _ _ _ _ h7]
    have hr : r.dir.IsUnit ∧ 0 ≤ r.index := by
      cases hl with
      | source h0 hq => exact hgood _ (List.mem_of_getElem? h0) _ hq
      | child hk hr _ _ _ => exact hgood _ (List.mem_of_getElem? hk) _ hr
    have h9 := mul_le_mul_of_nonneg_left (V3.dot_le_length hr.1 (e - x)) hr.2
    have h10 : V3.dot r.dir (e - r.vertex) = V3.dot r.dir (e - x) + V3.dot r.dir (x - r.vertex) := by
      unfold V3.dot; simp; ring
    rw [h10]
    nlinarith
  induction hl with
  | source h0 hq =>
    refine ⟨[], .nil, [], [], rfl, rfl, rfl, fun pts hp => ?_⟩
    cases hp
    refine ⟨[], q.vertex, rfl, rfl, ?_⟩
    simp [opticalLength, V3.dot]
  | @child k lvl prev r p rays hk hr hprev hp hlin ih =>
    obtain ⟨planes, h1, ns, vs, h2, h3, h4, h5⟩ := ih
    obtain ⟨S, hS⟩ := hstep k lvl prev r p hk hr hprev hp
    obtain ⟨hon, ⟨t, ht, hv⟩, halong⟩ := hT p r S hS
    obtain ⟨hpu, hpi⟩ := hgood _ (List.mem_of_getElem? hprev) _ (List.mem_of_getElem? hp)
    refine ⟨planes ++ [S], List.rel_append h1 (.cons ⟨p, hS⟩ .nil), ns ++ [p.index], vs ++ [p.vertex], ?_, ?_, by simp [h4], ?_⟩
    · rw [← List.cons_append, List.map_append, h2]; rfl
    · rw [List.map_append, ← List.cons_append, h3]; rfl
    · intro pts hpts
      obtain ⟨a1, a2, ha1, ha2, rfl⟩ : ∃ a1 a2, List.Forall₂ (fun S q => S q) planes a1 ∧ S a2 ∧ pts = a1 ++ [a2] := by
        have h6 := (List.forall₂_take_append _ _ _ hpts.flip).flip
        have h7 := (List.forall₂_drop_append _ _ _ hpts.flip).flip
        generalize hd : List.drop planes.length pts = dl at h7
        cases h7 with
        | cons h8 h9 =>
          cases h9
          exact ⟨_, _, h6, h8, by rw [← hd, List.take_append_drop]⟩
      obtain ⟨ps, x, h6, h7, h8⟩ := h5 a1 ha1
      refine ⟨ps ++ [x], a2, by rw [← List.cons_append, h6], by simp [h7], ?_⟩
      rw [List.append_assoc, List.append_assoc]
      rw [show [p.vertex] ++ [r.vertex] = [p.vertex, r.vertex] from rfl, show [x] ++ [a2] = [x, a2] from rfl,
        opticalLength_snoc _ _ _ _ _ h4, opticalLength_snoc _ _ _ _ _ h7, halong a2 ha2]
      have h9 := mul_le_mul_of_nonneg_left (V3.dot_le_length hpu (a2 - x)) hpi
      have h10 : (r.vertex - p.vertex).length = t := by rw [hv, at_sub, V3.length_smul_unit hpu ht.le]
      have h11 : V3.dot p.dir (r.vertex - p.vertex) = t := by
        rw [hv, at_sub]
        unfold V3.IsUnit V3.dot at hpu
        unfold V3.dot
        simp only [V3.smul_x, V3.smul_y, V3.smul_z]
        linear_combination t * hpu
      have h12 : V3.dot p.dir (a2 - x) + V3.dot p.dir (x - p.vertex) = V3.dot p.dir (a2 - r.vertex) + V3.dot p.dir (r.vertex - p.vertex) := by
        unfold V3.dot; simp; ring
      rw [h10]
      rw [h11] at h12
      have h13 : p.index * V3.dot p.dir (a2 - x) + p.index * V3.dot p.dir (x - p.vertex) = p.index * V3.dot p.dir (a2 - r.vertex) + p.index * t := by
        rw [← mul_add, h12, mul_add]
      linarith

theorem mirror_bends_pos {opt : Optics σ ℝ E} (h : MirrorOptics opt) : Optics.Obeys opt (BendLaw fun r => r.dir.IsUnit ∧ 0 ≤ r.index) := by
  induction h with
  | mirror c =>
    intro w up hits out w' ho r hr
    obtain ⟨q, hq, e1, e2, e3⟩ := C74_reflective c w up hits out w' ho r hr
    exact ⟨q, hq, e1, e2, fun hn hQ => ⟨⟨mirrored_unit hn hQ.1 (e3.dir hn), by unfold Ray.index; rw [e3.ref]; exact hQ.2⟩, by
      unfold Ray.index; rw [e3.ref, (e3.dir hn).tangent]⟩⟩
  | oneSided c =>
    intro w up hits out w' ho r hr
    obtain ⟨q, hq, e1, e2, e3⟩ := C74_one_sided c w up hits out w' ho r hr
    exact ⟨q, hq, e1, e2, fun hn hQ => ⟨⟨mirrored_unit hn hQ.1 (e3.dir hn), by unfold Ray.index; rw [e3.ref]; exact hQ.2⟩, by
      unfold Ray.index; rw [e3.ref, (e3.dir hn).tangent]⟩⟩
  | receiver c get set opt _ ih => exact C74_receiver ih c get set

theorem flatGeometry_at {g : Geometry ℝ E} (h : FlatGeometry g) {F : Tf ℝ} (hF : F.Rigid) {rays : Bundle ℝ E} {i : Nat} {p : Ray ℝ E} {t : ℝ}
    (hi : rays[i]? = some p) (ht : (g.find F rays)[i]? = some (t : WithTop ℝ)) : Placed F planeXY (p.at t) := by
  obtain ⟨_, f, hf, _⟩ := h.spec
  have e : f F p.vertex p.dir = (t : WithTop ℝ) := by
    rw [hf] at ht
    simpa [hi] using ht
  have := (h.plane hf p rfl rfl e).2
  rw [plane_iff hF]
  rw [show V3.dot F.rot.c3 (p.at t - F.loc) = V3.dot (p.at t - F.loc) F.rot.c3 by unfold V3.dot; ring]
  exact this

end Tracer
