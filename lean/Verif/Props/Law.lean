import Verif.Spec.Law
import Verif.Props.Engine
import Verif.Props.Refraction
import Verif.Props.Callables
import Verif.Props.Receivers
import Verif.Props.TraceMotion
import Verif.Props.Normals
import Verif.Props.Motion
import Verif.Props.CutSphere
import Verif.Lemmas.Managers

/-! # Every recorded ray obeys the law of the surface its parent hit (C74) -/

set_option linter.unusedSectionVars false

namespace Tracer

section
variable {K E σ : Type _} [Field K] [LinearOrder K] [IsStrictOrderedRing K]

/-- C74: every recorded ray starts where its parent, which is in the previous bundle, meets a surface of the scene, and follows from its
parent by the law of that surface, with the normal the surface reports at that point. -/
theorem C74_law {a : SceneAsm σ K E} (law : SceneSurf σ K E → V3 K → HitRec K E → Ray K E → Prop)
    (hobj : ∀ o ∈ a.scene, o.ShapeOk)
    (hlen : ∀ o ∈ a.getObjects, ∀ s ∈ o.surfs, s.data.1.LengthOk)
    (hlaw : ∀ o ∈ a.getObjects, ∀ s ∈ o.surfs, Optics.Obeys s.data.2 (law s))
    (hnum : ∀ s, NumberFree (law s))
    {w : σ} {b : Bundle K E} {reps : Nat} {minE : K} {res : TraceResult σ K E}
    (h : rayTracer a.scene w b reps minE true = .ok res)
    {k : Nat} {lvl : Bundle K E} (hk : res.tree[k + 1]? = some lvl) {r : Ray K E} (hr : r ∈ lvl) :
    ∃ prev p, res.tree[k]? = some prev ∧ prev[r.parent]? = some p ∧
    ∃ o ∈ a.getObjects, ∃ s ∈ o.surfs, ∃ t : K, 0 < t ∧
      (∃ (rays : Bundle K E) (i : Nat), rays[i]? = some p ∧ (s.data.1.find s.temp rays)[i]? = some (t : WithTop K)) ∧
      r.vertex = p.at t ∧
      law s s.temp.rot.c3 ⟨r.parent, p, p.at t, s.data.1.normal s.temp (p.at t) p.dir⟩ r := by
  have hlen' : AllSurfs Surf.LengthOk a.scene := by
    intro o ho s hs
    obtain ⟨q, hq, rfl⟩ := List.mem_map.1 ho
    obtain ⟨p, hp, rfl⟩ := List.mem_map.1 hs
    exact mkSurf_lengthOk (hlen q hq p hp) _ _
  have hpar : AllSurfs Surf.ParentsOk a.scene := by
    intro o ho s hs
    obtain ⟨q, hq, rfl⟩ := List.mem_map.1 ho
    obtain ⟨p, hp, rfl⟩ := List.mem_map.1 hs
    intro w rays sel out w' hout r hr
    obtain ⟨recs, h1, h2⟩ := mkSurf_ok hout
    obtain ⟨x, hx, hxi, _⟩ := hlaw q hq p hp _ _ _ _ _ h2 r hr
    rw [hxi, ← (hitRecs_ok h1).1]
    exact List.mem_map_of_mem hx
  obtain ⟨st, st', gen, steps, prev, _, _, hsh, hi, _, hprev, h0, h1⟩ := tree_level hobj h hk
  have hmem : r ∈ gen := by
    have hf := iterate_ok hsh hi
    rw [hf.recorded, hf.strong] at hr
    rcases List.mem_append.1 hr with hr | hr <;> exact (List.mem_filter.1 hr).1
  obtain ⟨kk, s, p, hc⟩ := generated_child hsh hlen' hpar hi hmem
  have hpp : prev[r.parent]? = some p := by
    cases k with
    | zero => rw [(h0 rfl).1, ← (h0 rfl).2]; exact hc.parent
    | succ k =>
      obtain ⟨weak, hw, _, _⟩ := h1 (by omega)
      rw [hw, List.getElem?_append_left (List.getElem?_eq_some_iff.1 hc.parent).1]
      exact hc.parent
  refine ⟨prev, p, hprev, hpp, ?_⟩
  obtain ⟨w1, w2, rays, raw, sel, r0, t, hout, _, hr0, hr0s, hreq, hp0, hreg, hall, _, _, _⟩ := hc.raw
  obtain ⟨o', ho', hs'⟩ := List.mem_flatMap.1 (List.mem_of_getElem? hc.surf)
  obtain ⟨o, ho, rfl⟩ := List.mem_map.1 ho'
  obtain ⟨s, hs, rfl⟩ := List.mem_map.1 hs'
  obtain ⟨recs, hrecs, hopt⟩ := mkSurf_ok hout
  obtain ⟨x, hx, hxi, hxv, hxl⟩ := hlaw o ho s hs _ _ _ _ _ hopt r0 hr0
  obtain ⟨hx1, t', ht', hpt, hn⟩ := (hitRecs_ok hrecs).2 x hx
  rw [← hxi, hp0] at hx1
  have hxp : p = x.ray := Option.some.inj hx1
  have htt : t' = t := by
    have hreg' : (s.data.1.find s.temp rays)[r0.parent]? = some (t : WithTop K) := hreg
    rw [hxi, ht'] at hreg'
    simpa using hreg'
  subst htt
  have hpos : 0 < t' := by
    obtain ⟨t2, ht2, hlt⟩ := hall _ hr0s
    have : t2 = t' := by
      have := ht2.symm.trans hreg
      simpa using this
    rw [← this]
    exact selfTol_pos.trans hlt
  refine ⟨o, ho, s, hs, t', hpos, ⟨rays, r0.parent, hp0, hreg⟩, ?_, ?_⟩
  · rw [hreq]
    show r0.vertex = _
    rw [hxv, hpt, hxp]
  · have hx' : ({ x with idx := r.parent } : HitRec K E) =
        ⟨r.parent, p, p.at t', s.data.1.normal s.temp (p.at t') p.dir⟩ := by
      rw [hn, hpt, ← hxp]
    have := hnum s _ _ _ r.parent r.parent hxl
    rw [hx', ← hreq] at this
    exact this

/-- C74: a property of rays that every surface's law carries over from a ray to its children holds in the whole tree if it holds in the
source. -/
theorem C74_invariant {a : SceneAsm σ K E} (law : SceneSurf σ K E → V3 K → HitRec K E → Ray K E → Prop)
    (hobj : ∀ o ∈ a.scene, o.ShapeOk)
    (hlen : ∀ o ∈ a.getObjects, ∀ s ∈ o.surfs, s.data.1.LengthOk)
    (hlaw : ∀ o ∈ a.getObjects, ∀ s ∈ o.surfs, Optics.Obeys s.data.2 (law s))
    (hnum : ∀ s, NumberFree (law s))
    {Q : Ray K E → Prop} (hunit : ∀ r, Q r → r.dir.IsUnit)
    (hnormal : ∀ o ∈ a.getObjects, ∀ s ∈ o.surfs, s.data.1.UnitNormals s.temp)
    (hcarry : ∀ o ∈ a.getObjects, ∀ s ∈ o.surfs, Carries (law s) Q)
    {w : σ} {b : Bundle K E} (hb : ∀ r ∈ b, Q r) {reps : Nat} {minE : K} {res : TraceResult σ K E}
    (h : rayTracer a.scene w b reps minE true = .ok res) :
    ∀ lvl ∈ res.tree, ∀ r ∈ lvl, Q r := by
  have key : ∀ (k : Nat) (lvl : Bundle K E), res.tree[k]? = some lvl → ∀ r ∈ lvl, Q r := by
    intro k
    induction k with
    | zero =>
      intro lvl hk r hr
      have h0 : res.tree[0]? = some b := by
        obtain ⟨_, steps, stf, _, _, htree, _⟩ := rayTracer_run h
        rw [htree]; rfl
      rw [h0] at hk; cases hk
      exact hb r hr
    | succ k ih =>
      intro lvl hk r hr
      obtain ⟨prev, p, hprev, hp, o, ho, s, hs, t, _, ⟨rays, i, hi, ht⟩, _, hl⟩ :=
        C74_law law hobj hlen hlaw hnum h hk hr
      have hQ : Q p := ih prev hprev p (List.mem_of_getElem? hp)
      exact hcarry o ho s hs _ _ _ hl (hnormal o ho s hs rays i p t hi (hunit p hQ) ht) hQ
  intro lvl hl r hr
  obtain ⟨k, hk⟩ := List.mem_iff_getElem?.1 hl
  exact key k lvl hk r hr

/-! ## The laws of the package's callables -/

/-- C74: mirrors. -/
theorem C74_reflective (c : K) : Optics.Obeys (reflective c : Optics σ K E) (MirrorLaw c) := by
  intro w up hits out w' h r hr
  simp only [reflective, Except.ok.injEq, Prod.mk.injEq] at h
  rw [← h.1] at hr
  obtain ⟨q, hq, rfl⟩ := List.mem_map.1 hr
  exact ⟨q, hq, rfl, rfl, fun hn => C44_mirrored hn _, rfl, rfl, rfl⟩

/-- C74: one-sided mirrors. -/
theorem C74_one_sided (c : K) : Optics.Obeys (absorberReflector c : Optics σ K E) (OneSidedLaw c) := by
  intro w up hits out w' h r hr
  simp only [absorberReflector, Except.ok.injEq, Prod.mk.injEq] at h
  rw [← h.1] at hr
  obtain ⟨q, hq, rfl⟩ := List.mem_map.1 hr
  refine ⟨q, hq, ?_⟩
  by_cases hs : 0 < V3.dot q.ray.dir up
  · simp only [if_pos hs]
    exact ⟨rfl, rfl, fun hn => C44_mirrored hn _, fun hb => absurd hs (not_lt.2 hb), fun _ => rfl, rfl, rfl⟩
  · simp only [if_neg hs]
    exact ⟨rfl, rfl, fun hn => C44_mirrored hn _, fun _ => rfl, fun hf => absurd hf hs, rfl, rfl⟩

/-- C74: receivers send on rays by the law of the callable they observe. -/
theorem C74_receiver {opt : Optics σ K E} {law : V3 K → HitRec K E → Ray K E → Prop} (ho : Optics.Obeys opt law)
    (c : K) (get : σ → Account K) (set : Account K → σ → σ) : Optics.Obeys (accountant c get set opt) law :=
  fun _ up hits out w' h => ho _ up hits out w' h

theorem mirrorLaw_numberFree (c : K) : NumberFree (MirrorLaw c : V3 K → HitRec K E → Ray K E → Prop) :=
  fun _ _ _ _ _ h => ⟨h.dir, h.energy, h.ref, h.extra⟩

theorem oneSidedLaw_numberFree (c : K) : NumberFree (OneSidedLaw c : V3 K → HitRec K E → Ray K E → Prop) :=
  fun _ _ _ _ _ h => ⟨h.dir, h.front, h.back, h.ref, h.extra⟩

theorem mirrored_unit {d m e : V3 K} (hm : m.IsUnit) (hd : d.IsUnit) (h : Mirrored d m e) : e.IsUnit := by
  have : e = reflection d m := C44_unique hm h (C44_mirrored hm d)
  rw [this]
  unfold V3.IsUnit
  rw [C44_isometry hm]
  exact hd

/-- C74: the laws keep directions unit vectors and keep the user-defined properties. -/
theorem C74_mirror_carries (c : K) (Q : E → Prop) :
    Carries (MirrorLaw c : V3 K → HitRec K E → Ray K E → Prop) (fun r => r.dir.IsUnit ∧ Q r.extra) ∧
    Carries (OneSidedLaw c : V3 K → HitRec K E → Ray K E → Prop) (fun r => r.dir.IsUnit ∧ Q r.extra) := by
  constructor
  · intro up h r hl hn hq
    exact ⟨mirrored_unit hn hq.1 (hl.dir hn), by rw [hl.extra]; exact hq.2⟩
  · intro up h r hl hn hq
    exact ⟨mirrored_unit hn hq.1 (hl.dir hn), by rw [hl.extra]; exact hq.2⟩

/-! ## Normals of flat surfaces -/

theorem rigid_c3 {frame : Tf K} (hf : frame.Rigid) : frame.rot.c3.IsUnit := by
  have := M3.IsRotation.dot hf (⟨0, 0, 1⟩ : V3 K) ⟨0, 0, 1⟩
  have e : frame.rot.mulVec (⟨0, 0, 1⟩ : V3 K) = frame.rot.c3 := by
    apply V3.ext <;> simp [M3.mulVec_x, M3.mulVec_y, M3.mulVec_z]
  rw [e] at this
  unfold V3.IsUnit
  rw [this]
  simp [V3.dot]

/-- C74: flat surfaces report unit normals. -/
theorem C74_flat {frame : Tf K} (hf : frame.Rigid) (outside : Tf K → V3 K → Bool) :
    (flatGM : Geometry K E).UnitNormals frame ∧ (finiteFlatGM outside : Geometry K E).UnitNormals frame := by
  have key : ∀ p d : V3 K, (flatNormal frame p d).IsUnit := by
    intro p d
    unfold flatNormal
    split
    · have := rigid_c3 hf
      unfold V3.IsUnit V3.dot at *
      simpa using this
    · exact rigid_c3 hf
  exact ⟨fun _ _ r t _ _ _ => key (r.at t) r.dir, fun _ _ r t _ _ _ => key (r.at t) r.dir⟩

end

section
variable {E σ : Type _}

/-! ## Refraction and diffuse reflection -/

/-- C74: refracting surfaces. -/
theorem C74_refractive {a b : ℝ} (ha : 0 < a) (hb : 0 < b) :
    Optics.Obeys (refractiveHomogenous a b : Optics σ ℝ E) (RefractionLaw a b) := by
  intro w up hits out w' h r hr
  obtain ⟨_, href, _, _, hout⟩ := refractive_ok h
  rw [hout] at hr
  rcases List.mem_append.1 hr with hr | hr
  · obtain ⟨q, hq, rfl⟩ := List.mem_map.1 hr
    exact ⟨q, hq, rfl, rfl, fun hn _ _ => Or.inl ⟨C44_mirrored hn _, rfl⟩, rfl⟩
  · obtain ⟨q, hq', rfl⟩ := List.mem_map.1 hr
    obtain ⟨hq, hrefr⟩ := List.mem_filter.1 hq'
    refine ⟨q, hq, rfl, rfl, fun hn hd hm => Or.inr ?_, rfl⟩
    have hp : ProperHit a b q := ⟨hd, hn, hm⟩
    obtain ⟨p1, p2⟩ := hp.pos ha hb
    have hs := C45_snell p1 p2 hd hn hrefr
    have hi := hp.otherSide
    rcases hi.2 with ⟨e1, e2⟩ | ⟨e1, e2⟩
    · left
      rw [e1, e2] at hs
      refine ⟨by rw [hi.1, e1], ?_, ?_⟩
      · show some (idxOut a b q) = some b
        rw [e2]
      · show Snell a b q.ray.dir q.normal (refractOne (idxIn q) (idxOut a b q) q.ray.dir q.normal)
        rw [e1, e2]; exact hs
    · right
      rw [e1, e2] at hs
      refine ⟨by rw [hi.1, e1], ?_, ?_⟩
      · show some (idxOut a b q) = some a
        rw [e2]
      · show Snell b a q.ray.dir q.normal (refractOne (idxIn q) (idxOut a b q) q.ray.dir q.normal)
        rw [e1, e2]; exact hs

theorem refractionLaw_numberFree (a b : ℝ) : NumberFree (RefractionLaw a b : V3 ℝ → HitRec ℝ E → Ray ℝ E → Prop) :=
  fun _ _ _ _ _ h => ⟨h.dir, h.extra⟩

theorem diffuseLaw_numberFree (c : ℝ) : NumberFree (DiffuseLaw c : V3 ℝ → HitRec ℝ E → Ray ℝ E → Prop) :=
  fun _ _ _ _ _ h => ⟨h.dir, h.energy, h.ref, h.extra⟩

/-- C74: a refracting surface keeps rays of unit direction that are in one of its two media in such a state; mirrors and
diffuse reflectors keep the medium. -/
theorem C74_refraction_carries (a b : ℝ) (c : ℝ) :
    Carries (RefractionLaw a b : V3 ℝ → HitRec ℝ E → Ray ℝ E → Prop)
      (fun r => r.dir.IsUnit ∧ (r.ref = some a ∨ r.ref = some b)) ∧
    Carries (MirrorLaw c : V3 ℝ → HitRec ℝ E → Ray ℝ E → Prop)
      (fun r => r.dir.IsUnit ∧ (r.ref = some a ∨ r.ref = some b)) ∧
    Carries (OneSidedLaw c : V3 ℝ → HitRec ℝ E → Ray ℝ E → Prop)
      (fun r => r.dir.IsUnit ∧ (r.ref = some a ∨ r.ref = some b)) ∧
    Carries (DiffuseLaw c : V3 ℝ → HitRec ℝ E → Ray ℝ E → Prop)
      (fun r => r.dir.IsUnit ∧ (r.ref = some a ∨ r.ref = some b)) := by
  refine ⟨?_, ?_, ?_, ?_⟩
  · intro up h r hl hn hq
    rcases hl.dir hn hq.1 hq.2 with ⟨h1, h2⟩ | ⟨_, h2, h3⟩ | ⟨_, h2, h3⟩
    · exact ⟨mirrored_unit hn hq.1 h1, by rw [h2]; exact hq.2⟩
    · exact ⟨h3.unit, Or.inr h2⟩
    · exact ⟨h3.unit, Or.inl h2⟩
  · intro up h r hl hn hq
    exact ⟨mirrored_unit hn hq.1 (hl.dir hn), by rw [hl.ref]; exact hq.2⟩
  · intro up h r hl hn hq
    exact ⟨mirrored_unit hn hq.1 (hl.dir hn), by rw [hl.ref]; exact hq.2⟩
  · intro up h r hl hn hq
    exact ⟨(hl.dir hn).1, by rw [hl.ref]; exact hq.2⟩

/-! ## Normals of quadrics -/

theorem scatter_root (cs : List (Option Cand)) (sel : List (Option Bool)) (hl : sel.length = (cs.filterMap id).length)
    (i : Nat) (t : ℝ)
    (h : (Np.scatter (Np.scatter (cs.map Option.isSome) (sel.map Option.isSome) (cs.map Option.isSome))
      ((List.zipWith Cand.choose (sel.filterMap id) (Np.mask (sel.map Option.isSome) (cs.filterMap id))).map
        fun t : ℝ => (t : WithTop ℝ)) (List.replicate cs.length ⊤))[i]? = some (t : WithTop ℝ)) :
    ∃ c b, cs[i]? = some (some c) ∧ t = Cand.choose b c := by
  induction cs generalizing sel i with
  | nil => simp at h
  | cons c cs ih =>
    cases c with
    | none =>
      simp only [List.filterMap_cons, id] at hl h
      simp only [List.map_cons, Option.isSome_none, List.length_cons, List.replicate_succ] at h
      cases i with
      | zero => simp [Np.scatter] at h
      | succ i =>
        simp only [Np.scatter, List.getElem?_cons_succ] at h ⊢
        exact ih sel hl i h
    | some c =>
      simp only [List.filterMap_cons, id, List.length_cons] at hl
      cases sel with
      | nil => simp at hl
      | cons s sel =>
        simp only [List.length_cons, Nat.add_right_cancel_iff] at hl
        cases s with
        | none =>
          simp only [List.filterMap_cons, id, List.map_cons, Option.isSome_some, Option.isSome_none, List.length_cons,
            List.replicate_succ, Np.scatter, Np.mask] at h
          cases i with
          | zero => simp at h
          | succ i =>
            simp only [List.getElem?_cons_succ] at h ⊢
            exact ih sel hl i h
        | some b =>
          simp only [List.filterMap_cons, id, List.map_cons, Option.isSome_some, List.length_cons,
            List.replicate_succ, Np.scatter, Np.mask, List.zipWith_cons_cons] at h
          cases i with
          | zero =>
            simp only [List.getElem?_cons_zero, Option.some.injEq, WithTop.coe_inj] at h
            exact ⟨c, b, rfl, h.symm⟩
          | succ i =>
            simp only [List.getElem?_cons_succ] at h ⊢
            exact ih sel hl i h

/-- Whatever a quadric answers is one of the two solutions. -/
theorem quadricFind_root {abc : V3 ℝ → V3 ℝ → ℝ × ℝ × ℝ} {select : List Cand → List (Option Bool)}
    (hsel : ∀ l, (select l).length = l.length) {rays : Bundle ℝ E} {i : Nat} {r : Ray ℝ E} {t : ℝ}
    (hr : rays[i]? = some r) (h : (quadricFind abc select rays)[i]? = some (t : WithTop ℝ)) :
    ∃ c, candidate (abc r.vertex r.dir) r.vertex r.dir = some c ∧ (t = c.t0 ∨ t = c.t1) := by
  unfold quadricFind at h
  have hlen : rays.length = (rays.map fun r => candidate (abc r.vertex r.dir) r.vertex r.dir).length := by simp
  rw [hlen] at h
  obtain ⟨c, b, h1, h2⟩ := scatter_root _ _ (hsel _) i t h
  rw [List.getElem?_map, hr] at h1
  refine ⟨c, by simpa using h1, ?_⟩
  rw [h2]
  unfold Cand.choose
  cases b <;> simp

theorem sphere_unit {frame : Tf ℝ} (hf : frame.Rigid) {R : ℝ} (hR : 0 < R) {select : List Cand → List (Option Bool)}
    (hsel : ∀ l, (select l).length = l.length) {rays : Bundle ℝ E} {i : Nat} {r : Ray ℝ E} {t : ℝ}
    (hr : rays[i]? = some r) (hu : r.dir.IsUnit)
    (h : (quadricFind (sphereABC R frame) select rays)[i]? = some (t : WithTop ℝ)) :
    (sphereNormal frame (r.at t) r.dir).IsUnit := by
  obtain ⟨c, hc, ht⟩ := quadricFind_root hsel hr h
  obtain ⟨_, h0, h1, hS0, hS1⟩ := candidate_sphere hf hu hc
  have hp : Placed frame (sphereSet R) (r.at t) := by
    unfold Ray.at
    rcases ht with rfl | rfl
    · rw [← h0]; exact hS0
    · rw [← h1]; exact hS1
  exact (C40_sphere hf hR hp r.dir).1.unit

theorem cylinderNormal_unit {frame : Tf ℝ} (hf : frame.Rigid) {p d : V3 ℝ}
    (hoff : 0 < (frame.inv.point p).x ^ 2 + (frame.inv.point p).y ^ 2) : (cylinderNormal frame p d).IsUnit := by
  unfold cylinderNormal V3.IsUnit
  simp only
  generalize frame.inv.point p = q at *
  have hs : 0 < √(q.x ^ 2 + q.y ^ 2) := Real.sqrt_pos.2 hoff
  have hsq := Real.sq_sqrt hoff.le
  rw [M3.IsRotation.dot hf]
  generalize √(q.x ^ 2 + q.y ^ 2) = s at *
  have hu : V3.dot (⟨q.x / s, q.y / s, 0 / s⟩ : V3 ℝ) ⟨q.x / s, q.y / s, 0 / s⟩ = 1 := by
    unfold V3.dot
    field_simp
    linarith
  split
  · unfold V3.dot at hu ⊢
    simp only [V3.smul_x, V3.smul_y, V3.smul_z]
    linarith
  · exact hu

theorem cylinder_unit {frame : Tf ℝ} (hf : frame.Rigid) {R : ℝ} (hR : 0 < R) {select : List Cand → List (Option Bool)}
    (hsel : ∀ l, (select l).length = l.length) {rays : Bundle ℝ E} {i : Nat} {r : Ray ℝ E} {t : ℝ}
    (hr : rays[i]? = some r)
    (h : (quadricFind (cylinderABC R frame) select rays)[i]? = some (t : WithTop ℝ)) :
    (cylinderNormal frame (r.at t) r.dir).IsUnit := by
  obtain ⟨c, hc, ht⟩ := quadricFind_root hsel hr h
  -- the hit is not on the axis
  have hroot : (cylinderABC R frame r.vertex r.dir).1 * t ^ 2 + (cylinderABC R frame r.vertex r.dir).2.1 * t +
      (cylinderABC R frame r.vertex r.dir).2.2 ≥ 0 := by
    have hA0 : 0 ≤ (cylinderABC R frame r.vertex r.dir).1 := by unfold cylinderABC; positivity
    generalize cylinderABC R frame r.vertex r.dir = abc at hc hA0
    unfold candidate at hc
    simp only at hc
    split at hc
    · rename_i hd
      split at hc
      · split at hc
        · cases hc
        · rename_i hB
          cases hc
          have : t = -abc.2.2 / abc.2.1 := by rcases ht with h | h <;> exact h
          have h2 : abc.2.1 * t + abc.2.2 = 0 := by rw [this]; field_simp; ring
          nlinarith [mul_nonneg hA0 (sq_nonneg t)]
      · rename_i hA
        cases hc
        have hA' : 0 < abc.1 := lt_trans planarTol_pos (not_le.1 hA)
        have := (quadratic_roots hA' hd).2 t
        exact (this.2 ht).ge
    · cases hc
  have hoff : 0 < (frame.inv.point (r.at t)).x ^ 2 + (frame.inv.point (r.at t)).y ^ 2 := by
    unfold Ray.at
    rw [local_at hf]
    unfold cylinderABC at hroot
    simp only [V3.add_x, V3.add_y, V3.smul_x, V3.smul_y] at hroot ⊢
    nlinarith [sq_pos_of_pos hR]
  exact cylinderNormal_unit hf hoff

theorem paraboloid_unit {frame : Tf ℝ} (hf : frame.Rigid) (a b : ℝ) (p d : V3 ℝ) : (paraboloidNormal a b frame p d).IsUnit := by
  unfold paraboloidNormal
  simp only
  unfold V3.IsUnit
  rw [M3.IsRotation.dot hf]
  generalize 2 * (frame.inv.point p).x * a = x
  generalize 2 * (frame.inv.point p).y * b = y
  have h0 : (0 : ℝ) < (-x) ^ 2 + (-y) ^ 2 + 1 ^ 2 := by positivity
  have hs : 0 < √((-x) ^ 2 + (-y) ^ 2 + 1 ^ 2) := Real.sqrt_pos.2 h0
  have hsq := Real.sq_sqrt h0.le
  generalize √((-x) ^ 2 + (-y) ^ 2 + 1 ^ 2) = s at *
  have hu : V3.dot ((1 / s) • (⟨-x, -y, 1⟩ : V3 ℝ)) ((1 / s) • ⟨-x, -y, 1⟩) = 1 := by
    unfold V3.dot
    simp only [V3.smul_x, V3.smul_y, V3.smul_z]
    field_simp
    linarith
  split
  · unfold V3.dot at hu ⊢
    simp only [V3.smul_x, V3.smul_y, V3.smul_z] at hu ⊢
    linarith
  · exact hu

/-- C74: all quadric surfaces report unit normals, also the hemisphere and the cut sphere, and also for the rays almost parallel to the
axis of a cylinder or paraboloid that are answered inexactly. -/
theorem C74_quadrics {frame : Tf ℝ} (hf : frame.Rigid) {R : ℝ} {bound : Option (Tf ℝ → V3 ℝ → Bool)}
    {diameter height a b focal : ℝ} (hD : 0 < diameter) :
    (∀ g : Geometry ℝ E, sphereGM R = .ok g → g.UnitNormals frame) ∧
    (∀ g : Geometry ℝ E, hemisphereGM R = .ok g → g.UnitNormals frame) ∧
    (∀ g : Geometry ℝ E, cutSphereGM R bound = .ok g → g.UnitNormals frame) ∧
    (paraboloidGM a b : Geometry ℝ E).UnitNormals frame ∧ (parabolicDishGM diameter focal : Geometry ℝ E).UnitNormals frame ∧
    (hexagonalDishGM diameter focal : Geometry ℝ E).UnitNormals frame ∧
    (infiniteCylinderGM diameter : Geometry ℝ E).UnitNormals frame ∧
    (finiteCylinderGM diameter height : Geometry ℝ E).UnitNormals frame := by
  refine ⟨?_, ?_, ?_, ?_, ?_, ?_, ?_, ?_⟩
  · intro g hg
    unfold sphereGM at hg
    split at hg
    · cases hg
    · rename_i R' hR
      obtain ⟨rfl, hpos⟩ := setRadius_ok hR
      cases hg
      exact fun rays i r t hr hu ht => sphere_unit hf hpos defaultSelect_length hr hu ht
  · intro g hg
    unfold hemisphereGM at hg
    split at hg
    · cases hg
    · rename_i R' hR
      obtain ⟨rfl, hpos⟩ := setRadius_ok hR
      cases hg
      exact fun rays i r t hr hu ht => sphere_unit hf hpos (trimSelect_length _ _) hr hu ht
  · intro g hg
    unfold cutSphereGM at hg
    split at hg
    · cases hg
    · rename_i R' hR
      obtain ⟨rfl, hpos⟩ := setRadius_ok hR
      cases hg
      cases bound with
      | none => exact fun rays i r t hr hu ht => sphere_unit hf hpos defaultSelect_length hr hu ht
      | some bd => exact fun rays i r t hr hu ht => sphere_unit hf hpos (trimSelect_length _ _) hr hu ht
  · exact fun rays i r t _ _ _ => paraboloid_unit hf _ _ (r.at t) r.dir
  · exact fun rays i r t _ _ _ => paraboloid_unit hf _ _ (r.at t) r.dir
  · exact fun rays i r t _ _ _ => paraboloid_unit hf _ _ (r.at t) r.dir
  · exact fun rays i r t hr _ ht => cylinder_unit hf (by linarith) defaultSelect_length hr ht
  · exact fun rays i r t hr _ ht => cylinder_unit hf (by linarith) (cylinderSelect_length _ _) hr ht

theorem mem_zipWith' {α β γ : Type _} {f : α → β → γ} {l : List α} {m : List β} {c : γ} (h : c ∈ List.zipWith f l m) :
    ∃ a ∈ l, ∃ b ∈ m, c = f a b := by
  induction l generalizing m with
  | nil => simp at h
  | cons a l ih =>
    cases m with
    | nil => simp at h
    | cons b m =>
      rw [List.zipWith_cons_cons] at h
      rcases List.mem_cons.1 h with rfl | h
      · exact ⟨a, List.mem_cons_self .., b, List.mem_cons_self .., rfl⟩
      · obtain ⟨x, hx, y, hy, he⟩ := ih h
        exact ⟨x, List.mem_cons_of_mem _ hx, y, List.mem_cons_of_mem _ hy, he⟩

/-- C74: diffuse reflectors. -/
theorem C74_lambertian {c : ℝ} {draw : Nat → σ → List (ℝ × ℝ) × σ} (hd : FairDraw draw) :
    Optics.Obeys (lambertian c draw : Optics σ ℝ E) (DiffuseLaw c) := by
  intro w up hits out w' h r hr
  simp only [lambertian, Except.ok.injEq, Prod.mk.injEq] at h
  obtain ⟨_, hrange⟩ := hd hits.length w
  rw [← h.1] at hr
  obtain ⟨q, hq, v, hv, rfl⟩ := mem_zipWith' hr
  unfold pillbox at hv
  obtain ⟨d, hdm, rfl⟩ := List.mem_map.1 hv
  obtain ⟨p1, p2⟩ := hrange d hdm
  obtain ⟨u1, u2⟩ := pillbox_half (x1 := d.1) p1 p2
  refine ⟨q, hq, rfl, rfl, fun hn => ?_, rfl, rfl, rfl⟩
  obtain ⟨r1, r2, _⟩ := C27_rotation_to_z hn
  generalize pillboxOne (Real.pi / 2) d.1 d.2 = v at *
  constructor
  · unfold V3.IsUnit at *
    rw [r1.dot]; exact u1
  · have : V3.dot ((rotationToZ q.normal).mulVec v) q.normal = v.z := by
      have e : q.normal = (rotationToZ q.normal).mulVec ⟨0, 0, 1⟩ := by
        conv_lhs => rw [← r2]
        apply V3.ext <;> simp
      calc V3.dot ((rotationToZ q.normal).mulVec v) q.normal
          = V3.dot ((rotationToZ q.normal).mulVec v) ((rotationToZ q.normal).mulVec ⟨0, 0, 1⟩) := by rw [← e]
        _ = v.z := by rw [r1.dot]; simp [V3.dot]
    rw [this]; exact u2

/-- C74 in particular: in a scene of rigidly placed mirrors, receivers, refracting and diffuse surfaces of any of the geometries, all
recorded rays have unit directions and are in one of the two media, if the source rays are so. -/
theorem C74_unit {a : SceneAsm σ ℝ E} {n1 n2 : ℝ}
    (hobj : ∀ o ∈ a.scene, o.ShapeOk)
    (hlen : ∀ o ∈ a.getObjects, ∀ s ∈ o.surfs, s.data.1.LengthOk)
    (hnormal : ∀ o ∈ a.getObjects, ∀ s ∈ o.surfs, s.data.1.UnitNormals s.temp)
    (hopt : ∀ o ∈ a.getObjects, ∀ s ∈ o.surfs,
      (∃ c, Optics.Obeys s.data.2 (MirrorLaw c)) ∨ (∃ c, Optics.Obeys s.data.2 (OneSidedLaw c)) ∨
      (∃ c, Optics.Obeys s.data.2 (DiffuseLaw c)) ∨ Optics.Obeys s.data.2 (RefractionLaw n1 n2))
    {w : σ} {b : Bundle ℝ E} (hb : ∀ r ∈ b, r.dir.IsUnit ∧ (r.ref = some n1 ∨ r.ref = some n2)) {reps : Nat} {minE : ℝ}
    {res : TraceResult σ ℝ E} (h : rayTracer a.scene w b reps minE true = .ok res) :
    ∀ lvl ∈ res.tree, ∀ r ∈ lvl, r.dir.IsUnit ∧ (r.ref = some n1 ∨ r.ref = some n2) := by
  let law : SceneSurf σ ℝ E → V3 ℝ → HitRec ℝ E → Ray ℝ E → Prop := fun _ up h r =>
    (∃ c, MirrorLaw c up h r) ∨ (∃ c, OneSidedLaw c up h r) ∨ (∃ c, DiffuseLaw c up h r) ∨ RefractionLaw n1 n2 up h r
  refine C74_invariant law hobj hlen ?_ ?_ (fun _ hq => hq.1) hnormal ?_ hb h
  · intro o ho s hs w up hits out w' hok r hr
    rcases hopt o ho s hs with ⟨c, hc⟩ | ⟨c, hc⟩ | ⟨c, hc⟩ | hc
    · obtain ⟨q, hq, h1, h2, h3⟩ := hc w up hits out w' hok r hr
      exact ⟨q, hq, h1, h2, Or.inl ⟨c, h3⟩⟩
    · obtain ⟨q, hq, h1, h2, h3⟩ := hc w up hits out w' hok r hr
      exact ⟨q, hq, h1, h2, Or.inr (Or.inl ⟨c, h3⟩)⟩
    · obtain ⟨q, hq, h1, h2, h3⟩ := hc w up hits out w' hok r hr
      exact ⟨q, hq, h1, h2, Or.inr (Or.inr (Or.inl ⟨c, h3⟩))⟩
    · obtain ⟨q, hq, h1, h2, h3⟩ := hc w up hits out w' hok r hr
      exact ⟨q, hq, h1, h2, Or.inr (Or.inr (Or.inr h3))⟩
  · rintro s up q r i j (⟨c, hc⟩ | ⟨c, hc⟩ | ⟨c, hc⟩ | hc)
    · exact Or.inl ⟨c, mirrorLaw_numberFree c _ _ _ _ _ hc⟩
    · exact Or.inr (Or.inl ⟨c, oneSidedLaw_numberFree c _ _ _ _ _ hc⟩)
    · exact Or.inr (Or.inr (Or.inl ⟨c, diffuseLaw_numberFree c _ _ _ _ _ hc⟩))
    · exact Or.inr (Or.inr (Or.inr (refractionLaw_numberFree n1 n2 _ _ _ _ _ hc)))
  · rintro o ho s hs up q r (⟨c, hc⟩ | ⟨c, hc⟩ | ⟨c, hc⟩ | hc) hn hQ
    · exact (C74_refraction_carries n1 n2 c).2.1 up q r hc hn hQ
    · exact (C74_refraction_carries n1 n2 c).2.2.1 up q r hc hn hQ
    · exact (C74_refraction_carries n1 n2 c).2.2.2 up q r hc hn hQ
    · exact (C74_refraction_carries n1 n2 0).1 up q r hc hn hQ

end

/-- A mirror in the plane Z = 0 and a glass surface in the plane Z = 2. -/
noncomputable def glassAndMirror : SceneAsm Unit ℝ Unit :=
  Asm.new
    [ObjNode.new [Surface.new flatGM (reflective (1 / 4)) 1] 1 (Obj.defaultOwn, Obj.defaultNext 1),
      ObjNode.new [Surface.new flatGM (refractiveHomogenous 1 (3 / 2)) 1] ⟨1, ⟨0, 0, 2⟩⟩ (Obj.defaultOwn, Obj.defaultNext 1)]
    [] 0 1 1

/-- C74 applies to a mirror under a glass surface. -/
example {reps : Nat} {minE : ℝ} {res : TraceResult Unit ℝ Unit}
    (h : rayTracer glassAndMirror.scene () [⟨⟨0, 0, 1⟩, ⟨0, 3 / 5, -4 / 5⟩, 1, 0, some 1, ()⟩] reps minE true = .ok res) :
    ∀ lvl ∈ res.tree, ∀ r ∈ lvl, r.dir.IsUnit ∧ (r.ref = some 1 ∨ r.ref = some (3 / 2)) := by
  have hR : ∀ v : V3 ℝ, (⟨1, v⟩ : Tf ℝ).Rigid := fun _ => Tf.Rigid.one
  refine C74_unit ?_ ?_ ?_ ?_ ?_ h
  · exact List.forall_mem_cons.2 ⟨Obj.Default.shapeOk ⟨rfl, rfl⟩, List.forall_mem_cons.2
      ⟨Obj.Default.shapeOk ⟨rfl, rfl⟩, List.forall_mem_nil _⟩⟩
  · exact List.forall_mem_cons.2 ⟨List.forall_mem_cons.2 ⟨flatGM_perRay.lengthOk, List.forall_mem_nil _⟩, List.forall_mem_cons.2
      ⟨List.forall_mem_cons.2 ⟨flatGM_perRay.lengthOk, List.forall_mem_nil _⟩, List.forall_mem_nil _⟩⟩
  · refine List.forall_mem_cons.2 ⟨List.forall_mem_cons.2 ⟨(C74_flat ?_ (fun _ _ => false)).1, List.forall_mem_nil _⟩,
      List.forall_mem_cons.2 ⟨List.forall_mem_cons.2 ⟨(C74_flat ?_ (fun _ _ => false)).1, List.forall_mem_nil _⟩,
        List.forall_mem_nil _⟩⟩
    · exact .mul (.mul (.mul .one (hR _)) (hR 0)) (hR 0)
    · exact .mul (.mul (.mul .one (hR _)) (hR ⟨0, 0, 2⟩)) (hR 0)
  · exact List.forall_mem_cons.2 ⟨List.forall_mem_cons.2 ⟨.inl ⟨_, C74_reflective _⟩, List.forall_mem_nil _⟩, List.forall_mem_cons.2
      ⟨List.forall_mem_cons.2 ⟨.inr (.inr (.inr (C74_refractive (by norm_num) (by norm_num)))), List.forall_mem_nil _⟩, List.forall_mem_nil _⟩⟩
  · intro r hr
    rw [List.mem_singleton] at hr
    subst hr
    exact ⟨by norm_num [V3.IsUnit, V3.dot], Or.inl rfl⟩

/-- Of a single mirror the law gives the next ray: it is the mirror image, with three quarters of the energy. -/
example {a : SceneAsm Unit ℚ Unit} (ha : a = Asm.new
      [ObjNode.new [Surface.new flatGM (reflective (1 / 4)) 1] 1 (Obj.defaultOwn, Obj.defaultNext 1)] [] 0 1 1)
    {b : Bundle ℚ Unit} {reps : Nat} {minE : ℚ} {res : TraceResult Unit ℚ Unit}
    (h : rayTracer a.scene () b reps minE true = .ok res)
    {k : Nat} {lvl : Bundle ℚ Unit} (hk : res.tree[k + 1]? = some lvl) {r : Ray ℚ Unit} (hr : r ∈ lvl) :
    ∃ prev p, res.tree[k]? = some prev ∧ prev[r.parent]? = some p ∧ r.energy = 3 / 4 * p.energy := by
  subst ha
  have key := C74_law (fun _ => MirrorLaw (1 / 4))
    (List.forall_mem_cons.2 ⟨Obj.Default.shapeOk ⟨rfl, rfl⟩, List.forall_mem_nil _⟩)
    (List.forall_mem_cons.2 ⟨(List.forall_mem_cons (p := fun s : SceneSurf Unit ℚ Unit => s.data.1.LengthOk)).2
        ⟨flatGM_perRay.lengthOk, List.forall_mem_nil _⟩, List.forall_mem_nil _⟩)
    (List.forall_mem_cons.2 ⟨(List.forall_mem_cons (p := fun s : SceneSurf Unit ℚ Unit => Optics.Obeys s.data.2 (MirrorLaw (1 / 4)))).2
        ⟨C74_reflective (1 / 4), List.forall_mem_nil _⟩,
      List.forall_mem_nil _⟩)
    (fun _ => mirrorLaw_numberFree _) h hk hr
  obtain ⟨prev, p, h1, h2, _, _, _, _, _, _, _, _, hl⟩ := key
  refine ⟨prev, p, h1, h2, ?_⟩
  rw [hl.energy]
  ring

end Tracer
