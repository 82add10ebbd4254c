import Verif.Spec.Raises
import Verif.Lemmas.Raises
import Verif.Props.Progress
import Verif.Props.CutSphereExact

/-! # Exactly when a trace of a legal scene raises an exception (C75) -/

set_option linter.unusedSectionVars false

namespace Tracer

variable {E σ : Type _}

theorem far_not_near {frame : Tf ℝ} (h : frame.Rigid) {R : ℝ} {S : V3 ℝ → Prop} {v d : V3 ℝ} (hu : d.IsUnit)
    (hf : OnlyFar (Placed frame (sphereSet R)) S v d) : ¬ OnlyNear (Placed frame (sphereSet R)) S v d := by
  rintro ⟨u0, u1, hlt', h0', h1', hpos', hk', hno'⟩
  obtain ⟨t0, t1, hlt, h0, h1, hno, hpos, hk⟩ := hf
  have e1 := candidate_roots h hu hlt h0 h1
  have e2 := candidate_roots h hu hlt' h0' h1'
  rw [e1] at e2
  simp only [Option.some.injEq, Cand.mk.injEq] at e2
  obtain ⟨rfl, rfl, _⟩ := e2
  exact hno ⟨hpos', hk'⟩

theorem countP_or {α : Type _} (p q : α → Bool) (l : List α) (h : ∀ a ∈ l, ¬ (p a = true ∧ q a = true)) :
    l.countP (fun a => p a || q a) = l.countP p + l.countP q := by
  induction l with
  | nil => rfl
  | cons a l ih =>
    have := h a (List.mem_cons_self ..)
    rw [List.countP_cons, List.countP_cons, List.countP_cons, ih fun a ha => h a (List.mem_cons_of_mem _ ha)]
    cases hp : p a <;> cases hq : q a <;> simp_all <;> omega

theorem cut_behind {frame : Tf ℝ} (h : frame.Rigid) {R : ℝ} {test : V3 ℝ → Bool} {rays : Bundle ℝ E}
    (hu : ∀ r ∈ rays, r.dir.IsUnit) {S : V3 ℝ → Prop} (hS : ∀ p, Kept frame R test p ↔ S p) :
    (∃ p ∈ quadricFind (sphereABC R frame) (trimSelect nonzeroUT test) rays, p < ((-(1 / 10 ^ 16) : ℝ) : WithTop ℝ)) ↔
      Crossed (Placed frame (sphereSet R)) S rays := by
  classical
  have hcount : ∀ (i : Nat) (r : Ray ℝ E), rays[i]? = some r → OnlyFar (Placed frame (sphereSet R)) S r.vertex r.dir →
      ((rays.take i).countP (fun s => decide (OnlyFar (Placed frame (sphereSet R)) S s.vertex s.dir ∨
            OnlyNear (Placed frame (sphereSet R)) S s.vertex s.dir)) <
          rays.countP (fun s => decide (OnlyNear (Placed frame (sphereSet R)) S s.vertex s.dir)) ↔
        (rays.take i).countP (fun s => decide (OnlyFar (Placed frame (sphereSet R)) S s.vertex s.dir)) <
          (rays.drop (i + 1)).countP (fun s => decide (OnlyNear (Placed frame (sphereSet R)) S s.vertex s.dir))) := by
    intro i r hi hf
    have e1 : (rays.take i).countP (fun s => decide (OnlyFar (Placed frame (sphereSet R)) S s.vertex s.dir ∨
            OnlyNear (Placed frame (sphereSet R)) S s.vertex s.dir)) =
        (rays.take i).countP (fun s => decide (OnlyFar (Placed frame (sphereSet R)) S s.vertex s.dir)) +
        (rays.take i).countP (fun s => decide (OnlyNear (Placed frame (sphereSet R)) S s.vertex s.dir)) := by
      rw [← countP_or]
      · simp only [Bool.decide_or]
      · rintro s hs ⟨h1, h2⟩
        rw [decide_eq_true_eq] at h1 h2
        exact far_not_near h (hu s (List.mem_of_mem_take hs)) h1 h2
    obtain ⟨hil, hir⟩ := List.getElem?_eq_some_iff.1 hi
    have e2 : rays.countP (fun s => decide (OnlyNear (Placed frame (sphereSet R)) S s.vertex s.dir)) =
        (rays.take i).countP (fun s => decide (OnlyNear (Placed frame (sphereSet R)) S s.vertex s.dir)) +
        (rays.drop (i + 1)).countP (fun s => decide (OnlyNear (Placed frame (sphereSet R)) S s.vertex s.dir)) := by
      conv_lhs => rw [← List.take_append_drop i rays, List.drop_eq_getElem_cons hil, hir]
      rw [List.countP_append, List.countP_cons, if_neg]
      · simp
      · rw [decide_eq_true_eq]
        exact far_not_near h (hu r (List.mem_of_getElem? hi)) hf
    rw [e1, e2]
    omega
  constructor
  · rintro ⟨p, hp, hneg⟩
    obtain ⟨i, hi⟩ := List.getElem?_of_mem hp
    have hil : i < rays.length := by
      have := (List.getElem?_eq_some_iff.1 hi).1
      rwa [quadricFind_length] at this
    have hr : rays[i]? = some rays[i] := List.getElem?_eq_getElem hil
    generalize rays[i] = r at hr
    obtain ⟨q, hq, hq1, hq2⟩ := cut_exact h hu hS i r hr
    obtain rfl : p = q := Option.some.inj (hi.symm.trans hq)
    have hneg0 : ∀ t : ℝ, 0 < t → ¬ ((t : ℝ) : WithTop ℝ) < ((-(1 / 10 ^ 16) : ℝ) : WithTop ℝ) := by
      intro t ht hlt
      have : t < -(1 / 10 ^ 16) := by exact_mod_cast hlt
      norm_num at this
      linarith
    by_cases hf : OnlyFar (Placed frame (sphereSet R)) S r.vertex r.dir
    · obtain ⟨t0, t1, hlt, h0, h1, hno, hpos, hk⟩ := id hf
      have e := hq2 t0 t1 hlt h0 h1 (Or.inl hf)
      split at e
      · rename_i hc
        rw [e] at hneg
        exact ⟨i, r, t0, t1, hr, by exact_mod_cast hneg, hpos, h0, h1, hk, (hcount i r hr hf).1 hc⟩
      · rw [e] at hneg
        exact absurd hneg (hneg0 t1 hpos)
    · by_cases hn : OnlyNear (Placed frame (sphereSet R)) S r.vertex r.dir
      · obtain ⟨t0, t1, hlt, h0, h1, hpos, hk, hno⟩ := id hn
        have e := hq2 t0 t1 hlt h0 h1 (Or.inr hn)
        split at e
        · rw [e] at hneg
          exact absurd hneg (hneg0 t0 hpos)
        · rw [e] at hneg
          exact absurd hneg (hneg0 t1 (by linarith))
      · have := hq1 hf hn
        cases p with
        | top => simp at hneg
        | coe t => exact absurd hneg (hneg0 t this.1)
  · rintro ⟨i, r, t0, t1, hr, hneg, hpos, h0, h1, hk, hc⟩
    have hneg' : t0 < 0 := by
      have : (0 : ℝ) < 1 / 10 ^ 16 := by positivity
      linarith
    have hf : OnlyFar (Placed frame (sphereSet R)) S r.vertex r.dir :=
      ⟨t0, t1, by linarith, h0, h1, fun hx => by linarith [hx.1], hpos, hk⟩
    obtain ⟨q, hq, -, hq2⟩ := cut_exact h hu hS i r hr
    have e := hq2 t0 t1 (by linarith) h0 h1 (Or.inl hf)
    rw [if_pos ((hcount i r hr hf).2 hc)] at e
    exact ⟨q, List.mem_of_getElem? hq, by rw [e]; exact_mod_cast hneg⟩

/-- C75: a hemisphere reports an intersection behind a ray exactly for the crossed bundles. -/
theorem C75_hemisphere {frame : Tf ℝ} (h : frame.Rigid) {R : ℝ} {g : Geometry ℝ E} (hg : hemisphereGM R = .ok g)
    {rays : Bundle ℝ E} (hu : ∀ r ∈ rays, r.dir.IsUnit) :
    (∃ p ∈ g.find frame rays, p < ((-(1 / 10 ^ 16) : ℝ) : WithTop ℝ)) ↔
      Crossed (Placed frame (sphereSet R)) (Placed frame (hemisphereSet R)) rays := by
  unfold hemisphereGM at hg
  split at hg
  · simp at hg
  rename_i R' hR'
  obtain ⟨hRR, _⟩ := setRadius_ok hR'
  subst R'
  cases hg
  exact cut_behind h hu (kept_hemisphere h R)

/-- C75: the same for a sphere cut by a bounding volume. -/
theorem C75_cut_sphere {frame : Tf ℝ} (h : frame.Rigid) {R : ℝ} {b : Tf ℝ → V3 ℝ → Bool} {g : Geometry ℝ E}
    (hg : cutSphereGM R (some b) = .ok g) {rays : Bundle ℝ E} (hu : ∀ r ∈ rays, r.dir.IsUnit) :
    (∃ p ∈ g.find frame rays, p < ((-(1 / 10 ^ 16) : ℝ) : WithTop ℝ)) ↔
      Crossed (Placed frame (sphereSet R)) (fun p => Placed frame (sphereSet R) p ∧ b frame p = true) rays := by
  unfold cutSphereGM at hg
  split at hg
  · simp at hg
  rename_i R' hR'
  obtain ⟨hRR, _⟩ := setRadius_ok hR'
  subst R'
  cases hg
  exact cut_behind h (test := b frame) hu (fun _ => Iff.rfl)

theorem not_behind {g : Geometry ℝ E} {frame : Tf ℝ} (h : g.Forward frame) (rays : Bundle ℝ E) :
    ¬ ∃ p ∈ g.find frame rays, p < ((-(1 / 10 ^ 16) : ℝ) : WithTop ℝ) := by
  rintro ⟨p, hp, hlt⟩
  have h0 := h rays p hp
  have : ((-(1 / 10 ^ 16) : ℝ) : WithTop ℝ) < 0 := by
    have : (-(1 / 10 ^ 16) : ℝ) < 0 := by norm_num
    exact_mod_cast this
  exact absurd (hlt.trans this) (not_lt.2 h0)

theorem library_behind {g : Geometry ℝ E} (h : LibraryGeometry g) {frame : Tf ℝ} (hf : frame.Rigid) {rays : Bundle ℝ E}
    (hu : ∀ r ∈ rays, r.dir.IsUnit) :
    (∃ p ∈ g.find frame rays, p < ((-(1 / 10 ^ 16) : ℝ) : WithTop ℝ)) ↔ SphereCrossed g frame rays := by
  constructor
  · intro hb
    cases h with
    | plain g h => exact absurd hb (not_behind (C75_forward h frame) rays)
    | hemisphere R g hg => exact Or.inl ⟨R, hg, (C75_hemisphere hf hg hu).1 hb⟩
    | cutSphere R bound g hg =>
      cases bound with
      | none => exact absurd hb (not_behind ((C75_quadrics frame R 0 0 0 0 0).2.1 g hg) rays)
      | some b => exact Or.inr ⟨R, b, hg, (C75_cut_sphere hf hg hu).1 hb⟩
  · rintro (⟨R, hg, hc⟩ | ⟨R, b, hg, hc⟩)
    · exact (C75_hemisphere hf hg hu).2 hc
    · exact (C75_cut_sphere hf hg hu).2 hc

theorem scene_safe {K E σ : Type _} [Field K] [LinearOrder K] [IsStrictOrderedRing K]
    {a : SceneAsm σ K E} (law : SceneSurf σ K E → V3 K → HitRec K E → Ray K E → Prop)
    (hlen : ∀ o ∈ a.getObjects, ∀ s ∈ o.surfs, s.data.1.LengthOk)
    (hlaw : ∀ o ∈ a.getObjects, ∀ s ∈ o.surfs, Optics.Obeys s.data.2 (law s))
    (hnum : ∀ s, NumberFree (law s))
    {Q : Ray K E → Prop} (hunit : ∀ r, Q r → r.dir.IsUnit)
    (hnormal : ∀ o ∈ a.getObjects, ∀ s ∈ o.surfs, s.data.1.UnitNormals s.temp)
    (hcarry : ∀ o ∈ a.getObjects, ∀ s ∈ o.surfs, Carries (law s) Q)
    (hsafe : ∀ o ∈ a.getObjects, ∀ s ∈ o.surfs, Optics.Safe s.data.2 Q) : AllSurfs (Surf.Safe Q) a.scene := by
  intro o ho s hs
  obtain ⟨o, hoo, rfl⟩ := List.mem_map.1 ho
  obtain ⟨s, hss, rfl⟩ := List.mem_map.1 hs
  clear ho hs
  rename' hoo => ho, hss => hs
  intro w rays sel hrays hne hfin
  obtain ⟨recs, hrecs⟩ := hitRecs_exists (frame := s.temp) (hlen o ho s hs) hfin
  obtain ⟨hidx, hrec⟩ := hitRecs_ok hrecs
  have hrne : recs ≠ [] := by
    rintro rfl
    exact hne hidx.symm
  have hgood : ∀ h ∈ recs, Q h.ray ∧ h.normal.IsUnit := by
    intro h hh
    obtain ⟨h1, t, h2, h3, h4⟩ := hrec h hh
    have hq := hrays _ (List.mem_of_getElem? h1)
    refine ⟨hq, ?_⟩
    rw [h4, h3]
    exact hnormal o ho s hs rays h.idx h.ray t h1 (hunit _ hq) h2
  obtain ⟨out, w', hout⟩ := hsafe o ho s hs w s.temp.rot.c3 recs hrne hgood
  refine ⟨out, w', ?_, ?_⟩
  · simp only [mkSurf, hrecs, hout]
  · intro r hr
    obtain ⟨h, hh, hp, _, hl⟩ := hlaw o ho s hs _ _ _ _ _ hout r hr
    refine ⟨?_, fun j => ?_⟩
    · rw [hp, ← hidx]
      exact List.mem_map_of_mem hh
    · have := hnum s _ _ _ h.idx j hl
      exact hcarry o ho s hs _ _ _ this (hgood h hh).2 (hgood h hh).1

/-- The general form: any laws the callables obey and any condition `Q` on the rays that they preserve. -/
theorem library_raises {a : SceneAsm σ ℝ E} (hsome : ∃ o ∈ a.getObjects, o.surfs ≠ [])
    (hgeo : ∀ o ∈ a.getObjects, ∀ s ∈ o.surfs, LibraryGeometry s.data.1)
    (hrig : ∀ o ∈ a.getObjects, ∀ s ∈ o.surfs, s.temp.Rigid)
    (hdef : ∀ o ∈ a.getObjects, o.data = (Obj.defaultOwn, Obj.defaultNext o.surfs.length))
    (law : SceneSurf σ ℝ E → V3 ℝ → HitRec ℝ E → Ray ℝ E → Prop)
    (hlaw : ∀ o ∈ a.getObjects, ∀ s ∈ o.surfs, Optics.Obeys s.data.2 (law s)) (hnum : ∀ s, NumberFree (law s))
    {Q : Ray ℝ E → Prop} (hunit : ∀ r, Q r → r.dir.IsUnit)
    (hcarry : ∀ o ∈ a.getObjects, ∀ s ∈ o.surfs, Carries (law s) Q)
    (hopt : ∀ o ∈ a.getObjects, ∀ s ∈ o.surfs, Optics.Safe s.data.2 Q)
    (w : σ) {b : Bundle ℝ E} (hb : ∀ r ∈ b, Q r) {reps : Nat} (minE : ℝ) {keepTree : Bool}
    (hk : keepTree = true ∨ 0 < reps) :
    ((∃ res, rayTracer a.scene w b reps minE keepTree = .ok res) ∨
      rayTracer a.scene w b reps minE keepTree = .error .value) ∧
    (rayTracer a.scene w b reps minE keepTree = .error .value ↔
      ∃ k res lvl, k < reps ∧ rayTracer a.scene w b k minE true = .ok res ∧ res.tree[k]? = some lvl ∧
        ∃ o ∈ a.getObjects, ∃ s ∈ o.surfs, SphereCrossed s.data.1 s.temp (propagated minE k lvl)) := by
  have hlen : ∀ o ∈ a.getObjects, ∀ s ∈ o.surfs, s.data.1.LengthOk := fun o ho s hs => (hgeo o ho s hs).lengthOk
  have hnormal : ∀ o ∈ a.getObjects, ∀ s ∈ o.surfs, s.data.1.UnitNormals s.temp :=
    fun o ho s hs => C74_normals (hgeo o ho s hs) (hrig o ho s hs)
  have hd : ∀ o ∈ a.scene, o.Default := by
    intro o ho
    obtain ⟨q, hq, rfl⟩ := List.mem_map.1 ho
    have := hdef q hq
    unfold Obj.Default
    simp [this]
  have hsn : a.scene.flatMap Obj.surfs ≠ [] := by
    obtain ⟨o, ho, hs⟩ := hsome
    obtain ⟨s, l, hl⟩ := List.exists_cons_of_ne_nil hs
    refine List.ne_nil_of_mem (a := mkSurf s.data.1 s.data.2 s.temp) (List.mem_flatMap.2 ⟨_, List.mem_map.2 ⟨o, ho, rfl⟩, ?_⟩)
    exact List.mem_map.2 ⟨s, by rw [hl]; exact List.mem_cons_self .., rfl⟩
  have hlen' : AllSurfs Surf.LengthOk a.scene := by
    intro o ho s hs
    obtain ⟨q, hq, rfl⟩ := List.mem_map.1 ho
    obtain ⟨p, hp, rfl⟩ := List.mem_map.1 hs
    exact mkSurf_lengthOk (hlen q hq p hp) _ _
  have hsafe := scene_safe law hlen hlaw hnum hunit hnormal hcarry hopt
  obtain ⟨hor, hiff⟩ := rayTracer_raises (minE := minE) (keep := keepTree) hd hsn hlen' hsafe hk w hb
  refine ⟨hor, hiff.trans ?_⟩
  refine exists_congr fun k => exists_congr fun res => exists_congr fun lvl => and_congr_right fun _ => and_congr_right fun hres =>
    and_congr_right fun hl => ?_
  have hlegal := C74_invariant law (fun o ho => (hd o ho).shapeOk) hlen hlaw hnum hunit hnormal
    hcarry hb hres lvl (List.mem_of_getElem? hl)
  have hu : ∀ r ∈ propagated minE k lvl, r.dir.IsUnit := by
    intro r hr
    unfold propagated at hr
    split at hr
    · exact hunit r (hlegal r hr)
    · exact hunit r (hlegal r (List.mem_filter.1 hr).1)
  unfold Behind
  constructor
  · rintro ⟨s, hs, hbe⟩
    obtain ⟨o, ho, hs⟩ := List.mem_flatMap.1 hs
    obtain ⟨q, hq, rfl⟩ := List.mem_map.1 ho
    obtain ⟨p, hp, rfl⟩ := List.mem_map.1 hs
    exact ⟨q, hq, p, hp, (library_behind (hgeo q hq p hp) (hrig q hq p hp) hu).1 hbe⟩
  · rintro ⟨q, hq, p, hp, hc⟩
    exact ⟨mkSurf p.data.1 p.data.2 p.temp, List.mem_flatMap.2 ⟨_, List.mem_map.2 ⟨q, hq, rfl⟩, List.mem_map.2 ⟨p, hp, rfl⟩⟩,
      (library_behind (hgeo q hq p hp) (hrig q hq p hp) hu).2 hc⟩

/-- C75, exactly: the trace of a scene of the package's components, hemispheres and cut spheres included, from a source of legal
rays returns or raises `ValueError`.  It raises exactly if some generation of rays, of those before the last, is one for which a
hemisphere or a cut sphere reports an intersection behind a ray (`Crossed`). -/
theorem C75_iff {a : SceneAsm σ ℝ E} {n1 n2 : ℝ} (h1 : 0 < n1) (h2 : 0 < n2) (hne : n1 ≠ n2) (ha : LibraryScene n1 n2 a)
    (hdef : ∀ o ∈ a.getObjects, o.data = (Obj.defaultOwn, Obj.defaultNext o.surfs.length))
    (w : σ) {b : Bundle ℝ E} (hb : ∀ r ∈ b, LegalRay n1 n2 r) {reps : Nat} (minE : ℝ) {keepTree : Bool}
    (hk : keepTree = true ∨ 0 < reps) :
    ((∃ res, rayTracer a.scene w b reps minE keepTree = .ok res) ∨
      rayTracer a.scene w b reps minE keepTree = .error .value) ∧
    (rayTracer a.scene w b reps minE keepTree = .error .value ↔
      ∃ k res lvl, k < reps ∧ rayTracer a.scene w b k minE true = .ok res ∧ res.tree[k]? = some lvl ∧
        ∃ o ∈ a.getObjects, ∃ s ∈ o.surfs, SphereCrossed s.data.1 s.temp (propagated minE k lvl)) :=
  library_raises ha.nonempty ha.geometry ha.rigid hdef (fun s => LibraryLaw n1 n2 s.data.2) (fun o ho s hs => C74_obeys h1 h2 (ha.optics o ho s hs))
    (fun s => libraryLaw_numberFree n1 n2 _) (Q := LegalRay n1 n2) (fun r hr => hr.1)
    (fun o ho s hs => libraryLaw_carries n1 n2 _) (fun o ho s hs => C75_safe h1 h2 hne (ha.optics o ho s hs)) w hb minE hk

/-- C75, exactly, for scenes in which nothing refracts: the rays need only unit directions. -/
theorem C75_opaque_iff {a : SceneAsm σ ℝ E} {n1 n2 : ℝ} (ha : LibraryScene n1 n2 a)
    (hopaque : ∀ o ∈ a.getObjects, ∀ s ∈ o.surfs, OpaqueOptics s.data.2)
    (hdef : ∀ o ∈ a.getObjects, o.data = (Obj.defaultOwn, Obj.defaultNext o.surfs.length))
    (w : σ) {b : Bundle ℝ E} (hb : ∀ r ∈ b, r.dir.IsUnit) {reps : Nat} (minE : ℝ) {keepTree : Bool}
    (hk : keepTree = true ∨ 0 < reps) :
    ((∃ res, rayTracer a.scene w b reps minE keepTree = .ok res) ∨
      rayTracer a.scene w b reps minE keepTree = .error .value) ∧
    (rayTracer a.scene w b reps minE keepTree = .error .value ↔
      ∃ k res lvl, k < reps ∧ rayTracer a.scene w b k minE true = .ok res ∧ res.tree[k]? = some lvl ∧
        ∃ o ∈ a.getObjects, ∃ s ∈ o.surfs, SphereCrossed s.data.1 s.temp (propagated minE k lvl)) :=
  library_raises ha.nonempty ha.geometry ha.rigid hdef (fun _ _ h r => h.normal.IsUnit → h.ray.dir.IsUnit → r.dir.IsUnit)
    (fun o ho s hs => (hopaque o ho s hs).keeps_unit) (fun _ _ _ _ _ _ h => h) (Q := fun r => r.dir.IsUnit) (fun _ hr => hr)
    (fun _ _ _ _ _ _ _ hl hn hq => hl hn hq)
    (fun o ho s hs => by
      have := hopaque o ho s hs
      generalize s.data.2 = opt at this
      induction this with
      | mirror c => exact (C75_mirrors c _).1
      | oneSided c => exact (C75_mirrors c _).2.1
      | diffuse c draw hd => exact C75_lambertian c draw _
      | receiver c get set opt hopt ih => exact (C75_mirrors c _).2.2 opt get set ih)
    w hb minE hk

/-! ## A bowl -/

/-- A hemispherical mirror at the origin, in an assembly. -/
noncomputable def bowlAsm : SceneAsm Unit ℝ Unit :=
  .mk 1 [] [⟨1, [⟨1, 1, (⟨fun frame rays => quadricFind (sphereABC 1 frame) (trimSelect nonzeroUT (hemisphereTest frame)) rays,
    sphereNormal⟩, reflective 0)⟩], (Obj.defaultOwn, Obj.defaultNext 1)⟩]

theorem bowl_hemisphere : (hemisphereGM 1 : Except Err (Geometry ℝ Unit)) =
    .ok ⟨fun frame rays => quadricFind (sphereABC 1 frame) (trimSelect nonzeroUT (hemisphereTest frame)) rays, sphereNormal⟩ := by
  unfold hemisphereGM setRadius
  rw [if_neg (by norm_num)]

theorem bowl_library : LibraryScene 1 1 bowlAsm ∧ (∀ o ∈ bowlAsm.getObjects, ∀ s ∈ o.surfs, OpaqueOptics s.data.2) ∧
    ∀ o ∈ bowlAsm.getObjects, o.data = (Obj.defaultOwn, Obj.defaultNext o.surfs.length) := by
  refine ⟨⟨⟨_, List.mem_cons_self, fun h => by cases h⟩, ?_, ?_, ?_, ?_⟩, ?_, ?_⟩
  · exact List.forall_mem_cons.2 ⟨List.forall_mem_cons.2 ⟨.one, List.forall_mem_nil _⟩, List.forall_mem_nil _⟩
  · exact List.forall_mem_cons.2 ⟨List.forall_mem_cons.2 ⟨.hemisphere 1 _ bowl_hemisphere, List.forall_mem_nil _⟩,
      List.forall_mem_nil _⟩
  · exact List.forall_mem_cons.2 ⟨List.forall_mem_cons.2 ⟨.mirror _, List.forall_mem_nil _⟩, List.forall_mem_nil _⟩
  · exact List.forall_mem_cons.2 ⟨.inl rfl, List.forall_mem_nil _⟩
  · exact List.forall_mem_cons.2 ⟨List.forall_mem_cons.2 ⟨.mirror _, List.forall_mem_nil _⟩, List.forall_mem_nil _⟩
  · exact List.forall_mem_cons.2 ⟨rfl, List.forall_mem_nil _⟩

theorem bowl_axis (z e s : ℝ) :
    (Placed 1 (sphereSet 1) ((⟨0, 0, z⟩ : V3 ℝ) + s • (⟨0, 0, e⟩ : V3 ℝ)) ↔ (z + s * e) ^ 2 = 1) ∧
    (Placed 1 (hemisphereSet 1) ((⟨0, 0, z⟩ : V3 ℝ) + s • (⟨0, 0, e⟩ : V3 ℝ)) ↔ (z + s * e) ^ 2 = 1 ∧ z + s * e ≤ 0) := by
  have hinv : ∀ p : V3 ℝ, (1 : Tf ℝ).inv.point p = p := by
    intro p
    have := Tf.inv_point_point (t := (1 : Tf ℝ)) (M3.IsRotation.det_ne Tf.Rigid.one) p
    have e : (1 : Tf ℝ).point p = p := by unfold Tf.point; apply V3.ext <;> simp
    rwa [e] at this
  constructor
  · rw [placed_iff (M3.IsRotation.det_ne Tf.Rigid.one), hinv]
    unfold sphereSet
    simp
  · rw [placed_iff (M3.IsRotation.det_ne Tf.Rigid.one), hinv]
    unfold hemisphereSet sphereSet
    simp

theorem bowl_below : OnlyNear (Placed 1 (sphereSet 1)) (Placed 1 (hemisphereSet 1)) (⟨0, 0, -2⟩ : V3 ℝ) ⟨0, 0, 1⟩ :=
  axial_far.2.2

theorem bowl_inside : OnlyFar (Placed 1 (sphereSet 1)) (Placed 1 (hemisphereSet 1)) (⟨0, 0, 0⟩ : V3 ℝ) ⟨0, 0, -1⟩ := by
  refine ⟨-1, 1, by norm_num, (bowl_axis _ _ _).1.2 (by norm_num), (bowl_axis _ _ _).1.2 (by norm_num), by norm_num, by norm_num,
    (bowl_axis _ _ _).2.2 (by norm_num)⟩

/-- A ray from the centre of the bowl, followed by one from below, is a crossed bundle, and its trace raises.  In the other order
one iteration returns. -/
example : Crossed (Placed 1 (sphereSet 1)) (Placed 1 (hemisphereSet 1)) insideAndBelow ∧
    (∀ (reps : Nat) (minE : ℝ), rayTracer bowlAsm.scene () insideAndBelow (reps + 1) minE true = .error .value) ∧
    ∀ minE : ℝ, ∃ res, rayTracer bowlAsm.scene () insideAndBelow.reverse 1 minE true = .ok res := by
  have hu : ∀ r ∈ insideAndBelow, r.dir.IsUnit := by
    intro r hr
    unfold insideAndBelow at hr
    simp only [List.mem_cons, List.not_mem_nil, or_false] at hr
    rcases hr with rfl | rfl <;> · unfold V3.IsUnit V3.dot; norm_num
  have hc : Crossed (Placed 1 (sphereSet 1)) (Placed 1 (hemisphereSet 1)) insideAndBelow := by
    refine ⟨0, ⟨⟨0, 0, 0⟩, ⟨0, 0, -1⟩, 1, 0, none, ()⟩, -1, 1, rfl, by norm_num, by norm_num, (bowl_axis _ _ _).1.2 (by norm_num),
      (bowl_axis _ _ _).1.2 (by norm_num), (bowl_axis _ _ _).2.2 (by norm_num), ?_⟩
    simp [insideAndBelow, bowl_below]
  obtain ⟨h1, h2, h3⟩ := bowl_library
  refine ⟨hc, fun reps minE => ?_, fun minE => ?_⟩
  · refine (C75_opaque_iff h1 h2 h3 () hu minE (Or.inl rfl)).2.2 ?_
    obtain ⟨res, hres⟩ : ∃ res, rayTracer bowlAsm.scene () insideAndBelow 0 minE true = .ok res := ⟨_, rfl⟩
    exact ⟨0, res, insideAndBelow, by omega, hres, by rw [(C11_no_iterations hres).1]; rfl, _, List.mem_cons_self, _,
      List.mem_cons_self, Or.inl ⟨1, bowl_hemisphere, hc⟩⟩
  · obtain ⟨ho, hi⟩ := C75_opaque_iff h1 h2 h3 () (b := insideAndBelow.reverse) (fun r hr => hu r (List.mem_reverse.1 hr)) minE
      (reps := 1) (keepTree := true) (Or.inl rfl)
    refine ho.resolve_right fun he => ?_
    obtain ⟨k, res, lvl, hk, hres, hl, o, hob, s, hs, hcr⟩ := hi.1 he
    obtain rfl : k = 0 := by omega
    have e : lvl = insideAndBelow.reverse := by
      rw [(C11_no_iterations hres).1] at hl
      exact (Option.some.inj hl).symm
    subst e
    obtain rfl : o = _ := List.mem_singleton.1 hob
    obtain rfl : s = _ := List.mem_singleton.1 hs
    have hneg := (library_behind (h1.geometry _ hob _ hs) Tf.Rigid.one (fun r hr => hu r (List.mem_reverse.1 hr))).2 hcr
    obtain ⟨i, r, t0, t1, hr, h0, hp, -, -, -, hcount⟩ := (C75_hemisphere Tf.Rigid.one bowl_hemisphere
      (fun r hr => hu r (List.mem_reverse.1 hr))).1 hneg
    have hil : i < 2 := by
      have := (List.getElem?_eq_some_iff.1 hr).1
      simpa [insideAndBelow] using this
    rcases (by omega : i = 0 ∨ i = 1) with rfl | rfl
    · have : ¬ OnlyNear (Placed 1 (sphereSet 1)) (Placed 1 (hemisphereSet 1)) (⟨0, 0, 0⟩ : V3 ℝ) ⟨0, 0, -1⟩ :=
        far_not_near Tf.Rigid.one (by norm_num [V3.IsUnit, V3.dot]) bowl_inside
      simp [insideAndBelow, this] at hcount
    · simp [insideAndBelow] at hcount

end Tracer
