import Verif.Spec.Progress
import Verif.Spec.Catalogue
import Verif.Lemmas.Progress
import Verif.Props.Law

/-! # Traces of legal scenes raise no exception (C75) -/

set_option linter.unusedSectionVars false

namespace Tracer

section
variable {K E σ : Type _} [Field K] [LinearOrder K] [IsStrictOrderedRing K]

/-- C75: a scene with at least one surface, whose managers report unit normals and no intersections behind the rays, and whose callables
answer for rays satisfying `Q` and send on such rays, is traced without an exception from any source of such rays. -/
theorem C75_progress {a : SceneAsm σ K E} (law : SceneSurf σ K E → V3 K → HitRec K E → Ray K E → Prop)
    (hobj : ∀ o ∈ a.scene, o.ShapeOk)
    (hsome : ∃ o ∈ a.getObjects, o.surfs ≠ [])
    (hlen : ∀ o ∈ a.getObjects, ∀ s ∈ o.surfs, s.data.1.LengthOk)
    (hlaw : ∀ o ∈ a.getObjects, ∀ s ∈ o.surfs, Optics.Obeys s.data.2 (law s))
    (hnum : ∀ s, NumberFree (law s))
    {Q : Ray K E → Prop} (hunit : ∀ r, Q r → r.dir.IsUnit)
    (hnormal : ∀ o ∈ a.getObjects, ∀ s ∈ o.surfs, s.data.1.UnitNormals s.temp)
    (hcarry : ∀ o ∈ a.getObjects, ∀ s ∈ o.surfs, Carries (law s) Q)
    (hfwd : ∀ o ∈ a.getObjects, ∀ s ∈ o.surfs, s.data.1.Forward s.temp)
    (hsafe : ∀ o ∈ a.getObjects, ∀ s ∈ o.surfs, Optics.Safe s.data.2 Q)
    (w : σ) {b : Bundle K E} (hb : ∀ r ∈ b, Q r) {reps : Nat} (minE : K) {keepTree : Bool}
    (hk : keepTree = true ∨ 0 < reps) :
    ∃ res, rayTracer a.scene w b reps minE keepTree = .ok res := by
  have lift : ∀ {P : Surf σ K E → Prop}, (∀ o ∈ a.getObjects, ∀ s ∈ o.surfs, P (mkSurf s.data.1 s.data.2 s.temp)) →
      AllSurfs P a.scene := by
    intro P h o ho s hs
    obtain ⟨q, hq, rfl⟩ := List.mem_map.1 ho
    obtain ⟨p, hp, rfl⟩ := List.mem_map.1 hs
    exact h q hq p hp
  refine rayTracer_safe (Q := Q) hobj ?_ (lift fun o ho s hs => mkSurf_lengthOk (hlen o ho s hs) _ _)
    (lift fun o ho s hs => hfwd o ho s hs) (lift ?_) hk w hb
  · obtain ⟨o, ho, hs⟩ := hsome
    obtain ⟨s, l, hl⟩ := List.exists_cons_of_ne_nil hs
    refine List.ne_nil_of_mem (a := mkSurf s.data.1 s.data.2 s.temp) (List.mem_flatMap.2 ⟨_, List.mem_map.2 ⟨o, ho, rfl⟩, ?_⟩)
    exact List.mem_map.2 ⟨s, by rw [hl]; exact List.mem_cons_self .., rfl⟩
  · intro o ho s hs w rays sel hrays hne hfin
    obtain ⟨recs, hrecs⟩ := hitRecs_exists (frame := s.temp) (hlen o ho s hs) hfin
    obtain ⟨hidx, hrec⟩ := hitRecs_ok hrecs
    have hrne : recs ≠ [] := by
      rintro rfl
      exact hne hidx.symm
    have hgood : ∀ h ∈ recs, Q h.ray ∧ h.normal.IsUnit := by
      intro h hh
      obtain ⟨h1, t, h2, h3, h4⟩ := hrec h hh
      have hq := hrays _ (List.mem_of_getElem? h1)
      refine ⟨hq, ?_⟩
      rw [h4, h3]
      exact hnormal o ho s hs rays h.idx h.ray t h1 (hunit _ hq) h2
    obtain ⟨out, w', hout⟩ := hsafe o ho s hs w s.temp.rot.c3 recs hrne hgood
    refine ⟨out, w', ?_, ?_⟩
    · simp only [mkSurf, hrecs, hout]
    · intro r hr
      obtain ⟨h, hh, hp, _, hl⟩ := hlaw o ho s hs _ _ _ _ _ hout r hr
      refine ⟨?_, fun j => ?_⟩
      · rw [hp, ← hidx]
        exact List.mem_map_of_mem hh
      · have := hnum s _ _ _ h.idx j hl
        exact hcarry o ho s hs _ _ _ this (hgood h hh).2 (hgood h hh).1

/-! ## The package's managers and callables -/

/-- C75: flat surfaces report nothing behind a ray. -/
theorem C75_flat (frame : Tf K) (outside : Tf K → V3 K → Bool) :
    (flatGM : Geometry K E).Forward frame ∧ (finiteFlatGM outside : Geometry K E).Forward frame := by
  have hflat : ∀ v d : V3 K, (0 : WithTop K) ≤ flatParam frame v d := by
    intro v d
    unfold flatParam
    simp only
    split
    · split
      · exact le_top
      · rename_i h
        exact_mod_cast not_lt.1 h
    · exact le_top
  refine ⟨fun rays p hp => ?_, fun rays p hp => ?_⟩
  · obtain ⟨r, _, rfl⟩ := List.mem_map.1 hp
    exact hflat _ _
  · obtain ⟨r, _, rfl⟩ := List.mem_map.1 hp
    have h0 := hflat r.vertex r.dir
    show (0 : WithTop K) ≤ finiteParam outside frame r.vertex r.dir
    unfold finiteParam
    split
    · exact le_top
    · rename_i t ht
      split
      · exact le_top
      · rw [ht] at h0; exact h0

/-- C75: mirrors, one-sided mirrors and the receivers observing them always answer. -/
theorem C75_mirrors (c : K) (Q : Ray K E → Prop) :
    Optics.Safe (reflective c : Optics σ K E) Q ∧ Optics.Safe (absorberReflector c : Optics σ K E) Q ∧
    ∀ (opt : Optics σ K E) (get : σ → Account K) (set : Account K → σ → σ), Optics.Safe opt Q →
      Optics.Safe (accountant c get set opt) Q := by
  refine ⟨fun w up hits _ _ => ⟨_, _, rfl⟩, fun w up hits _ _ => ⟨_, _, rfl⟩, ?_⟩
  intro opt get set h w up hits hne hq
  exact h _ up hits hne hq

end

section
variable {E σ : Type _}

/-- C75: diffuse reflectors always answer. -/
theorem C75_lambertian (c : ℝ) (draw : Nat → σ → List (ℝ × ℝ) × σ) (Q : Ray ℝ E → Prop) :
    Optics.Safe (lambertian c draw : Optics σ ℝ E) Q := fun w up hits _ _ => ⟨_, _, rfl⟩

theorem fresnelDefined_of {n1 n2 : ℝ} (h1 : 0 < n1) (h2 : 0 < n2) (hne : n1 ≠ n2) {d n : V3 ℝ} (hd : d.IsUnit) (hn : n.IsUnit)
    (hr : refractedOne n1 n2 d n = true) : fresnelDefined d n n1 n2 = true := by
  have hc : |V3.dot n d| ≤ 1 := by
    exact abs_le_one_iff_mul_self_le_one.2 (by linarith [dot_sq_le_one hn hd, sq (V3.dot n d)])
  have hcos : Real.cos (Real.arccos |V3.dot n d|) = |V3.dot n d| :=
    Real.cos_arccos (by linarith [abs_nonneg (V3.dot n d)]) hc
  unfold refractedOne at hr
  simp only [ge_iff_le, decide_eq_true_eq] at hr
  unfold fresnelDefined
  simp only [hcos, Real.sin_arccos, Bool.and_eq_true, decide_eq_true_eq, sq_abs]
  have hb := Real.sqrt_nonneg (1 - (n1 / n2 * √(1 - V3.dot n d ^ 2)) ^ 2)
  by_cases h0 : V3.dot n d = 0
  · rw [h0] at hr ⊢
    have hlt : n1 < n2 := by
      refine lt_of_le_of_ne ?_ hne
      by_contra hlt
      have : n2 / n1 < 1 := (div_lt_one h1).2 (not_le.1 hlt)
      have : (n2 / n1) ^ 2 < 1 := by
        have h0 : 0 ≤ n2 / n1 := by positivity
        nlinarith
      have hr' : (1 : ℝ) - (n2 / n1) ^ 2 ≤ 0 ^ 2 := hr
      linarith
    have : 0 < √(1 - (n1 / n2 * √(1 - (0 : ℝ) ^ 2)) ^ 2) := by
      apply Real.sqrt_pos.2
      have h3 : n1 / n2 < 1 := (div_lt_one h2).2 hlt
      have h4 : 0 < n1 / n2 := by positivity
      norm_num
      rw [abs_lt]
      constructor <;> linarith
    constructor
    · simp only [abs_zero, mul_zero, zero_add]
      positivity
    · simp only [abs_zero, mul_zero, add_zero]
      positivity
  · have : 0 < |V3.dot n d| := abs_pos.2 h0
    constructor <;> positivity

/-- C75: a refracting surface between two different media answers for rays of unit direction that are in one of them. -/
theorem C75_refractive {a b : ℝ} (ha : 0 < a) (hb : 0 < b) (hab : a ≠ b) :
    Optics.Safe (refractiveHomogenous a b : Optics σ ℝ E) (fun r => r.dir.IsUnit ∧ (r.ref = some a ∨ r.ref = some b)) := by
  intro w up hits hne hq
  rw [refractive_eq a b w up hits hne (fun q h => by
    rcases (hq q h).1.2 with e | e <;> rw [e] <;> simp)]
  split
  · split
    · rename_i hany
      obtain ⟨q, hqm, hq'⟩ := List.any_eq_true.1 hany
      rw [Bool.and_eq_true] at hq'
      have hp : ProperHit a b q := ⟨(hq q hqm).1.1, (hq q hqm).2, (hq q hqm).1.2⟩
      obtain ⟨p1, p2⟩ := hp.pos ha hb
      have hi := hp.otherSide
      have hne : idxIn q ≠ idxOut a b q := by
        rcases hi.2 with ⟨e1, e2⟩ | ⟨e1, e2⟩ <;> rw [e1, e2]
        · exact hab
        · exact hab.symm
      have := fresnelDefined_of p1 p2 hne (hq q hqm).1.1 (hq q hqm).2 hq'.1
      rw [this] at hq'
      simp at hq'
    · exact ⟨_, _, rfl⟩
  · exact ⟨_, _, rfl⟩

theorem quadricFind_forward {abc : V3 ℝ → V3 ℝ → ℝ × ℝ × ℝ} {select : List Cand → List (Option Bool)} {test : V3 ℝ → Bool}
    (hs : ∀ l, select l = l.map (trimPick test)) (rays : Bundle ℝ E) :
    ∀ p ∈ quadricFind abc select rays, (0 : WithTop ℝ) ≤ p := by
  intro p hp
  rw [quadricFind_map abc hs] at hp
  obtain ⟨r, _, rfl⟩ := List.mem_map.1 hp
  unfold chosenParam
  split
  · exact le_top
  · rename_i c _
    unfold trimPick pick
    have key : ∀ x : Option Bool, (∀ b, x = some b → 0 < Cand.choose b c) → (0 : WithTop ℝ) ≤
        (match x with
        | none => ⊤
        | some b => ((Cand.choose b c : ℝ) : WithTop ℝ)) := by
      intro x hx
      cases x with
      | none => exact le_top
      | some b =>
        have := (hx b rfl).le
        show (0 : WithTop ℝ) ≤ ((Cand.choose b c : ℝ) : WithTop ℝ)
        exact_mod_cast this
    refine key _ fun b hb => ?_
    by_cases h0 : (test c.p0 && decide (0 < c.t0)) = true
    · rw [if_pos h0] at hb
      cases hb
      simp only [Bool.and_eq_true, decide_eq_true_eq] at h0
      exact h0.2
    · rw [if_neg h0] at hb
      by_cases h1 : (test c.p1 && decide (0 < c.t1)) = true
      · rw [if_pos h1] at hb
        cases hb
        simp only [Bool.and_eq_true, decide_eq_true_eq] at h1
        exact h1.2
      · rw [if_neg h1] at hb
        cases hb

theorem defaultSelect_trim (l : List Cand) : defaultSelect l = l.map (trimPick fun _ => true) := by
  rw [defaultSelect_eq]
  exact List.map_congr_left fun c _ => (trimPick_true c).symm

/-- C75: whole spheres, paraboloids, dishes and cylinders report nothing behind a ray. -/
theorem C75_quadrics (frame : Tf ℝ) (R a b diameter height focal : ℝ) :
    (∀ g : Geometry ℝ E, sphereGM R = .ok g → g.Forward frame) ∧
    (∀ g : Geometry ℝ E, cutSphereGM R none = .ok g → g.Forward frame) ∧
    (paraboloidGM a b : Geometry ℝ E).Forward frame ∧ (parabolicDishGM diameter focal : Geometry ℝ E).Forward frame ∧
    (hexagonalDishGM diameter focal : Geometry ℝ E).Forward frame ∧
    (infiniteCylinderGM diameter : Geometry ℝ E).Forward frame ∧
    (finiteCylinderGM diameter height : Geometry ℝ E).Forward frame := by
  have hsphere : ∀ g : Geometry ℝ E, sphereGM R = .ok g → g.Forward frame := by
    intro g hg
    unfold sphereGM at hg
    split at hg
    · cases hg
    · cases hg
      exact fun rays => quadricFind_forward defaultSelect_trim rays
  refine ⟨hsphere, ?_, fun rays => quadricFind_forward defaultSelect_trim rays,
    fun rays => quadricFind_forward (trimSelect_eq _) rays, fun rays => quadricFind_forward (trimSelect_eq _) rays,
    fun rays => quadricFind_forward defaultSelect_trim rays, fun rays => quadricFind_forward (cylinderSelect_eq _ _) rays⟩
  intro g hg
  rw [C39_uncut] at hg
  exact hsphere g hg

/-! ## Scenes of the package's components -/

theorem quadricFind_length (abc : V3 ℝ → V3 ℝ → ℝ × ℝ × ℝ) (select : List Cand → List (Option Bool)) (rays : Bundle ℝ E) :
    (quadricFind abc select rays).length = rays.length := by
  simp [quadricFind]

theorem rect_eq {width height : ℝ} {g : Geometry ℝ E} (h : rectPlateGM width height = .ok g) :
    g = finiteFlatGM (rectOutside width height) := by
  unfold rectPlateGM at h
  split at h
  · cases h
  · split at h
    · cases h
    · cases h; rfl

theorem round_eq {R : ℝ} {g : Geometry ℝ E} (h : roundPlateGM R = .ok g) : g = finiteFlatGM (roundOutside R) := by
  unfold roundPlateGM at h
  split at h
  · cases h
  · cases h; rfl

theorem PlainGeometry.lengthOk {g : Geometry ℝ E} (h : PlainGeometry g) : g.LengthOk := by
  cases h with
  | flat => exact flatGM_perRay.lengthOk
  | rect w h g hg => rw [rect_eq hg]; exact (finiteFlatGM_perRay _).lengthOk
  | round R g hg => rw [round_eq hg]; exact (finiteFlatGM_perRay _).lengthOk
  | triangle a b => exact (finiteFlatGM_perRay _).lengthOk
  | sphere R g hg =>
    unfold sphereGM at hg
    split at hg
    · cases hg
    · cases hg; exact fun _ _ => quadricFind_length _ _ _
  | paraboloid | dish | hexagonal | cylinder | finiteCylinder => exact fun _ _ => quadricFind_length _ _ _

theorem LibraryGeometry.lengthOk {g : Geometry ℝ E} (h : LibraryGeometry g) : g.LengthOk := by
  cases h with
  | plain g h => exact h.lengthOk
  | hemisphere R g hg =>
    unfold hemisphereGM at hg
    split at hg
    · cases hg
    · cases hg; exact fun _ _ => quadricFind_length _ _ _
  | cutSphere R bound g hg =>
    unfold cutSphereGM at hg
    split at hg
    · cases hg
    · cases hg; exact fun _ _ => quadricFind_length _ _ _

/-- C75: all managers but the hemisphere and the cut sphere report nothing behind a ray. -/
theorem C75_forward {g : Geometry ℝ E} (h : PlainGeometry g) (frame : Tf ℝ) : g.Forward frame := by
  cases h with
  | flat => exact (C75_flat frame fun _ _ => false).1
  | rect w h g hg => rw [rect_eq hg]; exact (C75_flat frame _).2
  | round R g hg => rw [round_eq hg]; exact (C75_flat frame _).2
  | triangle a b => exact (C75_flat frame _).2
  | sphere R g hg => exact (C75_quadrics frame R 0 0 0 0 0).1 g hg
  | paraboloid a b => exact (C75_quadrics frame 0 a b 0 0 0).2.2.1
  | dish d f => exact (C75_quadrics frame 0 0 0 d 0 f).2.2.2.1
  | hexagonal d f => exact (C75_quadrics frame 0 0 0 d 0 f).2.2.2.2.1
  | cylinder d => exact (C75_quadrics frame 0 0 0 d 0 0).2.2.2.2.2.1
  | finiteCylinder d h => exact (C75_quadrics frame 0 0 0 d h 0).2.2.2.2.2.2

/-- C74: all managers report unit normals. -/
theorem C74_normals {g : Geometry ℝ E} (h : LibraryGeometry g) {frame : Tf ℝ} (hf : frame.Rigid) : g.UnitNormals frame := by
  cases h with
  | hemisphere R g hg => exact (C74_quadrics (E := E) (R := R) (bound := none) (height := 0) (a := 0) (b := 0) (focal := 0) hf one_pos).2.1 g hg
  | cutSphere R bound g hg => exact (C74_quadrics (E := E) (R := R) (bound := bound) (height := 0) (a := 0) (b := 0) (focal := 0) hf one_pos).2.2.1 g hg
  | plain g h =>
    cases h with
    | flat => exact (C74_flat hf fun _ _ => false).1
    | rect w h g hg => rw [rect_eq hg]; exact (C74_flat hf _).2
    | round R g hg => rw [round_eq hg]; exact (C74_flat hf _).2
    | triangle a b => exact (C74_flat hf _).2
    | sphere R g hg => exact (C74_quadrics (E := E) (R := R) (bound := none) (height := 0) (a := 0) (b := 0) (focal := 0) hf one_pos).1 g hg
    | paraboloid a b => exact (C74_quadrics (E := E) (R := 1) (bound := none) (height := 0) (a := a) (b := b) (focal := 0) hf one_pos).2.2.2.1
    | dish d f hd => exact (C74_quadrics (E := E) (R := 1) (bound := none) (height := 0) (a := 0) (b := 0) (focal := f) hf hd).2.2.2.2.1
    | hexagonal d f hd => exact (C74_quadrics (E := E) (R := 1) (bound := none) (height := 0) (a := 0) (b := 0) (focal := f) hf hd).2.2.2.2.2.1
    | cylinder d hd => exact (C74_quadrics (E := E) (R := 1) (bound := none) (height := 0) (a := 0) (b := 0) (focal := 0) hf hd).2.2.2.2.2.2.1
    | finiteCylinder d h hd => exact (C74_quadrics (E := E) (R := 1) (bound := none) (height := h) (a := 0) (b := 0) (focal := 0) hf hd).2.2.2.2.2.2.2

/-- C74: every callable of the package obeys its law. -/
theorem C74_obeys {n1 n2 : ℝ} (h1 : 0 < n1) (h2 : 0 < n2) {opt : Optics σ ℝ E} (h : LibraryOptics n1 n2 opt) :
    Optics.Obeys opt (LibraryLaw n1 n2 opt) := by
  induction h with
  | mirror c =>
    intro w up hits out w' ho r hr
    obtain ⟨q, hq, e1, e2, e3⟩ := C74_reflective c w up hits out w' ho r hr
    exact ⟨q, hq, e1, e2, .mirror c up q r e3⟩
  | oneSided c =>
    intro w up hits out w' ho r hr
    obtain ⟨q, hq, e1, e2, e3⟩ := C74_one_sided c w up hits out w' ho r hr
    exact ⟨q, hq, e1, e2, .oneSided c up q r e3⟩
  | refractive =>
    intro w up hits out w' ho r hr
    obtain ⟨q, hq, e1, e2, e3⟩ := C74_refractive h1 h2 w up hits out w' ho r hr
    exact ⟨q, hq, e1, e2, .refractive up q r e3⟩
  | diffuse c draw hd =>
    intro w up hits out w' ho r hr
    obtain ⟨q, hq, e1, e2, e3⟩ := C74_lambertian hd w up hits out w' ho r hr
    exact ⟨q, hq, e1, e2, .diffuse c draw up q r e3⟩
  | receiver c get set opt hopt ih =>
    intro w up hits out w' ho r hr
    obtain ⟨q, hq, e1, e2, e3⟩ := C74_receiver ih c get set w up hits out w' ho r hr
    exact ⟨q, hq, e1, e2, .receiver c get set opt up q r e3⟩

theorem libraryLaw_numberFree (n1 n2 : ℝ) (opt : Optics σ ℝ E) : NumberFree (LibraryLaw n1 n2 opt) := by
  intro up h r i j hl
  induction hl with
  | mirror c up h r hl => exact .mirror c up _ _ (mirrorLaw_numberFree c _ _ _ _ _ hl)
  | oneSided c up h r hl => exact .oneSided c up _ _ (oneSidedLaw_numberFree c _ _ _ _ _ hl)
  | refractive up h r hl => exact .refractive up _ _ (refractionLaw_numberFree n1 n2 _ _ _ _ _ hl)
  | diffuse c draw up h r hl => exact .diffuse c draw up _ _ (diffuseLaw_numberFree c _ _ _ _ _ hl)
  | receiver c get set opt up h r _ ih => exact .receiver c get set opt up _ _ ih

theorem libraryLaw_carries (n1 n2 : ℝ) (opt : Optics σ ℝ E) : Carries (LibraryLaw n1 n2 opt) (LegalRay n1 n2) := by
  intro up h r hl
  induction hl with
  | mirror c up h r hl => exact fun hn hq => (C74_refraction_carries n1 n2 c).2.1 up h r hl hn hq
  | oneSided c up h r hl => exact fun hn hq => (C74_refraction_carries n1 n2 c).2.2.1 up h r hl hn hq
  | refractive up h r hl => exact fun hn hq => (C74_refraction_carries n1 n2 0).1 up h r hl hn hq
  | diffuse c draw up h r hl => exact fun hn hq => (C74_refraction_carries n1 n2 c).2.2.2 up h r hl hn hq
  | receiver c get set opt up h r _ ih => exact ih

theorem libraryLaw_extra {n1 n2 : ℝ} {opt : Optics σ ℝ E} {up : V3 ℝ} {h : HitRec ℝ E} {r : Ray ℝ E}
    (hl : LibraryLaw n1 n2 opt up h r) : r.extra = h.ray.extra := by
  induction hl with
  | mirror c up h r hl => exact hl.extra
  | oneSided c up h r hl => exact hl.extra
  | refractive up h r hl => exact hl.extra
  | diffuse c draw up h r hl => exact hl.extra
  | receiver c get set opt up h r _ ih => exact ih

theorem LibraryScene.shapeOk {n1 n2 : ℝ} {a : SceneAsm σ ℝ E} (h : LibraryScene n1 n2 a) : ∀ o ∈ a.scene, o.ShapeOk := by
  intro o ho
  obtain ⟨q, hq, rfl⟩ := List.mem_map.1 ho
  rcases h.policies q hq with e | e
  · refine ⟨fun rays k => ?_, fun rays k => ⟨?_, fun row hr => ?_⟩⟩
    · simp only [e, Obj.defaultOwn, List.length_replicate]
    · simp only [e, Obj.defaultNext, List.length_replicate, List.length_map]
    · simp only [e, Obj.defaultNext] at hr
      rw [List.eq_of_mem_replicate hr, List.length_replicate]
  · refine ⟨fun rays k => ?_, fun rays k => ⟨?_, fun row hr => ?_⟩⟩
    · simp only [e, Obj.defaultOwn, List.length_replicate]
    · simp only [e, Obj.skipNext, List.length_replicate, List.length_map]
    · simp only [e, Obj.skipNext] at hr
      rw [List.eq_of_mem_replicate hr, List.length_replicate]

/-- C74 for scenes of the package's components: every recorded ray starts where its parent, in the previous bundle, meets a surface, follows
from its parent by the law of that surface, and is legal if the source rays are. -/
theorem C74_library {a : SceneAsm σ ℝ E} {n1 n2 : ℝ} (h1 : 0 < n1) (h2 : 0 < n2) (ha : LibraryScene n1 n2 a)
    {w : σ} {b : Bundle ℝ E} {reps : Nat} {minE : ℝ} {res : TraceResult σ ℝ E}
    (h : rayTracer a.scene w b reps minE true = .ok res) :
    (∀ (k : Nat) (lvl : Bundle ℝ E), res.tree[k + 1]? = some lvl → ∀ r ∈ lvl,
      ∃ prev p, res.tree[k]? = some prev ∧ prev[r.parent]? = some p ∧
      ∃ o ∈ a.getObjects, ∃ s ∈ o.surfs, ∃ t : ℝ, 0 < t ∧
        (∃ (rays : Bundle ℝ E) (i : Nat), rays[i]? = some p ∧ (s.data.1.find s.temp rays)[i]? = some (t : WithTop ℝ)) ∧
        r.vertex = p.at t ∧
        LibraryLaw n1 n2 s.data.2 s.temp.rot.c3 ⟨r.parent, p, p.at t, s.data.1.normal s.temp (p.at t) p.dir⟩ r) ∧
    ((∀ r ∈ b, LegalRay n1 n2 r) → ∀ lvl ∈ res.tree, ∀ r ∈ lvl, LegalRay n1 n2 r) := by
  have hlen : ∀ o ∈ a.getObjects, ∀ s ∈ o.surfs, s.data.1.LengthOk := fun o ho s hs => (ha.geometry o ho s hs).lengthOk
  have hlaw : ∀ o ∈ a.getObjects, ∀ s ∈ o.surfs, Optics.Obeys s.data.2 (LibraryLaw n1 n2 s.data.2) :=
    fun o ho s hs => C74_obeys h1 h2 (ha.optics o ho s hs)
  refine ⟨fun k lvl hk r hr => C74_law (fun s => LibraryLaw n1 n2 s.data.2) ha.shapeOk hlen hlaw
    (fun s => libraryLaw_numberFree n1 n2 _) h hk hr, fun hb => ?_⟩
  exact C74_invariant (fun s => LibraryLaw n1 n2 s.data.2) ha.shapeOk hlen hlaw (fun s => libraryLaw_numberFree n1 n2 _)
    (fun r hr => hr.1) (fun o ho s hs => C74_normals (ha.geometry o ho s hs) (ha.rigid o ho s hs))
    (fun o ho s hs => libraryLaw_carries n1 n2 _) hb h

/-- C72 for scenes of the package's components: a recorded ray has the user-defined properties of its parent. -/
theorem C72_inherited {a : SceneAsm σ ℝ E} {n1 n2 : ℝ} (h1 : 0 < n1) (h2 : 0 < n2) (ha : LibraryScene n1 n2 a)
    {w : σ} {b : Bundle ℝ E} {reps : Nat} {minE : ℝ} {res : TraceResult σ ℝ E}
    (h : rayTracer a.scene w b reps minE true = .ok res) {k : Nat} {lvl : Bundle ℝ E} (hk : res.tree[k + 1]? = some lvl)
    {r : Ray ℝ E} (hr : r ∈ lvl) :
    ∃ prev p, res.tree[k]? = some prev ∧ prev[r.parent]? = some p ∧ r.extra = p.extra := by
  obtain ⟨prev, p, e1, e2, _, _, _, _, _, _, _, _, hl⟩ := (C74_library h1 h2 ha h).1 k lvl hk r hr
  exact ⟨prev, p, e1, e2, libraryLaw_extra hl⟩

/-- C75: every callable of the package answers for legal rays. -/
theorem C75_safe {n1 n2 : ℝ} (h1 : 0 < n1) (h2 : 0 < n2) (hne : n1 ≠ n2) {opt : Optics σ ℝ E} (h : LibraryOptics n1 n2 opt) :
    Optics.Safe opt (LegalRay n1 n2) := by
  induction h with
  | mirror c => exact (C75_mirrors c _).1
  | oneSided c => exact (C75_mirrors c _).2.1
  | refractive => exact C75_refractive h1 h2 hne
  | diffuse c draw hd => exact C75_lambertian c draw _
  | receiver c get set opt hopt ih => exact (C75_mirrors c _).2.2 opt get set ih

/-- C75, in part: scenes of the package's components, on any geometries except hemispheres and cut spheres, with refracting surfaces between
two different media, are traced without an exception from any source of legal rays.  For hemispheres see `C75_counterexample`; with equal
media grazing incidence has no defined reflectance. -/
theorem C75_partial {a : SceneAsm σ ℝ E} {n1 n2 : ℝ} (h1 : 0 < n1) (h2 : 0 < n2) (hne : n1 ≠ n2) (ha : LibraryScene n1 n2 a)
    (hplain : ∀ o ∈ a.getObjects, ∀ s ∈ o.surfs, PlainGeometry s.data.1)
    (w : σ) {b : Bundle ℝ E} (hb : ∀ r ∈ b, LegalRay n1 n2 r) {reps : Nat} (minE : ℝ) {keepTree : Bool}
    (hk : keepTree = true ∨ 0 < reps) :
    ∃ res, rayTracer a.scene w b reps minE keepTree = .ok res :=
  C75_progress (fun s => LibraryLaw n1 n2 s.data.2) ha.shapeOk ha.nonempty
    (fun o ho s hs => (ha.geometry o ho s hs).lengthOk) (fun o ho s hs => C74_obeys h1 h2 (ha.optics o ho s hs))
    (fun s => libraryLaw_numberFree n1 n2 _) (Q := LegalRay n1 n2) (fun r hr => hr.1)
    (fun o ho s hs => C74_normals (ha.geometry o ho s hs) (ha.rigid o ho s hs)) (fun o ho s hs => libraryLaw_carries n1 n2 _)
    (fun o ho s hs => C75_forward (hplain o ho s hs) s.temp) (fun o ho s hs => C75_safe h1 h2 hne (ha.optics o ho s hs))
    w hb minE hk

theorem OpaqueOptics.library (n1 n2 : ℝ) {opt : Optics σ ℝ E} (h : OpaqueOptics opt) : LibraryOptics n1 n2 opt := by
  induction h with
  | mirror c => exact .mirror c
  | oneSided c => exact .oneSided c
  | diffuse c draw hd => exact .diffuse c draw hd
  | receiver c get set opt _ ih => exact .receiver c get set opt ih

theorem OpaqueOptics.keeps_unit {opt : Optics σ ℝ E} (h : OpaqueOptics opt) :
    Optics.Obeys opt (fun _ h r => h.normal.IsUnit → h.ray.dir.IsUnit → r.dir.IsUnit) := by
  induction h with
  | mirror c =>
    intro w up hits out w' ho r hr
    obtain ⟨q, hq, e1, e2, e3⟩ := C74_reflective c w up hits out w' ho r hr
    exact ⟨q, hq, e1, e2, fun hn hd => mirrored_unit hn hd (e3.dir hn)⟩
  | oneSided c =>
    intro w up hits out w' ho r hr
    obtain ⟨q, hq, e1, e2, e3⟩ := C74_one_sided c w up hits out w' ho r hr
    exact ⟨q, hq, e1, e2, fun hn hd => mirrored_unit hn hd (e3.dir hn)⟩
  | diffuse c draw hd =>
    intro w up hits out w' ho r hr
    obtain ⟨q, hq, e1, e2, e3⟩ := C74_lambertian hd w up hits out w' ho r hr
    exact ⟨q, hq, e1, e2, fun hn _ => (e3.dir hn).1⟩
  | receiver c get set opt hopt ih =>
    intro w up hits out w' ho r hr
    exact C74_receiver ih c get set w up hits out w' ho r hr

/-- C75: scenes of the package's components in which nothing refracts, on any geometries except hemispheres and cut spheres, are traced without an exception from any rays of unit
direction; the rays need no refractive index. -/
theorem C75_opaque {a : SceneAsm σ ℝ E} {n1 n2 : ℝ} (ha : LibraryScene n1 n2 a)
    (hplain : ∀ o ∈ a.getObjects, ∀ s ∈ o.surfs, PlainGeometry s.data.1) (hopaque : ∀ o ∈ a.getObjects, ∀ s ∈ o.surfs, OpaqueOptics s.data.2)
    (w : σ) {b : Bundle ℝ E} (hb : ∀ r ∈ b, r.dir.IsUnit) {reps : Nat} (minE : ℝ) {keepTree : Bool}
    (hk : keepTree = true ∨ 0 < reps) :
    ∃ res, rayTracer a.scene w b reps minE keepTree = .ok res :=
  C75_progress (fun _ _ h r => h.normal.IsUnit → h.ray.dir.IsUnit → r.dir.IsUnit) ha.shapeOk ha.nonempty
    (fun o ho s hs => (ha.geometry o ho s hs).lengthOk) (fun o ho s hs => (hopaque o ho s hs).keeps_unit)
    (fun _ _ _ _ _ _ h => h) (Q := fun r => r.dir.IsUnit) (fun _ hr => hr)
    (fun o ho s hs => C74_normals (ha.geometry o ho s hs) (ha.rigid o ho s hs)) (fun _ _ _ _ _ _ _ hl hn hq => hl hn hq)
    (fun o ho s hs => C75_forward (hplain o ho s hs) s.temp)
    (fun o ho s hs => by
      have := hopaque o ho s hs
      generalize s.data.2 = opt at this
      induction this with
      | mirror c => exact (C75_mirrors c _).1
      | oneSided c => exact (C75_mirrors c _).2.1
      | diffuse c draw hd => exact C75_lambertian c draw _
      | receiver c get set opt hopt ih => exact (C75_mirrors c _).2.2 opt get set ih)
    w hb minE hk

/-- A hemisphere in the plane Z = 0, as a mirror. -/
noncomputable def bowl : List (Obj Unit ℝ Unit) :=
  [⟨[mkSurf ⟨fun frame rays => quadricFind (sphereABC 1 frame) (trimSelect nonzeroUT (hemisphereTest frame)) rays, sphereNormal⟩
      (reflective 0) 1], Obj.defaultOwn, Obj.defaultNext 1⟩]

/-- A ray from the centre of the bowl down, and one from below it up. -/
def insideAndBelow : Bundle ℝ Unit := [⟨⟨0, 0, 0⟩, ⟨0, 0, -1⟩, 1, 0, none, ()⟩, ⟨⟨0, 0, -2⟩, ⟨0, 0, 1⟩, 1, 0, none, ()⟩]

theorem bowl_register :
    quadricFind (sphereABC 1 1) (trimSelect nonzeroUT (hemisphereTest 1)) insideAndBelow =
      [((-1 : ℝ) : WithTop ℝ), ((3 : ℝ) : WithTop ℝ)] := by
  have h2 := candidate_axial (-2) 1 (by norm_num) (by norm_num) (by norm_num)
  have h1 : candidate (sphereABC 1 1 ⟨0, 0, 0⟩ ⟨0, 0, -1⟩) ⟨0, 0, 0⟩ ⟨0, 0, -1⟩ =
      some ⟨-1, 1, ⟨0, 0, 0⟩ + (-1 : ℝ) • ⟨0, 0, -1⟩, ⟨0, 0, 0⟩ + (1 : ℝ) • ⟨0, 0, -1⟩⟩ := by
    have habc : sphereABC 1 1 ⟨0, 0, 0⟩ ⟨0, 0, -1⟩ = (1, 0, -1) := by
      unfold sphereABC
      simp only [Tf.one_loc, V3.sub_x, V3.sub_y, V3.sub_z, V3.zero_x, V3.zero_y, V3.zero_z]
      norm_num
    rw [habc]
    unfold candidate
    simp only
    have hs : √((0 : ℝ) ^ 2 - 4 * 1 * -1) = 2 := by
      rw [show ((0 : ℝ) ^ 2 - 4 * 1 * -1) = 2 ^ 2 by norm_num, Real.sqrt_sq (by norm_num)]
    rw [hs, if_pos (by norm_num), if_neg (by unfold planarTol; norm_num)]
    norm_num
  have hinv : ∀ p : V3 ℝ, (1 : Tf ℝ).inv.point p = p := by
    intro p
    have := Tf.inv_point_point (t := (1 : Tf ℝ)) (M3.IsRotation.det_ne Tf.Rigid.one) p
    have e : (1 : Tf ℝ).point p = p := by unfold Tf.point; apply V3.ext <;> simp
    rwa [e] at this
  unfold quadricFind insideAndBelow
  simp only [List.map_cons, List.map_nil, h1, h2, Option.isSome_some, List.filterMap_cons, id, List.filterMap_nil]
  have hsel : trimSelect nonzeroUT (hemisphereTest 1)
      [⟨-1, 1, (⟨0, 0, 0⟩ : V3 ℝ) + (-1 : ℝ) • ⟨0, 0, -1⟩, (⟨0, 0, 0⟩ : V3 ℝ) + (1 : ℝ) • ⟨0, 0, -1⟩⟩,
       ⟨1, 3, (⟨0, 0, -2⟩ : V3 ℝ) + (1 : ℝ) • ⟨0, 0, 1⟩, (⟨0, 0, -2⟩ : V3 ℝ) + (3 : ℝ) • ⟨0, 0, 1⟩⟩] =
      [some false, some true] := by
    unfold trimSelect hemisphereTest
    simp only [List.map_cons, List.map_nil, hinv, V3.add_z, V3.smul_z]
    norm_num
    simp [nonzeroUT, fill, defaultSelect_eq]
  rw [hsel]
  simp [Cand.choose]

/-- C75 is false for hemispheres: the two rays are given each other's crossing, which for the first of them is behind it, and the engine raises
`ValueError`. -/
theorem C75_counterexample :
    (∃ g : Geometry ℝ Unit, hemisphereGM 1 = .ok g ∧
      bowl = [⟨[mkSurf g (reflective 0) 1], Obj.defaultOwn, Obj.defaultNext 1⟩]) ∧
    (∀ r ∈ insideAndBelow, r.dir.IsUnit) ∧
    ∀ (reps : Nat) (minE : ℝ) (keepTree : Bool),
      rayTracer bowl () insideAndBelow (reps + 1) minE keepTree = .error .value := by
  refine ⟨⟨_, by unfold hemisphereGM setRadius; rw [if_neg (by norm_num)], rfl⟩, ?_, ?_⟩
  · intro r hr
    unfold insideAndBelow at hr
    simp only [List.mem_cons, List.not_mem_nil, or_false] at hr
    rcases hr with rfl | rfl <;> · unfold V3.IsUnit V3.dot; norm_num
  · intro reps minE keepTree
    have hint : intersectRay insideAndBelow (bowl.flatMap Obj.surfs) (surfOwnership bowl)
        (initState bowl insideAndBelow ()).rayOwn (initState bowl insideAndBelow ()).relev = .error .value := by
      have hneg : (((-1 : ℝ) : WithTop ℝ) < ((-negTol : ℝ) : WithTop ℝ)) := by
        have : (-1 : ℝ) < -negTol := by unfold negTol; norm_num
        exact_mod_cast this
      unfold intersectRay
      rw [if_pos]
      rw [List.any_eq_true]
      refine ⟨[((-1 : ℝ) : WithTop ℝ), ((3 : ℝ) : WithTop ℝ)], ?_, ?_⟩
      · show _ ∈ [_]
        have hm : ownedMask (initState bowl insideAndBelow ()).rayOwn 0 (List.replicate insideAndBelow.length true) = [true, true] := rfl
        rw [List.mem_singleton, hm]
        unfold stackRow
        rw [if_pos (by rfl), if_neg (by decide)]
        have hr : (mkSurf (σ := Unit) (E := Unit) ⟨fun frame rays =>
            quadricFind (sphereABC 1 frame) (trimSelect nonzeroUT (hemisphereTest frame)) rays, sphereNormal⟩
            (reflective 0) 1).register insideAndBelow = [((-1 : ℝ) : WithTop ℝ), ((3 : ℝ) : WithTop ℝ)] := bowl_register
        simp only
        rw [hr]
        rfl
      · rw [List.any_cons, decide_eq_true hneg, Bool.true_or]
    have hg : getSurfaces bowl = .ok (bowl.flatMap Obj.surfs) := rfl
    unfold rayTracer
    rw [hg]
    simp only
    rw [traceLoop]
    unfold iterate
    have hb : (initState bowl insideAndBelow ()).bund = insideAndBelow := rfl
    rw [hb, hint]

end

/-- The mirror under a glass surface is a scene of the package's components. -/
theorem glassAndMirror_library : LibraryScene 1 (3 / 2) glassAndMirror := by
  have hR : ∀ v : V3 ℝ, (⟨1, v⟩ : Tf ℝ).Rigid := fun _ => Tf.Rigid.one
  refine ⟨⟨_, List.mem_cons_self, fun h => by cases h⟩, ?_, ?_, ?_, ?_⟩
  · exact List.forall_mem_cons.2 ⟨List.forall_mem_cons.2 ⟨.mul (.mul (.mul .one (hR _)) (hR 0)) (hR 0), List.forall_mem_nil _⟩,
      List.forall_mem_cons.2 ⟨List.forall_mem_cons.2 ⟨.mul (.mul (.mul .one (hR _)) (hR ⟨0, 0, 2⟩)) (hR 0), List.forall_mem_nil _⟩,
        List.forall_mem_nil _⟩⟩
  · exact List.forall_mem_cons.2 ⟨List.forall_mem_cons.2 ⟨.plain _ .flat, List.forall_mem_nil _⟩,
      List.forall_mem_cons.2 ⟨List.forall_mem_cons.2 ⟨.plain _ .flat, List.forall_mem_nil _⟩, List.forall_mem_nil _⟩⟩
  · exact List.forall_mem_cons.2 ⟨List.forall_mem_cons.2 ⟨.mirror _, List.forall_mem_nil _⟩,
      List.forall_mem_cons.2 ⟨List.forall_mem_cons.2 ⟨.refractive, List.forall_mem_nil _⟩, List.forall_mem_nil _⟩⟩
  · exact List.forall_mem_cons.2 ⟨.inl rfl, List.forall_mem_cons.2 ⟨.inl rfl, List.forall_mem_nil _⟩⟩

/-- C74 and C75 apply to a mirror under a glass surface. -/
example (reps : Nat) (minE : ℝ) :
    ∃ res : TraceResult Unit ℝ Unit,
      rayTracer glassAndMirror.scene () [⟨⟨0, 0, 1⟩, ⟨0, 3 / 5, -4 / 5⟩, 1, 0, some 1, ()⟩] reps minE true = .ok res ∧
      ∀ lvl ∈ res.tree, ∀ r ∈ lvl, LegalRay 1 (3 / 2) r := by
  have hb : ∀ r ∈ ([⟨⟨0, 0, 1⟩, ⟨0, 3 / 5, -4 / 5⟩, 1, 0, some 1, ()⟩] : Bundle ℝ Unit), LegalRay 1 (3 / 2) r := by
    intro r hr
    rw [List.mem_singleton] at hr
    subst hr
    exact ⟨by norm_num [V3.IsUnit, V3.dot], Or.inl rfl⟩
  obtain ⟨res, h⟩ := C75_partial one_pos (by norm_num) (by norm_num) glassAndMirror_library
    (List.forall_mem_cons.2 ⟨List.forall_mem_cons.2 ⟨.flat, List.forall_mem_nil _⟩,
      List.forall_mem_cons.2 ⟨List.forall_mem_cons.2 ⟨.flat, List.forall_mem_nil _⟩, List.forall_mem_nil _⟩⟩) () hb minE (Or.inl rfl)
  exact ⟨res, h, (C74_library one_pos (by norm_num) glassAndMirror_library h).2 hb⟩

end Tracer
