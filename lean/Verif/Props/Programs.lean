import Verif.Lemmas.Programs
import Verif.Lemmas.Axial

/-! # Example programs (C101, C102) -/

namespace Tracer

open Real

variable {E σ : Type _}

/-- C101 for collectors: a `MiniDish` or `PETAL` collector with efficiencies between 0 and 1 is put anywhere and any light of non-negative
energy is traced through it.  What its receiver has absorbed, and what the rays without descendants carry, is no more than what the source
carried and what the receiver had absorbed before. -/
theorem C101_dishes_partial {diameter focal side depth aspect : ℝ} (hdia : 0 < diameter) (hf : 0 < focal) (hs : 0 < side)
    (hd : 0 < depth) (ha : 0 < aspect) {dishEff homogEff : ℝ} (hd0 : 0 ≤ dishEff) (hd1 : dishEff ≤ 1) (he0 : 0 ≤ homogEff)
    (he1 : homogEff ≤ 1) (pos : ℝ) {get : σ → Account ℝ} {set : Account ℝ → σ → σ} (hgs : ∀ acc w, get (set acc w) = acc)
    (junk : M3 ℝ) {T : Tf ℝ} (hT : T.Rigid) {a : SceneAsm σ ℝ E}
    (hmade : miniDish diameter focal dishEff pos side depth homogEff aspect get set junk = .ok a ∨
      petal diameter focal dishEff pos side depth homogEff aspect get set junk = .ok a)
    {w : σ} {b : Bundle ℝ E} {reps : Nat} {minE : ℝ} {res : TraceResult σ ℝ E} (hb : ∀ r ∈ b, 0 ≤ r.energy)
    (h : rayTracer (a.set (.transform T)).scene w b reps minE true = .ok res)
    (hnt : ∀ lvl ∈ res.tree, ∀ p ∈ lvl, NoTie Surf.single ((a.set (.transform T)).scene.flatMap Obj.surfs) p) :
    (get res.world).absorbed.flatten.sum + totalEnergy (treeLeaves res.tree) ≤ (get w).absorbed.flatten.sum + totalEnergy b := by
  rcases hmade with hm | hm
  · exact (collector_tally (.dish _ _ hdia hf) hd0 hd1 pos hs (mul_pos hs ha) hd he0 he1 hgs junk hT hm hb h hnt).1
  · exact (collector_tally (.hexagonal _ _ hdia hf) hd0 hd1 pos hs (mul_pos hs ha) hd he0 he1 hgs junk hT hm hb h hnt).1

/-- The hypotheses of `C101_dishes_partial` for light along the axis, in a collector that has been turned. -/
example (reps : Nat) : ∃ a res, miniDish (σ := Account ℝ) (E := Unit) 5 3 (9/10) 4 1 (1/2) (9/10) 1 id (fun a _ => a) 1 = .ok a ∧
    rayTracer (a.set (.transform (rotx 1))).scene Account.reset [⟨(rotx 1).point ⟨0, 0, 20⟩, (rotx 1).dir ⟨0, 0, -1⟩, 2, 0, none, ()⟩] reps 0 true =
      .ok res ∧
    (∀ lvl ∈ res.tree, ∀ p ∈ lvl, NoTie Surf.single ((a.set (.transform (rotx 1))).scene.flatMap Obj.surfs) p) := by
  have hT : (rotx 1).Rigid := (C26_rigid _ 0 0 0).1
  obtain ⟨a, h1, _, _, _, _, _, h2⟩ := (C76_dishes (σ := Account ℝ) (E := Unit) (diameter := 5) (focal := 3) (side := 1) (depth := 1/2) (aspect := 1)
    (by norm_num) (by norm_num) (by norm_num) (by norm_num) (by norm_num) (9/10) 4 (9/10) (get := id) (set := fun a _ => a) (fun _ _ => rfl) 1 hT).1
  obtain ⟨res, hres, _⟩ := h2 Account.reset [⟨(rotx 1).point ⟨0, 0, 20⟩, (rotx 1).dir ⟨0, 0, -1⟩, 2, 0, none, ()⟩] reps 0 rfl (by
    intro r hr
    rw [List.mem_singleton] at hr
    subst hr
    exact axial_unit hT (.inr rfl))
  refine ⟨a, res, h1, hres, fun lvl hl p hp => ?_⟩
  unfold miniDish at h1
  refine (axial_trace (by norm_num) (by norm_num) (by norm_num) (by norm_num) (by norm_num) (by norm_num) (by norm_num) _ hT h1 ?_ hres lvl hl p hp).2
  intro r hr
  rw [List.mem_singleton] at hr
  subst hr
  exact ⟨20, -1, .inr rfl, rfl, rfl⟩

/-- The picture's cells times their area and the 1000 W/m² of a sun. -/
theorem scaled_total {c : ℝ} (hc : c ≠ 0) (H : List (List ℝ)) :
    cellTotal (H.map fun row => row.map fun h => h / c / 1000) * c * 1000 = cellTotal H := by
  have key : ∀ l : List ℝ, (l.map fun h => h / c / 1000).sum * c * 1000 = l.sum := by
    intro l
    induction l with
    | nil => simp
    | cons x l ih =>
      simp only [List.map_cons, List.sum_cons]
      rw [add_mul, add_mul, ih]
      field_simp
  unfold cellTotal
  induction H with
  | nil => simp
  | cons r H ih =>
    simp only [List.map_cons, List.sum_cons] at ih ⊢
    rw [add_mul, add_mul, ih, key]

/-- The sun of `test_case`: unit directions, non-negative energies, and the power of 1000 W/m² on the disk. -/
theorem testCase_sun {dirDraws posDraws : List (ℝ × ℝ)} (hlen : dirDraws.length = posDraws.length) (hne : posDraws ≠ [])
    (hd : ∀ d ∈ dirDraws, 0 ≤ d.2 ∧ d.2 ≤ 1) (hp : ∀ d ∈ posDraws, 0 ≤ d.1 ∧ d.1 ≤ 1) (extra : E) :
    ∃ s sun, solarDisk ⟨0, 7, 7⟩ ⟨0, -1 / √2, -1 / √2⟩ (5 / 2) (5 / 1000) (some 1000) dirDraws posDraws = .ok s ∧
      s.rays extra = .ok sun ∧ sun.length = posDraws.length ∧ (∀ r ∈ sun, r.dir.IsUnit ∧ 0 ≤ r.energy) ∧
      totalEnergy sun = 1000 * (π * (5 / 2) ^ 2) := by
  have hu : V3.IsUnit (⟨0, -1 / √2, -1 / √2⟩ : V3 ℝ) := by
    unfold V3.IsUnit V3.dot
    have : √2 * √2 = (2 : ℝ) := mul_self_sqrt (by norm_num)
    field_simp
    nlinarith
  have hdisk := C56_disk (center := ⟨0, 7, 7⟩) (radius := 5 / 2) hu (ang := 5 / 1000) (by norm_num) (by linarith [two_le_pi])
    (some 1000) hlen hd hp
  obtain ⟨_, e, he, hel, _, hsum⟩ := C56_power (center := ⟨0, 7, 7⟩) (direction := ⟨0, -1 / √2, -1 / √2⟩) (radius := 5 / 2) (ang := 5 / 1000)
    (dirDraws := dirDraws) hne 1000
  have he0 : ∀ x ∈ e, 0 ≤ x := by
    intro x hx
    simp only [solarDiskBundle, Option.map_some, Option.some.injEq] at he
    rw [← he] at hx
    rw [(List.mem_replicate.1 hx).2]
    positivity
  have hl : posDraws.length ≠ 0 := fun h => hne (List.length_eq_zero_iff.1 h)
  refine ⟨_, _, by unfold solarDisk; rw [if_neg (fun h => hl h.2)], by unfold SourceBundle.rays; rw [he], ?_, ?_, ?_⟩
  · simp only [List.length_zipWith, List.length_zip, hdisk.1, hdisk.2.1, hel, min_self]
  · intro r hr
    obtain ⟨i, hi⟩ := List.getElem?_of_mem hr
    rw [List.getElem?_zipWith_eq_some] at hi
    obtain ⟨p, x, h1, h2, rfl⟩ := hi
    rw [List.getElem?_zip_eq_some] at h1
    exact ⟨(hdisk.2.2.2 _ (List.mem_of_getElem? h1.2)).1, he0 _ (List.mem_of_getElem? h2)⟩
  · rw [← hsum]
    have : ∀ (l : List (V3 ℝ × V3 ℝ)) (e : List ℝ), l.length = e.length →
        totalEnergy (List.zipWith (fun (p : V3 ℝ × V3 ℝ) e => (⟨p.1, p.2, e, 0, none, extra⟩ : Ray ℝ E)) l e) = e.sum := by
      intro l
      induction l with
      | nil => intro e h; cases e <;> simp_all [totalEnergy]
      | cons p l ih =>
        intro e h
        cases e with
        | nil => simp at h
        | cons x e =>
          have := ih e (by simpa using h)
          simp only [totalEnergy, List.zipWith_cons_cons, List.map_cons, List.sum_cons] at this ⊢
          rw [this]
    exact this _ _ (by rw [List.length_zip, hdisk.1, hdisk.2.1, hel, min_self])

/-- All that is shown of `test_case`. -/
theorem testCase_runs {focus hDepth side : ℝ} (hf : 0 < focus) (hh : 0 < hDepth) (hs : 0 < side) {dirDraws posDraws : List (ℝ × ℝ)}
    (hlen : dirDraws.length = posDraws.length) (hne : posDraws ≠ []) (hd : ∀ d ∈ dirDraws, 0 ≤ d.2 ∧ d.2 ≤ 1)
    (hp : ∀ d ∈ posDraws, 0 ≤ d.1 ∧ d.1 ≤ 1) {get : σ → Account ℝ} {set : Account ℝ → σ → σ} (hgs : ∀ acc w, get (set acc w) = acc)
    (junk : M3 ℝ) {w : σ} (h0 : get w = Account.reset) (extra : E) :
    ∃ (a : SceneAsm σ ℝ E) (res : TraceResult σ ℝ E) (picture : List (List ℝ)),
      testCase focus hDepth side dirDraws posDraws get set junk w extra = .ok (a, res, picture) ∧
      (picture.length = 50 ∧ ∀ row ∈ picture, row.length = 50) ∧
      cellTotal picture * (side / 50) ^ 2 * 1000 = (get res.world).absorbed.flatten.sum ∧
      ((∀ lvl ∈ res.tree, ∀ p ∈ lvl, NoTie Surf.single (a.scene.flatMap Obj.surfs) p) →
        cellTotal picture * (side / 50) ^ 2 ≤ π * (5 / 2) ^ 2) := by
  have hT : (rotx (-π / 4)).Rigid := (C26_rigid _ 0 0 0).1
  have hs1 : 0 < side * 1 := by linarith
  obtain ⟨a, g, ha, hg, walls, rec, refl, ho, hwl, hw, hr, _, hl, _⟩ := collector_objects
    (Surface.new (parabolicDishGM 5 focus) (reflective (1 - 9 / 10)) 1 : SceneSurf σ ℝ E) (focus + hDepth) hs hs1 hh (9 / 10) get set junk
    (rotx (-π / 4))
  have hdish : PlainGeometry (parabolicDishGM 5 focus : Geometry ℝ E) := .dish _ _ (by norm_num) hf
  obtain ⟨a', ha', hrun⟩ := C75_collector (Surface.new (parabolicDishGM 5 focus) (reflective (1 - 9 / 10)) 1 : SceneSurf σ ℝ E) hdish
    (.mirror _) Tf.Rigid.one (focus + hDepth) hs hs1 hh (9 / 10) get set junk hT
  rw [ha] at ha'
  cases ha'
  obtain ⟨s, sun, hsun, hrays, _, hgood, htot⟩ := testCase_sun hlen hne hd hp extra
  obtain ⟨res, hres⟩ := hrun w sun 100 (1 / 10 ^ 6) fun r hr => (hgood r hr).1
  have hkeeps := collector_surfs (Surface.new (parabolicDishGM 5 focus) (reflective (1 - 9 / 10)) 1 : SceneSurf σ ℝ E) (focus + hDepth)
    hs hs1 hh (9 / 10) get set junk (rotx (-π / 4)) ha
  obtain ⟨H, hH, hcell⟩ := C76_trace (objs := (a.set (.transform (rotx (-π / 4)))).scene) hgs
    ((hT.mul (receiverFrame_rigid (focus + hDepth))).mul Tf.Rigid.one) hg (by
      refine scene_all fun n hn m hm => ?_
      rw [ho, List.mem_append] at hn
      rcases hn with hn | hn
      · obtain ⟨own, g', _, _, hsu, _⟩ := hw n hn
        rw [hsu, List.mem_singleton] at hm
        subst hm
        exact .inl (keeps_ignores (mirror_keeps _ _))
      · rw [List.mem_cons, List.mem_singleton] at hn
        rcases hn with rfl | rfl
        · rw [hr, List.mem_cons, List.mem_singleton] at hm
          rcases hm with rfl | rfl
          · exact .inr ⟨1, reflective 1, (C51_reflective _ _).1, rfl⟩
          · exact .inl (keeps_ignores (C51_reflective _ _).1)
        · rw [hl, List.mem_singleton] at hm
          subst hm
          exact .inl (keeps_ignores (C51_reflective _ _).1)) hres h0 (bins := 50) (by norm_num)
  have hc : ((side / 50) ^ 2 : ℝ) ≠ 0 := by positivity
  have hobj : ((a.set (.transform (rotx (-π / 4)))).getObjects[4]?).bind (fun o => o.surfs[0]?) =
      some ⟨1, rotx (-π / 4) * (translate 0 0 (focus + hDepth) * rotx π) * 1, (g, reflectiveReceiver 1 get set)⟩ := by
    rw [ho, List.getElem?_append_right (by omega), hwl]
    simp [hr]
  have hdim : H.length = 50 ∧ ∀ row ∈ H, row.length = 50 := by
    unfold histogramHits at hH
    split at hH
    · cases hH
    · split at hH
      · cases hH
      · simp only [OfNat.ofNat_ne_zero, ↓reduceIte, Except.ok.injEq, Prod.mk.injEq] at hH
        rw [← hH.1]
        unfold histogram2d
        refine ⟨by simp, ?_⟩
        intro row hrow
        obtain ⟨i, _, rfl⟩ := List.mem_map.1 hrow
        simp
  refine ⟨a.set (.transform (rotx (-π / 4))), res, H.map fun row => row.map fun h => h / (side / 50) ^ 2 / 1000, ?_, ?_, ?_, ?_⟩
  · unfold testCase
    unfold miniDish
    simp only [ha, hsun, hrays, hres]
    unfold collectorHistogram
    rw [hobj]
    simp only [hH]
  · refine ⟨by rw [List.length_map]; exact hdim.1, ?_⟩
    intro row hrow
    obtain ⟨row', hr', rfl⟩ := List.mem_map.1 hrow
    rw [List.length_map]
    exact hdim.2 _ hr'
  · rw [scaled_total hc, hcell]
  · intro hnt
    obtain ⟨h1, h2⟩ := collector_tally hdish (by norm_num) (by norm_num) (focus + hDepth) hs hs1 hh (by norm_num) (by norm_num) hgs junk hT
      ha (fun r hr => (hgood r hr).2) hres hnt
    rw [← hcell, ← scaled_total hc, htot, h0] at h1
    simp only [Account.reset, List.flatten_nil, List.sum_nil, zero_add] at h1
    linarith

/-- C102: with sensible options the program runs to its end whatever the random generator draws, and the 50 × 50 picture, each cell times its
area and 1000 W/m², holds exactly what the receiver has absorbed. -/
theorem C102_picture {focus hDepth side : ℝ} (hf : 0 < focus) (hh : 0 < hDepth) (hs : 0 < side) {dirDraws posDraws : List (ℝ × ℝ)}
    (hlen : dirDraws.length = posDraws.length) (hne : posDraws ≠ []) (hd : ∀ d ∈ dirDraws, 0 ≤ d.2 ∧ d.2 ≤ 1)
    (hp : ∀ d ∈ posDraws, 0 ≤ d.1 ∧ d.1 ≤ 1) {get : σ → Account ℝ} {set : Account ℝ → σ → σ} (hgs : ∀ acc w, get (set acc w) = acc)
    (junk : M3 ℝ) {w : σ} (h0 : get w = Account.reset) (extra : E) :
    ∃ (a : SceneAsm σ ℝ E) (res : TraceResult σ ℝ E) (picture : List (List ℝ)),
      testCase focus hDepth side dirDraws posDraws get set junk w extra = .ok (a, res, picture) ∧
      (picture.length = 50 ∧ ∀ row ∈ picture, row.length = 50) ∧
      cellTotal picture * (side / 50) ^ 2 * 1000 = (get res.world).absorbed.flatten.sum := by
  obtain ⟨a, res, picture, h1, h2, h3, _⟩ := testCase_runs hf hh hs hlen hne hd hp hgs junk h0 extra
  exact ⟨a, res, picture, h1, h2, h3⟩

/-- C102: averaged over the receiver, the picture shows no more suns than the area of the sun's disk over that of the receiver, in a trace in
which no ray meets two surfaces at once. -/
theorem C102_suns_partial {focus hDepth side : ℝ} (hf : 0 < focus) (hh : 0 < hDepth) (hs : 0 < side) {dirDraws posDraws : List (ℝ × ℝ)}
    (hlen : dirDraws.length = posDraws.length) (hne : posDraws ≠ []) (hd : ∀ d ∈ dirDraws, 0 ≤ d.2 ∧ d.2 ≤ 1)
    (hp : ∀ d ∈ posDraws, 0 ≤ d.1 ∧ d.1 ≤ 1) {get : σ → Account ℝ} {set : Account ℝ → σ → σ} (hgs : ∀ acc w, get (set acc w) = acc)
    (junk : M3 ℝ) {w : σ} (h0 : get w = Account.reset) (extra : E) {a : SceneAsm σ ℝ E} {res : TraceResult σ ℝ E} {picture : List (List ℝ)}
    (h : testCase focus hDepth side dirDraws posDraws get set junk w extra = .ok (a, res, picture))
    (hnt : ∀ lvl ∈ res.tree, ∀ p ∈ lvl, NoTie Surf.single (a.scene.flatMap Obj.surfs) p) :
    cellTotal picture / (50 * 50) ≤ π * (5 / 2) ^ 2 / side ^ 2 := by
  obtain ⟨a', res', picture', h1, _, _, h4⟩ := testCase_runs hf hh hs hlen hne hd hp hgs junk h0 extra
  rw [h] at h1
  cases h1
  have := h4 hnt
  rw [le_div_iff₀ (by positivity)]
  refine le_trans (le_of_eq ?_) this
  ring

/-- C102: a receiver or a homogenizer without extent is refused, and so is a sun without rays. -/
theorem C102_raises (focus hDepth side : ℝ) (dirDraws posDraws : List (ℝ × ℝ)) (get : σ → Account ℝ) (set : Account ℝ → σ → σ) (junk : M3 ℝ)
    (w : σ) (extra : E) :
    ((hDepth ≤ 0 ∨ side ≤ 0) → testCase focus hDepth side dirDraws posDraws get set junk w extra = .error .value) ∧
    (0 < hDepth → 0 < side → posDraws = [] → testCase focus hDepth side dirDraws posDraws get set junk w extra = .error .zerodiv) := by
  constructor
  · intro h
    unfold testCase miniDish homogenizedLocalReceiver oneSidedReceiver
    by_cases hs : side ≤ 0
    · have : (rectPlateGM side (side * 1) : Except Err (Geometry ℝ E)) = .error .value := by
        unfold rectPlateGM
        rw [if_pos hs]
      simp only [this]
    · have hh : hDepth ≤ 0 := h.resolve_right hs
      obtain ⟨g, hg⟩ := (C31_constructor (K := ℝ) (E := E) side (side * 1)).1 ⟨not_le.1 hs, by linarith [not_le.1 hs]⟩
      have : (rectPlateGM hDepth (side * 1) : Except Err (Geometry ℝ E)) = .error .value := by
        unfold rectPlateGM
        rw [if_pos hh]
      simp only [hg, rectHomogenizer, rectOneSidedMirror, this]
      rfl
  · intro hh hs hp
    subst hp
    obtain ⟨a, _, ha, _⟩ := collector_objects
      (Surface.new (parabolicDishGM 5 focus) (reflective (1 - 9 / 10)) 1 : SceneSurf σ ℝ E) (focus + hDepth) hs (y := side * 1) (by linarith) hh
      (9 / 10) get set junk 1
    unfold testCase miniDish
    simp only [ha, solarDisk, Option.isSome_some, List.length_nil, and_self, ↓reduceIte]

/-- The hypotheses of `C102_suns_partial`: a ray from the centre of the sun. -/
example : ∃ (a : SceneAsm (Account ℝ) ℝ Unit) (res : TraceResult (Account ℝ) ℝ Unit) (picture : List (List ℝ)),
    testCase 6 (7/10) (4/10) [(0, 0)] [(0, 0)] id (fun a _ => a) 1 Account.reset () = .ok (a, res, picture) ∧
    ∀ lvl ∈ res.tree, ∀ p ∈ lvl, NoTie Surf.single (a.scene.flatMap Obj.surfs) p := by
  obtain ⟨a, res, picture, h1, _⟩ := C102_picture (E := Unit) (focus := 6) (hDepth := 7/10) (side := 4/10) (dirDraws := [(0, 0)]) (posDraws := [(0, 0)])
    (by norm_num) (by norm_num) (by norm_num) rfl (by simp) (by simp) (by simp) (get := id) (set := fun a _ => a) (fun _ _ => rfl) 1
    (w := Account.reset) rfl ()
  refine ⟨a, res, picture, h1, fun lvl hl p hp => ?_⟩
  have hT : (rotx (-π / 4)).Rigid := (C26_rigid _ 0 0 0).1
  unfold testCase at h1
  cases hm : (miniDish 5 6 (9 / 10) (6 + 7 / 10) (4 / 10) (7 / 10) (9 / 10) 1 id (fun a _ => a) 1 : Except Err (SceneAsm (Account ℝ) ℝ Unit)) with
  | error e => rw [hm] at h1; cases h1
  | ok a0 =>
  rw [hm] at h1
  simp only [solarDisk, Option.isSome_some, List.length_cons, List.length_nil, Nat.reduceAdd, one_ne_zero, and_false, ↓reduceIte,
    SourceBundle.rays, solarDiskBundle, Option.map_some] at h1
  split at h1
  · cases h1
  · rename_i res' hres
    split at h1
    · cases h1
    · cases h1
      unfold miniDish at hm
      refine (axial_trace (by norm_num) (by norm_num) (by norm_num) (by norm_num) (by norm_num) (by norm_num) (by norm_num) _ hT hm ?_ hres lvl hl p hp).2
      intro r hr
      simp [pillbox] at hr
      subst hr
      have hu : V3.IsUnit (⟨0, -1 / √2, -1 / √2⟩ : V3 ℝ) := by
        unfold V3.IsUnit V3.dot
        have : √2 * √2 = (2 : ℝ) := mul_self_sqrt (by norm_num)
        field_simp
        nlinarith
      have hc : cos (-π / 4) = √2 / 2 := by rw [neg_div, cos_neg, cos_pi_div_four]
      have hsn : sin (-π / 4) = -(√2 / 2) := by rw [neg_div, sin_neg, sin_pi_div_four]
      have h2 : √2 * √2 = (2 : ℝ) := mul_self_sqrt (by norm_num)
      have h3 := (C27_rotation_to_z hu).2.1
      refine ⟨7 * √2, -1, .inr rfl, ?_, ?_⟩
      · apply V3.ext <;> simp [Tf.point, rotx, M3.mulVec_x, M3.mulVec_y, M3.mulVec_z, hc, hsn] <;> nlinarith
      · have e : (-1 : ℝ) / √2 = -(√2 / 2) := by field_simp; nlinarith
        have hx := congrArg V3.x h3
        have hy := congrArg V3.y h3
        have hz := congrArg V3.z h3
        simp only [e] at hx hy hz
        apply V3.ext <;> simp [pillboxOne, Tf.dir, rotx, M3.mulVec_x, M3.mulVec_y, M3.mulVec_z, hc, hsn, e, hx, hy, hz]

end Tracer
