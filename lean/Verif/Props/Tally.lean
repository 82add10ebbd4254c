import Verif.Lemmas.Tally

/-!
# Receivers do not report more light than there was (C101)
-/

set_option linter.unusedSectionVars false

namespace Tracer

section
variable {K E σ : Type _} [Field K] [LinearOrder K] [IsStrictOrderedRing K]
  {objs : List (Obj σ K E)} {w : σ} {b : Bundle K E} {reps : Nat} {minE : K} {res : TraceResult σ K E} {Q : Ray K E → Prop}

/-- Any scene: if no surface gives out and writes down more than it got, then what is written down during a trace and what the
childless rays carry sum to no more than what the source carried, when no two surfaces answer the same parameter for a ray. -/
theorem C101_scene (hobj : ∀ o ∈ objs, o.ShapeOk) (hlen : AllSurfs Surf.LengthOk objs)
    (hpar : AllSurfs Surf.ParentsOk objs) (htot : AllSurfs Surf.Total objs) {absorbed : σ → K}
    (hcred : AllSurfs (Surf.Creditable absorbed Q) objs) (h : rayTracer objs w b reps minE true = .ok res)
    (hgood : ∀ lvl ∈ res.tree, ∀ p ∈ lvl, (0 ≤ p.energy ∧ Q p) ∧ NeverTie (objs.flatMap Obj.surfs) p) :
    absorbed res.world + totalEnergy (treeLeaves res.tree) ≤ absorbed w + totalEnergy b := by
  obtain ⟨steps, stf, l, hrun, hw, hl, hl'⟩ := recorded_levels hobj h
  have hleaves : treeLeaves (b :: steps.map fun s => s.2.1) = treeLeaves res.tree := by
    rw [hl]
    rcases hl' with rfl | rfl
    · rw [List.append_nil]
    · rw [treeLeaves_append_nil]
  have := hrun.tally hobj hlen hpar htot hcred (initState_shape objs b w) (L := b) (weak := []) (by simp [initState]) (by
    intro lvl hlv p hp
    rw [hl, List.mem_append] at hlv
    rcases hlv with hlv | hlv
    · exact hgood lvl hlv p hp
    · rcases hl' with rfl | rfl
      · simp at hlv
      · simp at hlv; subst hlv; simp at hp)
  rw [hleaves, ← hw] at this
  exact this

/-- The same with ties, for default policies and surfaces that treat rays one by one: each nearest surface of a ray after the first
may add the ray's energy once more. -/
theorem C101_scene_ties {per : Surf σ K E → Ray K E → WithTop K} (hdef : ∀ o ∈ objs, o.Default)
    (hper : AllSurfs (fun s => s.PerRay (per s)) objs) (hpar : AllSurfs Surf.ParentsOk objs)
    (htot : AllSurfs Surf.Total objs) {absorbed : σ → K} (hcred : AllSurfs (Surf.Creditable absorbed Q) objs)
    (h : rayTracer objs w b reps minE true = .ok res) (hgood : ∀ lvl ∈ res.tree, ∀ p ∈ lvl, 0 ≤ p.energy ∧ Q p) :
    absorbed res.world + totalEnergy (treeLeaves res.tree) ≤ absorbed w + totalEnergy b +
      ((res.tree.take reps).zipIdx.flatMap fun x =>
        duplicates per (objs.flatMap Obj.surfs) (propagated minE x.2 x.1)).sum := by
  have hempty : ∀ x : Bundle K E × Nat, propagated minE x.2 x.1 = [] →
      duplicates per (objs.flatMap Obj.surfs) (propagated minE x.2 x.1) = [] := fun x hx => by rw [hx]; rfl
  obtain ⟨steps, stf, hrun, hw, hmem, hl, hlv⟩ := traced_levels_all hdef hper h
    (fun x => duplicates per (objs.flatMap Obj.surfs) (propagated minE x.2 x.1)) hempty
  have := hrun.tally_ties hdef hper hpar htot hcred (initState_shape objs b w) (initState_free objs b w) (L := b) (weak := [])
    (by simp [initState]) (k := 0) (by simp [propagated, initState]) (by
      intro lvl hlv p hp
      rcases hmem lvl hlv with hlv | rfl
      · exact hgood lvl hlv p hp
      · cases hp)
  rw [hl, ← hw, hlv] at this
  exact this

end

section
variable {E τ : Type _} {M : ℝ → Prop} {a : SceneAsm (Receivers ℝ × τ) ℝ E} {w : Receivers ℝ × τ} {b : Bundle ℝ E} {reps : Nat}
  {minE : ℝ} {res : TraceResult (Receivers ℝ × τ) ℝ E}

theorem MediaScene.total {σ : Type _} {a : SceneAsm σ ℝ E} (hopt : ∀ o ∈ a.getObjects, ∀ s ∈ o.surfs, s.data.2.Total) :
    AllSurfs Surf.Total a.scene := scene_all fun o ho s hs => mkSurf_total _ (hopt o ho s hs) _

/-- C101, partial: in a scene of the package's components, whatever set `S` of the receivers one looks at, the energy they write down
during a trace and the energy of the childless rays sum to no more than the energy of the source.  Missing: rays for which two surfaces
answer the same parameter (`C101_fails`). -/
theorem C101_bound_partial (ha : MediaScene M a) (hopt : ∀ o ∈ a.getObjects, ∀ s ∈ o.surfs, TallyOptics M s.data.2)
    (hb : ∀ r ∈ b, MediaRay M r ∧ 0 ≤ r.energy) (h : rayTracer a.scene w b reps minE true = .ok res)
    (hnt : ∀ lvl ∈ res.tree, ∀ p ∈ lvl, NeverTie (a.scene.flatMap Obj.surfs) p) (S : Finset Nat) :
    reported S res.world.1 + totalEnergy (treeLeaves res.tree) ≤ reported S w.1 + totalEnergy b := by
  have hnn := C15_library_nonneg ha (fun o ho s hs => (hopt o ho s hs).physical) hb h
  exact C101_scene (absorbed := fun w : Receivers ℝ × τ => reported S w.1) (Q := fun _ => True) ha.shapeOk ha.lengthOk ha.parentsOk
    (MediaScene.total fun o ho s hs => (hopt o ho s hs).total)
    (scene_all fun o ho s hs => mkSurf_creditable _ ((hopt o ho s hs).creditable S _) _) h
    fun lvl hl p hp => ⟨⟨hnn lvl hl p hp, trivial⟩, hnt lvl hl p hp⟩

/-- The leaves of a tree are rays of the tree. -/
theorem mem_treeLeaves {K E : Type _} {tree : List (Bundle K E)} {r : Ray K E} (h : r ∈ treeLeaves tree) : ∃ lvl ∈ tree, r ∈ lvl := by
  induction tree with
  | nil => cases h
  | cons l tree ih =>
    cases tree with
    | nil => exact ⟨l, List.mem_cons_self, h⟩
    | cons l' tree =>
      rcases List.mem_append.1 h with h | h
      · refine ⟨l, List.mem_cons_self, ?_⟩
        obtain ⟨x, hx, rfl⟩ := List.mem_map.1 h
        exact List.mem_of_getElem? (List.mem_zipIdx_iff_getElem?.1 (List.mem_filter.1 hx).1)
      · obtain ⟨lvl, h1, h2⟩ := ih h
        exact ⟨lvl, List.mem_cons_of_mem _ h1, h2⟩

/-- C101, partial: no set of receivers whose memory is clear reports more than the source carried.  Missing: ties. -/
theorem C101_receivers_partial (ha : MediaScene M a) (hopt : ∀ o ∈ a.getObjects, ∀ s ∈ o.surfs, TallyOptics M s.data.2)
    (hb : ∀ r ∈ b, MediaRay M r ∧ 0 ≤ r.energy) (h : rayTracer a.scene w b reps minE true = .ok res)
    (hnt : ∀ lvl ∈ res.tree, ∀ p ∈ lvl, NeverTie (a.scene.flatMap Obj.surfs) p) (S : Finset Nat)
    (hw : ∀ i ∈ S, w.1 i = Account.reset) : reported S res.world.1 ≤ totalEnergy b := by
  have h1 := C101_bound_partial ha hopt hb h hnt S
  have h2 : reported S w.1 = 0 := Finset.sum_eq_zero fun i hi => by rw [hw i hi]; rfl
  have hnn := C15_library_nonneg ha (fun o ho s hs => (hopt o ho s hs).physical) hb h
  have h3 : 0 ≤ totalEnergy (treeLeaves res.tree) := List.sum_nonneg fun x hx => by
    obtain ⟨r, hr, rfl⟩ := List.mem_map.1 hx
    obtain ⟨lvl, hl, hr⟩ := mem_treeLeaves hr
    exact hnn lvl hl r hr
  linarith

/-- Surfaces that treat rays one by one: if no two of them answer the same parameter for a ray on its own, they never do. -/
theorem NoTie.never {K E σ : Type _} {surfs : List (Surf σ K E)} (hper : ∀ s ∈ surfs, s.PerRay s.single) {p : Ray K E}
    (h : NoTie Surf.single surfs p) : NeverTie surfs p := by
  intro k k' s s' t rays rays' i i' e1 e1' e2 e2' e3 e3'
  rw [hper s (List.mem_of_getElem? e1), List.getElem?_map, e2] at e3
  rw [hper s' (List.mem_of_getElem? e1'), List.getElem?_map, e2'] at e3'
  exact h k k' s s' t e1 e1' (Option.some.inj e3) (Option.some.inj e3')

theorem plain_perRay {σ : Type _} {a : SceneAsm σ ℝ E} (hplain : ∀ o ∈ a.getObjects, ∀ s ∈ o.surfs, PlainGeometry s.data.1) :
    AllSurfs (fun s => s.PerRay s.single) a.scene := scene_all fun o ho s hs => by
  obtain ⟨f, hf⟩ := (hplain o ho s hs).perRay
  exact (mkSurf_perRay hf s.data.2 s.temp).single

/-- C101 with ties: in a scene of the package's components with default policies, without hemispheres and cut spheres, no set of
receivers whose memory is clear reports more than the source carried and, for each traced ray, its energy once more for each nearest
surface after the first. -/
theorem C101_ties (ha : MediaScene M a) (hdef : ∀ o ∈ a.getObjects, o.data = (Obj.defaultOwn, Obj.defaultNext o.surfs.length))
    (hplain : ∀ o ∈ a.getObjects, ∀ s ∈ o.surfs, PlainGeometry s.data.1)
    (hopt : ∀ o ∈ a.getObjects, ∀ s ∈ o.surfs, TallyOptics M s.data.2)
    (hb : ∀ r ∈ b, MediaRay M r ∧ 0 ≤ r.energy) (h : rayTracer a.scene w b reps minE true = .ok res) (S : Finset Nat)
    (hw : ∀ i ∈ S, w.1 i = Account.reset) :
    reported S res.world.1 ≤ totalEnergy b + ((res.tree.take reps).zipIdx.flatMap fun x =>
      duplicates Surf.single (a.scene.flatMap Obj.surfs) (propagated minE x.2 x.1)).sum := by
  have hd : ∀ o ∈ a.scene, o.Default := by
    intro o ho
    obtain ⟨q, hq, rfl⟩ := List.mem_map.1 ho
    have := hdef q hq
    refine ⟨?_, ?_⟩
    · exact congrArg Prod.fst this
    · have e := congrArg Prod.snd this
      simpa using e
  have hnn := C15_library_nonneg ha (fun o ho s hs => (hopt o ho s hs).physical) hb h
  have h1 := C101_scene_ties (absorbed := fun w : Receivers ℝ × τ => reported S w.1) (Q := fun _ => True) hd (plain_perRay hplain)
    ha.parentsOk (MediaScene.total fun o ho s hs => (hopt o ho s hs).total)
    (scene_all fun o ho s hs => mkSurf_creditable _ ((hopt o ho s hs).creditable S _) _) h
    fun lvl hl p hp => ⟨hnn lvl hl p hp, trivial⟩
  have h2 : reported S w.1 = 0 := Finset.sum_eq_zero fun i hi => by rw [hw i hi]; rfl
  have h3 : 0 ≤ totalEnergy (treeLeaves res.tree) := List.sum_nonneg fun x hx => by
    obtain ⟨r, hr, rfl⟩ := List.mem_map.1 hx
    obtain ⟨lvl, hl, hr⟩ := mem_treeLeaves hr
    exact hnn lvl hl r hr
  linarith

end

/-- C101 is false of the code when surfaces coincide: two receivers in the same plane, each of absorptivity 1, report twice what the
source carried. -/
theorem C101_fails : ∃ (objs : List (Obj (Receivers ℚ) ℚ Unit)) (b : Bundle ℚ Unit) (res : TraceResult (Receivers ℚ) ℚ Unit),
    objs = [⟨[mkSurf flatGM (receiverAt 0 1) 1], Obj.defaultOwn, Obj.defaultNext 1⟩,
      ⟨[mkSurf flatGM (receiverAt 1 1) 1], Obj.defaultOwn, Obj.defaultNext 1⟩] ∧
    rayTracer objs (fun _ => Account.reset) b 1 0 true = .ok res ∧ totalEnergy b = 2 ∧ reported {0, 1} res.world = 4 := by
  let objs : List (Obj (Receivers ℚ) ℚ Unit) := [⟨[mkSurf flatGM (receiverAt 0 1) 1], Obj.defaultOwn, Obj.defaultNext 1⟩,
      ⟨[mkSurf flatGM (receiverAt 1 1) 1], Obj.defaultOwn, Obj.defaultNext 1⟩]
  have h : ((rayTracer objs (fun _ => Account.reset) Examples.source 1 0 true).toOption.map fun r =>
      reported {0, 1} r.world) = some 4 := by
    decide +kernel
  cases hr : rayTracer objs (fun _ => Account.reset) Examples.source 1 0 true with
  | error e => rw [hr] at h; simp [Except.toOption] at h
  | ok res =>
    rw [hr] at h
    exact ⟨objs, Examples.source, res, rfl, hr, by norm_num [totalEnergy, Examples.source], by simpa [Except.toOption] using h⟩

/-! ## Oil on glass over a receiver -/

/-- Air above a layer of oil, on glass, on a receiver that absorbs three quarters. -/
noncomputable def oilOnReceiver : SceneAsm (Receivers ℝ × Unit) ℝ Unit :=
  .mk 1 [] [⟨1, [⟨1, 1, (flatGM, accountant (3 / 4) (fun w => w.1 0) (fun acc w => (Function.update w.1 0 acc, w.2)) (reflective (3 / 4)))⟩,
    ⟨1, ⟨1, ⟨0, 0, 1⟩⟩, (flatGM, refractiveHomogenous (4 / 3) (3 / 2))⟩,
    ⟨1, ⟨1, ⟨0, 0, 2⟩⟩, (flatGM, refractiveHomogenous 1 (4 / 3))⟩], (Obj.defaultOwn, Obj.defaultNext 3)⟩]

theorem oilOnReceiver_tally : ∀ o ∈ oilOnReceiver.getObjects, ∀ s ∈ o.surfs,
    TallyOptics (fun n => n = 1 ∨ n = 4 / 3 ∨ n = 3 / 2) s.data.2 :=
  List.forall_mem_cons.2 ⟨List.forall_mem_cons.2 ⟨.receiver 0 reflective _ .mirror (by norm_num) (by norm_num), List.forall_mem_cons.2
    ⟨.refractive _ _ (by norm_num) (by norm_num) (by norm_num),
      List.forall_mem_cons.2 ⟨.refractive _ _ (by norm_num) (by norm_num) (by norm_num), List.forall_mem_nil _⟩⟩⟩, List.forall_mem_nil _⟩

theorem oilOnReceiver_media : MediaScene (fun n => n = 1 ∨ n = 4 / 3 ∨ n = 3 / 2) oilOnReceiver := by
  have hR : ∀ v : V3 ℝ, (⟨1, v⟩ : Tf ℝ).Rigid := fun _ => Tf.Rigid.one
  refine ⟨?_, ⟨_, List.mem_cons_self, fun h => by cases h⟩, ?_, ?_, fun o ho s hs => (oilOnReceiver_tally o ho s hs).media, ?_⟩
  · rintro n (rfl | rfl | rfl) <;> norm_num
  · exact List.forall_mem_cons.2 ⟨List.forall_mem_cons.2 ⟨.one, List.forall_mem_cons.2 ⟨hR _, List.forall_mem_cons.2 ⟨hR _,
      List.forall_mem_nil _⟩⟩⟩, List.forall_mem_nil _⟩
  · exact List.forall_mem_cons.2 ⟨List.forall_mem_cons.2 ⟨.plain _ .flat, List.forall_mem_cons.2 ⟨.plain _ .flat,
      List.forall_mem_cons.2 ⟨.plain _ .flat, List.forall_mem_nil _⟩⟩⟩, List.forall_mem_nil _⟩
  · exact List.forall_mem_cons.2 ⟨.inl rfl, List.forall_mem_nil _⟩

theorem oilOnReceiver_noTie (p : Ray ℝ Unit) : NoTie Surf.single (oilOnReceiver.scene.flatMap Obj.surfs) p := by
  have hs : ∀ (k : Nat) s, (oilOnReceiver.scene.flatMap Obj.surfs)[k]? = some s → ∀ t : ℝ, s.single p = (t : WithTop ℝ) →
      p.vertex.z + t * p.dir.z = k := by
    have key : ∀ (c : ℝ) (opt : Optics (Receivers ℝ × Unit) ℝ Unit) (t : ℝ),
        (mkSurf flatGM opt ⟨1, ⟨0, 0, c⟩⟩).single p = (t : WithTop ℝ) →
        p.vertex.z + t * p.dir.z = c := fun c opt t ht => flatParam_level (by rw [← ht]; rfl)
    intro k s hk t ht
    match k, hk with
    | 0, hk => cases hk; simpa using key 0 _ t (by rw [← ht]; rfl)
    | 1, hk => cases hk; simpa using key 1 _ t (by rw [← ht])
    | 2, hk => cases hk; simpa using key 2 _ t (by rw [← ht])
    | k + 3, hk => cases hk
  intro k k' s s' t e e' h h'
  exact_mod_cast (hs k s e t h).symm.trans (hs k' s' e' t h')

/-- A slanting ray into the oil: however often it goes to and fro between the glass and the receiver, the receiver does not report more
than the ray carried. -/
example (reps : Nat) (minE : ℝ) :
    ∃ res : TraceResult (Receivers ℝ × Unit) ℝ Unit,
      rayTracer oilOnReceiver.scene (fun _ => Account.reset, ()) [⟨⟨0, 0, 3⟩, ⟨0, 3 / 5, -4 / 5⟩, 1, 0, some 1, ()⟩] reps minE true =
        .ok res ∧ reported {0} res.world.1 ≤ 1 := by
  have hb : ∀ r ∈ ([⟨⟨0, 0, 3⟩, ⟨0, 3 / 5, -4 / 5⟩, 1, 0, some 1, ()⟩] : Bundle ℝ Unit),
      MediaRay (fun n => n = 1 ∨ n = 4 / 3 ∨ n = 3 / 2) r ∧ 0 ≤ r.energy := by
    intro r hr
    rw [List.mem_singleton] at hr
    subst hr
    exact ⟨⟨by norm_num [V3.IsUnit, V3.dot], 1, Or.inl rfl, rfl⟩, zero_le_one⟩
  have hplain : ∀ o ∈ oilOnReceiver.getObjects, ∀ s ∈ o.surfs, PlainGeometry s.data.1 :=
    List.forall_mem_cons.2 ⟨List.forall_mem_cons.2 ⟨.flat, List.forall_mem_cons.2 ⟨.flat,
      List.forall_mem_cons.2 ⟨.flat, List.forall_mem_nil _⟩⟩⟩, List.forall_mem_nil _⟩
  obtain ⟨res, h⟩ := C75_media oilOnReceiver_media hplain (fun _ => Account.reset, ()) (fun r hr => (hb r hr).1) minE (Or.inl rfl)
  refine ⟨res, h, ?_⟩
  have := C101_receivers_partial oilOnReceiver_media oilOnReceiver_tally hb h
    (fun _ _ p _ => (oilOnReceiver_noTie p).never fun s hs => mem_allSurfs (plain_perRay hplain) hs) {0} (fun i _ => rfl)
  simpa [totalEnergy] using this

end Tracer
