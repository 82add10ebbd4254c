import Verif.Props.Receipts
import Verif.Props.Progress
import Verif.Props.Quadric

/-!
# Traces in scenes of flat and curved mirrors (C67, C81, C82, C84)

The exact descriptions of traces, for scenes built of the mirrors and receivers of the package: flat plates, triangles, spheres, paraboloids,
dishes and cylinders, in objects with the default policies or those of the one-sided mirror and receiver.
-/

set_option linter.unusedSectionVars false

namespace Tracer

variable {E σ : Type _}

/-- The geometry managers of the package treat rays one by one. -/
theorem PlainGeometry.perRay {g : Geometry ℝ E} (h : PlainGeometry g) : ∃ f, g.PerRay f := by
  cases h with
  | flat => exact ⟨_, flatGM_perRay⟩
  | rect width height _ hg => rw [rect_eq hg]; exact ⟨_, finiteFlatGM_perRay _⟩
  | round R _ hg => rw [round_eq hg]; exact ⟨_, finiteFlatGM_perRay _⟩
  | triangle a b => exact ⟨_, finiteFlatGM_perRay _⟩
  | sphere R _ hg =>
    unfold sphereGM at hg
    split at hg
    · cases hg
    · rename_i R' _
      cases hg
      exact ⟨fun frame v d => chosenParam (trimPick fun _ => true) (candidate (sphereABC R' frame v d) v d),
      fun frame rays => find_default _ rays⟩
  | paraboloid a b => exact ⟨fun frame v d => chosenParam (trimPick fun _ => true) (candidate (paraboloidABC (1 / a ^ 2) (1 / b ^ 2) frame v d) v d),
      fun frame rays => find_default _ rays⟩
  | dish diameter focal => exact ⟨fun frame v d => chosenParam (trimPick (dishTest ((diameter / 2 / (2 * (Real.sqrt focal))) ^ 2) frame)) (candidate (paraboloidABC (1 / (2 * (Real.sqrt focal)) ^ 2) (1 / (2 * (Real.sqrt focal)) ^ 2) frame v d) v d),
      fun frame rays => find_trim _ _ rays⟩
  | hexagonal diameter focal => exact ⟨fun frame v d => chosenParam (trimPick (hexagonTest (diameter / 2) frame)) (candidate (paraboloidABC (1 / (2 * (Real.sqrt focal)) ^ 2) (1 / (2 * (Real.sqrt focal)) ^ 2) frame v d) v d),
      fun frame rays => find_trim _ _ rays⟩
  | cylinder diameter => exact ⟨fun frame v d => chosenParam (trimPick fun _ => true) (candidate (cylinderABC (diameter / 2) frame v d) v d),
      fun frame rays => find_default _ rays⟩
  | finiteCylinder diameter height => exact ⟨fun frame v d => chosenParam (trimPick (fun p => decide (|(frame.inv.point p).z| ≤ height / 2))) (candidate (cylinderABC (diameter / 2) frame v d) v d),
      fun frame rays => quadricFind_map _ (cylinderSelect_eq _ _) rays⟩

/-- What is used of mirrors. -/
theorem PlainMirror.spec {s : Surf σ ℝ E} (h : PlainMirror s) (w : σ) :
    s.PerRay s.single ∧ s.ParentsOk ∧ s.PerHit (s.alone w) ∧
    ∀ p : Ray ℝ E, s.single p.strip = s.single p ∧ ((s.alone w p.strip).map Ray.strip).Perm ((s.alone w p).map Ray.strip) := by
  obtain ⟨g, opt, frame, rfl, hg, ho⟩ := h
  obtain ⟨f, hf⟩ := hg.perRay
  obtain ⟨hat, hnf, f2, hph, _⟩ := ho.spec
  refine ⟨(mkSurf_perRay hf opt frame).single, mkSurf_parentsOk g hat frame, mkSurf_perHit_alone hf hph hnf frame w, ?_⟩
  intro p
  refine ⟨?_, mkSurf_alone_blind hf hph hnf frame w p⟩
  unfold Surf.single
  rw [mkSurf_perRay hf opt frame, mkSurf_perRay hf opt frame]
  rfl

section
variable {objs : List (Obj σ ℝ E)} {w w' : σ} {b : Bundle ℝ E} {reps : Nat} {minE : ℝ} {res res' : TraceResult σ ℝ E}

theorem AllSurfs.mirrors_blind (hm : AllSurfs PlainMirror objs) (w : σ) :
    Blind Surf.single (Surf.alone w) (objs.flatMap Obj.surfs) := by
  intro s hs p
  obtain ⟨o, ho, hs⟩ := List.mem_flatMap.1 hs
  exact ((hm o ho s hs).spec w).2.2.2 p

/-- C75 for mirrors: a scene of mirrors and receivers, with at least one surface, can be traced whatever the frames of its surfaces and
whatever the rays, also rays with directions that are not of unit length. -/
theorem C75_mirror_scenes (hpl : ∀ o ∈ objs, o.Plain) (hm : AllSurfs PlainMirror objs) (hsome : ∃ o ∈ objs, o.surfs ≠ [])
    (w : σ) (b : Bundle ℝ E) (minE : ℝ) {keepTree : Bool} (hk : keepTree = true ∨ 0 < reps) :
    ∃ res, rayTracer objs w b reps minE keepTree = .ok res := by
  have hobj : ∀ o ∈ objs, o.ShapeOk := by
    intro o ho
    obtain ⟨n, hn⟩ := List.getElem?_of_mem ho
    exact (Obj.Plain.decides hpl n o hn).shapeOk
  refine rayTracer_safe (Q := fun _ => True) hobj ?_ ?_ ?_ ?_ hk w (fun _ _ => trivial)
  · obtain ⟨o, ho, hs⟩ := hsome
    obtain ⟨s, l, hl⟩ := List.exists_cons_of_ne_nil hs
    exact List.ne_nil_of_mem (List.mem_flatMap.2 ⟨o, ho, by rw [hl]; exact List.mem_cons_self ..⟩)
  · intro o ho s hs
    obtain ⟨g, opt, frame, rfl, hg, _⟩ := hm o ho s hs
    obtain ⟨f, hf⟩ := hg.perRay
    exact mkSurf_lengthOk hf.lengthOk _ _
  · intro o ho s hs
    obtain ⟨g, opt, frame, rfl, hg, _⟩ := hm o ho s hs
    exact C75_forward hg frame
  · intro o ho s hs w rays sel _ hne hfin
    obtain ⟨g, opt, frame, rfl, hg, hopt⟩ := hm o ho s hs
    obtain ⟨f, hf⟩ := hg.perRay
    obtain ⟨hat, hnf, _⟩ := hopt.spec
    obtain ⟨recs, hrecs⟩ := hitRecs_exists (frame := frame) hf.lengthOk hfin
    have hidx := (hitRecs_ok hrecs).1
    obtain ⟨out, w', hout⟩ := hnf w frame.rot.c3 recs (by rintro rfl; exact hne hidx.symm)
    refine ⟨out, w', by simp only [mkSurf, hrecs, hout], fun r hr => ⟨?_, fun _ => trivial⟩⟩
    obtain ⟨h, hh, hp, _⟩ := hat _ _ _ _ _ hout r hr
    rw [hp, ← hidx]
    exact List.mem_map_of_mem hh

/-- C84 for scenes of flat and curved mirrors, one-sided or not: no other condition is needed. -/
theorem C84_mirrors (hpl : ∀ o ∈ objs, o.Plain) (hm : AllSurfs PlainMirror objs)
    (h : rayTracer objs w b reps minE true = .ok res) {k : Nat} (hk : k ≤ reps) :
    (((res.tree[k]?).getD []).map Ray.strip).Perm
      ((goingGeneration Surf.single (Surf.alone w) (plainPolicy objs) (sites objs) minE b k).map fun g => g.ray.strip) :=
  C84_exact (Obj.Plain.decides hpl) (plainPolicy_blind objs) (fun o ho s hs => ((hm o ho s hs).spec w).1)
    (fun o ho s hs => ((hm o ho s hs).spec w).2.1) (fun o ho s hs => ((hm o ho s hs).spec w).2.2.1) (hm.mirrors_blind w) h hk

/-- C67 for scenes of flat and curved mirrors and receivers. -/
theorem C67_mirrors (hpl : ∀ o ∈ objs, o.Plain) (hm : AllSurfs PlainMirror objs)
    {x : Site σ ℝ E} {g : Geometry ℝ E} {frame : Tf ℝ} {a : ℝ} {get : σ → Account ℝ}
    {set : Account ℝ → σ → σ} {opt : Optics σ ℝ E} (hgs : ∀ acc w, get (set acc w) = acc)
    (hk : KeepsMemory get opt) (hx : x ∈ sites objs) (hs : x.surf = mkSurf g (accountant a get set opt) frame)
    (hign : ∀ y ∈ sites objs, ¬ (y.obj = x.obj ∧ y.num = x.num) → y.surf.Ignores get)
    (h : rayTracer objs w b reps minE true = .ok res) (h0 : get w = Account.reset) :
    ∃ es ps, (get res.world).getAllHits = .ok (es, ps) ∧ es.length = ps.length ∧
      (es.zip ps).Perm ((traceHits Surf.single (Surf.alone w) (plainPolicy objs) (sites objs) minE b reps x).map
        fun y => (y.1.energy * a, y.1.at y.2)) :=
  C67_policies (Obj.Plain.decides hpl) (plainPolicy_blind objs) (fun o ho s hs => ((hm o ho s hs).spec w).1)
    (fun o ho s hs => ((hm o ho s hs).spec w).2.2.1) (hm.mirrors_blind w) hgs hk hx hs hign h h0

/-- C81 for scenes of flat and curved mirrors: the order in which the objects are listed does not matter. -/
theorem C81_mirrors {objs' : List (Obj σ ℝ E)} (hpl : ∀ o ∈ objs, o.Plain) (hm : AllSurfs PlainMirror objs) {π : Nat → Nat}
    (hr : Renumbered π objs objs') (h : rayTracer objs w b reps minE true = .ok res)
    (h' : rayTracer objs' w' b reps minE true = .ok res') (k : Nat) :
    (((res.tree[k]?).getD []).map Ray.strip).Perm (((res'.tree[k]?).getD []).map Ray.strip) :=
  C81_objects (Obj.Plain.decides hpl) (plainPolicy_blind objs) (fun o ho s hs => ((hm o ho s hs).spec w).1)
    (fun o ho s hs => ((hm o ho s hs).spec w).2.1) (fun o ho s hs => ((hm o ho s hs).spec w).2.2.1) (hm.mirrors_blind w) hr h h' k

/-- C82 for scenes of flat and curved mirrors: objects that no ray reaches change nothing. -/
theorem C82_mirrors {extra : List (Obj σ ℝ E)} (hpl : ∀ o ∈ objs ++ extra, o.Plain) (hm : AllSurfs PlainMirror (objs ++ extra))
    (hu : ∀ k < reps, ∀ g ∈ setOut minE k (goingGeneration Surf.single (Surf.alone w) (plainPolicy (objs ++ extra)) (sites objs) minE b k),
      ∀ o ∈ extra, ∀ s ∈ o.surfs, g.Unreached Surf.single (plainPolicy (objs ++ extra)) (sites objs) s)
    (h : rayTracer objs w b reps minE true = .ok res)
    (h' : rayTracer (objs ++ extra) w' b reps minE true = .ok res') (k : Nat) :
    (((res.tree[k]?).getD []).map Ray.strip).Perm (((res'.tree[k]?).getD []).map Ray.strip) := by
  refine C82_objects (Obj.Plain.decides hpl) (plainPolicy_blind _) ?_ (fun o ho s hs => ((hm o ho s hs).spec w).1)
    (fun o ho s hs => ((hm o ho s hs).spec w).2.1) (fun o ho s hs => ((hm o ho s hs).spec w).2.2.1) (hm.mirrors_blind w) hu h h' k
  intro o j r
  rcases plainPolicy_cases (objs ++ extra) o with e | e <;> rw [e] <;> rfl

end

/-! ### A concrete case -/

namespace Examples

/-- A dish of diameter 2 and focal length 1 under a plate. -/
noncomputable def dishScene : List (Obj Unit ℝ Unit) :=
  [⟨[mkSurf (parabolicDishGM 2 1) (reflective (1 / 10)) 1], Obj.defaultOwn, Obj.defaultNext 1⟩,
   ⟨[mkSurf (finiteFlatGM (rectOutside (1 / 10) (1 / 10))) (absorberReflector 1) ⟨1, ⟨0, 0, 1⟩⟩], Obj.defaultOwn, Obj.skipNext 1⟩]

/-- The hypotheses of the theorems above are met: a scene of a dish and a one-sided plate. -/
theorem dishScene_plain : ∀ o ∈ dishScene, o.Plain := by
  intro o ho
  simp only [dishScene, List.mem_cons, List.not_mem_nil, or_false] at ho
  rcases ho with rfl | rfl
  · exact ⟨rfl, Or.inl rfl⟩
  · exact ⟨rfl, Or.inr rfl⟩

theorem dishScene_mirrors : AllSurfs PlainMirror dishScene := by
  intro o ho s hs
  simp only [dishScene, List.mem_cons, List.not_mem_nil, or_false] at ho
  rcases ho with rfl | rfl
  · exact ⟨_, _, _, List.mem_singleton.1 hs, .dish 2 1 (by norm_num) (by norm_num), .mirror _⟩
  · refine ⟨_, _, _, List.mem_singleton.1 hs, .rect (1 / 10) (1 / 10) _ ?_, .oneSided _⟩
    unfold rectPlateGM
    norm_num

/-- A ray down the dish. -/
noncomputable def dishRay : Ray ℝ Unit := ⟨⟨1 / 2, 0, 2⟩, ⟨0, 0, -1⟩, 1, 0, none, ()⟩

example (b : Bundle ℝ Unit) : ∃ res, rayTracer dishScene () b 10 (1 / 100) false = .ok res :=
  C75_mirror_scenes dishScene_plain dishScene_mirrors ⟨_, List.mem_cons_self .., by simp⟩ () b _ (.inr (by norm_num))

/-- The trace of a ray, as the rules say. -/
example : ∃ res, rayTracer dishScene () [dishRay] 10 (1 / 100) true = .ok res ∧
    ∀ k ≤ 10, (((res.tree[k]?).getD []).map Ray.strip).Perm
      ((goingGeneration Surf.single (Surf.alone ()) (plainPolicy dishScene) (sites dishScene) (1 / 100) [dishRay] k).map fun g => g.ray.strip) := by
  obtain ⟨res, h⟩ := C75_mirror_scenes dishScene_plain dishScene_mirrors ⟨_, List.mem_cons_self .., by simp⟩ () [dishRay] (reps := 10) (1 / 100)
    (.inl rfl)
  exact ⟨res, h, fun k hk => C84_mirrors dishScene_plain dishScene_mirrors h hk⟩

/-- The same scene with the plate before the dish. -/
example : ∃ res res', rayTracer dishScene () [dishRay] 10 (1 / 100) true = .ok res ∧
    rayTracer dishScene.reverse () [dishRay] 10 (1 / 100) true = .ok res' ∧
    ∀ k : Nat, (((res.tree[k]?).getD []).map Ray.strip).Perm (((res'.tree[k]?).getD []).map Ray.strip) := by
  obtain ⟨res, h⟩ := C75_mirror_scenes dishScene_plain dishScene_mirrors ⟨_, List.mem_cons_self .., by simp⟩ () [dishRay] (reps := 10) (1 / 100)
    (.inl rfl)
  obtain ⟨res', h'⟩ := C75_mirror_scenes (objs := dishScene.reverse) (fun o ho => dishScene_plain o (List.mem_reverse.1 ho))
    (fun o ho => dishScene_mirrors o (List.mem_reverse.1 ho)) ⟨_, List.mem_cons_self .., by simp⟩ () [dishRay] (reps := 10) (1 / 100)
    (.inl rfl)
  refine ⟨res, res', h, h', C81_mirrors (objs' := dishScene.reverse) dishScene_plain dishScene_mirrors (π := Equiv.swap 0 1) ⟨rfl, (Equiv.swap 0 1).injective, ?_⟩ h h'⟩
  intro o obj ho
  rcases o with _ | _ | o
  · rw [Equiv.swap_apply_left]; exact ho
  · rw [Equiv.swap_apply_right]; exact ho
  · simp [dishScene] at ho

/-- A mirror above the source of the light, facing the dish: in one iteration nothing reaches it. -/
noncomputable def lid : Obj Unit ℝ Unit := ⟨[mkSurf flatGM (reflective (1 / 10)) ⟨1, ⟨0, 0, 10⟩⟩], Obj.defaultOwn, Obj.defaultNext 1⟩

example : ∃ res res', rayTracer dishScene () [dishRay] 1 (1 / 100) true = .ok res ∧
    rayTracer (dishScene ++ [lid]) () [dishRay] 1 (1 / 100) true = .ok res' ∧
    ∀ k : Nat, (((res.tree[k]?).getD []).map Ray.strip).Perm (((res'.tree[k]?).getD []).map Ray.strip) := by
  have hpl : ∀ o ∈ dishScene ++ [lid], o.Plain := by
    intro o ho
    rcases List.mem_append.1 ho with ho | ho
    · exact dishScene_plain o ho
    · rw [List.mem_singleton.1 ho]; exact ⟨rfl, Or.inl rfl⟩
  have hm : AllSurfs PlainMirror (dishScene ++ [lid]) := by
    intro o ho s hs
    rcases List.mem_append.1 ho with ho | ho
    · exact dishScene_mirrors o ho s hs
    · rw [List.mem_singleton.1 ho] at hs
      exact ⟨_, _, _, List.mem_singleton.1 hs, .flat, .mirror _⟩
  obtain ⟨res, h⟩ := C75_mirror_scenes dishScene_plain dishScene_mirrors ⟨_, List.mem_cons_self .., by simp⟩ () [dishRay] (reps := 1) (1 / 100)
    (.inl rfl)
  obtain ⟨res', h'⟩ := C75_mirror_scenes hpl hm ⟨_, List.mem_cons_self .., by simp⟩ () [dishRay] (reps := 1) (1 / 100)
    (.inl rfl)
  refine ⟨res, res', h, h', C82_mirrors hpl hm ?_ h h'⟩
  intro k hk g hg o ho s hs
  have hk0 : k = 0 := by omega
  subst hk0
  simp only [setOut, if_true, goingGeneration, List.map_cons, List.map_nil, List.mem_singleton] at hg
  rw [List.mem_singleton.1 ho] at hs
  rw [List.mem_singleton.1 hs, hg]
  left
  show ((flatGM : Geometry ℝ Unit).find _ [dishRay]).headD ⊤ = ⊤
  norm_num [flatGM, flatParam, dishRay, V3.dot, parallelTol]

/-- The dish with a receiver at its focus. -/
noncomputable def dishReceiver : List (Obj (Account ℝ) ℝ Unit) :=
  [⟨[mkSurf (parabolicDishGM 2 1) (reflective (1 / 10)) 1], Obj.defaultOwn, Obj.defaultNext 1⟩,
   ⟨[mkSurf (finiteFlatGM (rectOutside (1 / 10) (1 / 10))) (reflectiveReceiver 1 id fun acc _ => acc) ⟨1, ⟨0, 0, 1⟩⟩],
    Obj.defaultOwn, Obj.skipNext 1⟩]

example : ∃ res es ps, rayTracer dishReceiver Account.reset [dishRay] 10 (1 / 100) true = .ok res ∧
    res.world.getAllHits = .ok (es, ps) ∧
    (es.zip ps).Perm ((traceHits Surf.single (Surf.alone Account.reset) (plainPolicy dishReceiver) (sites dishReceiver) (1 / 100) [dishRay] 10
      ⟨1, 0, mkSurf (finiteFlatGM (rectOutside (1 / 10) (1 / 10))) (reflectiveReceiver 1 id fun acc _ => acc) ⟨1, ⟨0, 0, 1⟩⟩⟩).map
        fun y => (y.1.energy * 1, y.1.at y.2)) := by
  have hpl : ∀ o ∈ dishReceiver, o.Plain := by
    intro o ho
    simp only [dishReceiver, List.mem_cons, List.not_mem_nil, or_false] at ho
    rcases ho with rfl | rfl
    · exact ⟨rfl, Or.inl rfl⟩
    · exact ⟨rfl, Or.inr rfl⟩
  have hm : AllSurfs PlainMirror dishReceiver := by
    intro o ho s hs
    simp only [dishReceiver, List.mem_cons, List.not_mem_nil, or_false] at ho
    rcases ho with rfl | rfl
    · exact ⟨_, _, _, List.mem_singleton.1 hs, .dish 2 1 (by norm_num) (by norm_num), .mirror _⟩
    · refine ⟨_, _, _, List.mem_singleton.1 hs, .rect (1 / 10) (1 / 10) _ ?_, .receiver _ _ _ _ (.mirror _)⟩
      unfold rectPlateGM
      norm_num
  obtain ⟨res, h⟩ := C75_mirror_scenes hpl hm ⟨_, List.mem_cons_self .., by simp⟩ Account.reset [dishRay] (reps := 10) (1 / 100) (.inl rfl)
  obtain ⟨es, ps, e1, _, e2⟩ := C67_mirrors (get := id) (set := fun acc _ => acc) hpl hm
    (x := ⟨1, 0, mkSurf (finiteFlatGM (rectOutside (1 / 10) (1 / 10))) (reflectiveReceiver 1 id fun acc _ => acc) ⟨1, ⟨0, 0, 1⟩⟩⟩)
    (fun _ _ => rfl) (C51_reflective (1 : ℝ) id).1 (by simp [sites, dishReceiver, List.zipIdx]) rfl (by
      intro y hy hne
      simp only [sites, dishReceiver, List.zipIdx, List.flatMap_cons, List.flatMap_nil, List.map_cons, List.map_nil, List.append_nil,
        List.cons_append, List.nil_append, List.mem_cons, List.not_mem_nil, or_false] at hy
      rcases hy with rfl | rfl
      · intro w rays sel out w' h
        obtain ⟨recs, _, h2⟩ := mkSurf_ok h
        simp only [reflective, Except.ok.injEq, Prod.mk.injEq] at h2
        rw [← h2.2]
      · exact absurd ⟨rfl, rfl⟩ hne) h rfl
  exact ⟨res, es, ps, h, e1, e2⟩

end Examples

end Tracer
