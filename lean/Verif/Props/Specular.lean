import Verif.Props.CurvedMirrors
import Verif.Lemmas.Specular

/-!
# Traces through mirrors and refracting surfaces (C67, C81, C82, C84)

The exact descriptions of traces, for scenes built of all flat and quadric surfaces of the package (but for the hemisphere and the cut
sphere, which do not treat rays one by one, see C39) with all callables that draw no random numbers.
-/

set_option linter.unusedSectionVars false

namespace Tracer

variable {E σ : Type _}

/-- What is used of mirrors and refracting surfaces. -/
theorem SpecularSurf.spec {s : Surf σ ℝ E} (h : SpecularSurf s) (w : σ) :
    s.PerRay s.single ∧ s.ParentsOk ∧ s.PerHit (s.alone w) ∧
    ∀ p : Ray ℝ E, s.single p.strip = s.single p ∧ ((s.alone w p.strip).map Ray.strip).Perm ((s.alone w p).map Ray.strip) := by
  obtain ⟨g, opt, frame, n1, n2, rfl, hg, ho⟩ := h
  obtain ⟨f, hf⟩ := hg.perRay
  obtain ⟨hat, f2, hph, hal⟩ := ho.spec
  refine ⟨(mkSurf_perRay hf opt frame).single, mkSurf_parentsOk g hat frame, mkSurf_perHit_alone' hf hph hal frame w, ?_⟩
  intro p
  refine ⟨?_, mkSurf_alone_blind' hf hph hal frame w p⟩
  unfold Surf.single
  rw [mkSurf_perRay hf opt frame, mkSurf_perRay hf opt frame]
  rfl

section
variable {objs : List (Obj σ ℝ E)} {w w' : σ} {b : Bundle ℝ E} {reps : Nat} {minE : ℝ} {res res' : TraceResult σ ℝ E}

theorem AllSurfs.specular_blind (hm : AllSurfs SpecularSurf objs) (w : σ) :
    Blind Surf.single (Surf.alone w) (objs.flatMap Obj.surfs) := by
  intro s hs p
  obtain ⟨o, ho, hs⟩ := List.mem_flatMap.1 hs
  exact ((hm o ho s hs).spec w).2.2.2 p

/-- C84 for scenes of flat and curved mirrors and refracting surfaces: no other condition is needed. -/
theorem C84_specular (hpl : ∀ o ∈ objs, o.Plain) (hm : AllSurfs SpecularSurf objs)
    (h : rayTracer objs w b reps minE true = .ok res) {k : Nat} (hk : k ≤ reps) :
    (((res.tree[k]?).getD []).map Ray.strip).Perm
      ((goingGeneration Surf.single (Surf.alone w) (plainPolicy objs) (sites objs) minE b k).map fun g => g.ray.strip) :=
  C84_exact (Obj.Plain.decides hpl) (plainPolicy_blind objs) (fun o ho s hs => ((hm o ho s hs).spec w).1)
    (fun o ho s hs => ((hm o ho s hs).spec w).2.1) (fun o ho s hs => ((hm o ho s hs).spec w).2.2.1) (hm.specular_blind w) h hk

/-- C67 for scenes of flat and curved mirrors, refracting surfaces and receivers. -/
theorem C67_specular (hpl : ∀ o ∈ objs, o.Plain) (hm : AllSurfs SpecularSurf objs)
    {x : Site σ ℝ E} {g : Geometry ℝ E} {frame : Tf ℝ} {a : ℝ} {get : σ → Account ℝ}
    {set : Account ℝ → σ → σ} {opt : Optics σ ℝ E} (hgs : ∀ acc w, get (set acc w) = acc)
    (hk : KeepsMemory get opt) (hx : x ∈ sites objs) (hs : x.surf = mkSurf g (accountant a get set opt) frame)
    (hign : ∀ y ∈ sites objs, ¬ (y.obj = x.obj ∧ y.num = x.num) → y.surf.Ignores get)
    (h : rayTracer objs w b reps minE true = .ok res) (h0 : get w = Account.reset) :
    ∃ es ps, (get res.world).getAllHits = .ok (es, ps) ∧ es.length = ps.length ∧
      (es.zip ps).Perm ((traceHits Surf.single (Surf.alone w) (plainPolicy objs) (sites objs) minE b reps x).map
        fun y => (y.1.energy * a, y.1.at y.2)) :=
  C67_policies (Obj.Plain.decides hpl) (plainPolicy_blind objs) (fun o ho s hs => ((hm o ho s hs).spec w).1)
    (fun o ho s hs => ((hm o ho s hs).spec w).2.2.1) (hm.specular_blind w) hgs hk hx hs hign h h0

/-- C81 for scenes of flat and curved mirrors and refracting surfaces: the order in which the objects are listed does not matter. -/
theorem C81_specular {objs' : List (Obj σ ℝ E)} (hpl : ∀ o ∈ objs, o.Plain) (hm : AllSurfs SpecularSurf objs) {π : Nat → Nat}
    (hr : Renumbered π objs objs') (h : rayTracer objs w b reps minE true = .ok res)
    (h' : rayTracer objs' w' b reps minE true = .ok res') (k : Nat) :
    (((res.tree[k]?).getD []).map Ray.strip).Perm (((res'.tree[k]?).getD []).map Ray.strip) :=
  C81_objects (Obj.Plain.decides hpl) (plainPolicy_blind objs) (fun o ho s hs => ((hm o ho s hs).spec w).1)
    (fun o ho s hs => ((hm o ho s hs).spec w).2.1) (fun o ho s hs => ((hm o ho s hs).spec w).2.2.1) (hm.specular_blind w) hr h h' k

/-- C82 for scenes of flat and curved mirrors and refracting surfaces: objects that no ray reaches change nothing. -/
theorem C82_specular {extra : List (Obj σ ℝ E)} (hpl : ∀ o ∈ objs ++ extra, o.Plain) (hm : AllSurfs SpecularSurf (objs ++ extra))
    (hu : ∀ k < reps, ∀ g ∈ setOut minE k (goingGeneration Surf.single (Surf.alone w) (plainPolicy (objs ++ extra)) (sites objs) minE b k),
      ∀ o ∈ extra, ∀ s ∈ o.surfs, g.Unreached Surf.single (plainPolicy (objs ++ extra)) (sites objs) s)
    (h : rayTracer objs w b reps minE true = .ok res)
    (h' : rayTracer (objs ++ extra) w' b reps minE true = .ok res') (k : Nat) :
    (((res.tree[k]?).getD []).map Ray.strip).Perm (((res'.tree[k]?).getD []).map Ray.strip) := by
  refine C82_objects (Obj.Plain.decides hpl) (plainPolicy_blind _) ?_ (fun o ho s hs => ((hm o ho s hs).spec w).1)
    (fun o ho s hs => ((hm o ho s hs).spec w).2.1) (fun o ho s hs => ((hm o ho s hs).spec w).2.2.1) (hm.specular_blind w) hu h h' k
  intro o j r
  rcases plainPolicy_cases (objs ++ extra) o with e | e <;> rw [e] <;> rfl

end

/-! ### A concrete case -/

namespace Examples

/-- A glass ball under a pane of glass: an object of two faces, an object of one sphere. -/
noncomputable def glassScene : List (Obj Unit ℝ Unit) :=
  [⟨[mkSurf flatGM (refractiveHomogenous 1 (3 / 2)) ⟨1, ⟨0, 0, 5⟩⟩, mkSurf flatGM (refractiveHomogenous 1 (3 / 2)) ⟨1, ⟨0, 0, 4⟩⟩],
      Obj.defaultOwn, Obj.defaultNext 2⟩,
   ⟨[mkSurf ⟨fun frame rays => quadricFind (sphereABC 1 frame) defaultSelect rays, sphereNormal⟩ (refractiveHomogenous 1 (4 / 3)) 1],
      Obj.defaultOwn, Obj.defaultNext 1⟩]

/-- The hypotheses of the theorems above are met by a scene of three refracting surfaces of two kinds of glass. -/
example : (∀ o ∈ glassScene, o.Plain) ∧ AllSurfs SpecularSurf glassScene := by
  refine ⟨?_, ?_⟩
  · intro o ho
    simp only [glassScene, List.mem_cons, List.not_mem_nil, or_false] at ho
    rcases ho with rfl | rfl <;> exact ⟨rfl, Or.inl rfl⟩
  · intro o ho s hs
    simp only [glassScene, List.mem_cons, List.not_mem_nil, or_false] at ho
    rcases ho with rfl | rfl
    · simp only [List.mem_cons, List.not_mem_nil, or_false] at hs
      rcases hs with rfl | rfl <;> exact ⟨_, _, _, _, _, rfl, .flat, .refractive⟩
    · refine ⟨_, _, _, _, _, List.mem_singleton.1 hs, .sphere 1 _ ?_, .refractive⟩
      unfold sphereGM setRadius
      norm_num

end Examples
end Tracer
