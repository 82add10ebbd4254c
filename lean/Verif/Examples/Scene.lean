import Verif.Lemmas.Contracts
import Verif.Lemmas.Default
import Verif.Lemmas.Trace
import Mathlib.Algebra.Order.Field.Rat

/-! Concrete scenes over the rationals, to show that the hypotheses of the engine theorems
are met by traces that do something. -/

namespace Tracer.Examples

/-- A half absorbing mirror in the plane z = 0. -/
def lower : Obj Unit ℚ Unit :=
  ⟨[mkSurf flatGM (reflective (1/2)) 1], Obj.defaultOwn, Obj.defaultNext 1⟩

/-- A 4 by 4 plate at z = 2, absorbing a quarter. -/
def upper : Obj Unit ℚ Unit :=
  ⟨[mkSurf (finiteFlatGM (rectOutside 4 4)) (reflective (1/4)) ⟨1, ⟨0, 0, 2⟩⟩],
   Obj.defaultOwn, Obj.defaultNext 1⟩

/-- A slanted ray, which leaves after one bounce, and a vertical one. -/
def source : Bundle ℚ Unit :=
  [⟨⟨0, 0, 1⟩, ⟨3/5, 0, -4/5⟩, 1, 0, none, ()⟩, ⟨⟨0, 0, 1⟩, ⟨0, 0, -1⟩, 1, 0, none, ()⟩]

def facing : List (Obj Unit ℚ Unit) := [lower, upper]

theorem facing_default : ∀ o ∈ facing, o.Default := by
  intro o ho
  simp only [facing, List.mem_cons, List.not_mem_nil, or_false] at ho
  rcases ho with rfl | rfl <;> exact ⟨rfl, rfl⟩

theorem facing_shape : ∀ o ∈ facing, o.ShapeOk := fun o ho => (facing_default o ho).shapeOk

theorem facing_all {P : Surf Unit ℚ Unit → Prop}
    (h : ∀ (g : Geometry ℚ Unit) (a : ℚ) (frame : Tf ℚ), 0 ≤ a → a ≤ 1 →
      (∃ f, g.PerRay f) → P (mkSurf g (reflective a) frame)) : AllSurfs P facing := by
  intro o ho s hs
  simp only [facing, List.mem_cons, List.not_mem_nil, or_false] at ho
  rcases ho with rfl | rfl
  · simp only [lower, List.mem_cons, List.not_mem_nil, or_false] at hs
    subst hs
    exact h _ _ _ (by norm_num) (by norm_num) ⟨_, flatGM_perRay⟩
  · simp only [upper, List.mem_cons, List.not_mem_nil, or_false] at hs
    subst hs
    exact h _ _ _ (by norm_num) (by norm_num) ⟨_, finiteFlatGM_perRay _⟩

theorem facing_length : AllSurfs Surf.LengthOk facing :=
  facing_all fun _ _ _ _ _ ⟨_, hf⟩ => mkSurf_lengthOk hf.lengthOk _ _

theorem facing_parents : AllSurfs Surf.ParentsOk facing :=
  facing_all fun _ _ _ _ _ _ => mkSurf_parentsOk _ (reflective_atHit _) _

theorem facing_total : AllSurfs Surf.Total facing :=
  facing_all fun _ _ _ _ _ _ => mkSurf_total _ (reflective_total _) _

theorem facing_onRay : AllSurfs Surf.OnRay facing :=
  facing_all fun _ _ _ _ _ _ => mkSurf_onRay _ (reflective_atHit _) _

theorem facing_energy : AllSurfs Surf.EnergyOk facing :=
  facing_all fun _ _ _ h0 h1 _ => mkSurf_energyOk _ (reflective_atHit _) (reflective_energyOk h0 h1) _

theorem facing_perRay : AllSurfs (fun s => s.PerRay s.single) facing :=
  facing_all fun _ _ _ _ _ ⟨_, hf⟩ => (mkSurf_perRay hf _ _).single

theorem facing_perHit : AllSurfs (fun s => s.PerHit (s.alone ())) facing :=
  facing_all fun _ _ _ _ _ ⟨_, hf⟩ =>
    mkSurf_perHit_alone hf (reflective_perHit _) (reflective_noFail _) _ _

theorem facing_blind : Blind Surf.single (Surf.alone ()) (facing.flatMap Obj.surfs) := by
  have h : AllSurfs (fun s => ∀ p : Ray ℚ Unit, s.single p.strip = s.single p ∧
      ((s.alone () p.strip).map Ray.strip).Perm ((s.alone () p).map Ray.strip)) facing :=
    facing_all fun g a frame _ _ ⟨f, hf⟩ p => ⟨by
      simp only [Surf.single, mkSurf_perRay hf (reflective a) frame _, List.map_cons, List.headD_cons]
      rfl, mkSurf_alone_blind hf (reflective_perHit _) (reflective_noFail _) _ _ _⟩
  exact fun s hs => mem_allSurfs h hs

/-- The trace of the scene, with the parents and energies of its rays. -/
theorem facing_trace :
    ((rayTracer facing () source 4 (1/5) true).toOption.map fun r =>
      r.tree.map fun l => l.map fun q => (q.parent, q.energy)) =
    some [[(0, 1), (0, 1)], [(0, 1/2), (1, 1/2)], [(1, 3/8)], [(0, 3/16)]] := by
  decide +kernel

theorem facing_ok : ∃ res, rayTracer facing () source 4 (1/5) true = .ok res ∧
    (res.tree.map fun l => l.map fun q => (q.parent, q.energy)) =
      [[(0, 1), (0, 1)], [(0, 1/2), (1, 1/2)], [(1, 3/8)], [(0, 3/16)]] := by
  have h := facing_trace
  cases hr : rayTracer facing () source 4 (1/5) true with
  | error e => rw [hr] at h; simp [Except.toOption] at h
  | ok res =>
    rw [hr] at h
    exact ⟨res, rfl, by simpa [Except.toOption] using h⟩

/-- The last recorded bundle of the trace. -/
theorem facing_last : ∃ res lvl r, rayTracer facing () source 4 (1/5) true = .ok res ∧
    res.tree[2 + 1]? = some lvl ∧ r ∈ lvl := by
  obtain ⟨res, h, ht⟩ := facing_ok
  have h2 := congrArg (fun l => l[3]?) ht
  simp only [List.getElem?_map] at h2
  cases hl : res.tree[3]? with
  | none => rw [hl] at h2; simp at h2
  | some lvl =>
    rw [hl] at h2
    cases lvl with
    | nil => simp at h2
    | cons r l => exact ⟨res, r :: l, r, h, hl, by simp⟩

theorem facing_source_tree : ∃ res, rayTracer facing () source 4 (1/5) true = .ok res ∧
    res.tree[0]? = some source := by
  have h : ((rayTracer facing () source 4 (1/5) true).toOption.map fun r => r.tree[0]?) =
      some (some source) := by decide +kernel
  cases hr : rayTracer facing () source 4 (1/5) true with
  | error e => rw [hr] at h; simp [Except.toOption] at h
  | ok res =>
    rw [hr] at h
    exact ⟨res, rfl, by simpa [Except.toOption] using h⟩

/-- The first call of `intersect_ray` in the trace: both rays hit the lower mirror. -/
theorem facing_intersect :
    intersectRay source (facing.flatMap Obj.surfs) (surfOwnership facing)
      (initState facing source ()).rayOwn (initState facing source ()).relev =
    .ok ([[true, true], [false, false]], [[true, true], [true, true]]) := by
  have h : (intersectRay source (facing.flatMap Obj.surfs) (surfOwnership facing)
      (initState facing source ()).rayOwn (initState facing source ()).relev).toOption =
    some ([[true, true], [false, false]], [[true, true], [true, true]]) := by decide +kernel
  revert h
  cases intersectRay source (facing.flatMap Obj.surfs) (surfOwnership facing)
      (initState facing source ()).rayOwn (initState facing source ()).relev with
  | error e => intro h; simp [Except.toOption] at h
  | ok r => intro h; simpa [Except.toOption] using h

theorem facing_shape0 : IShape source.length (facing.flatMap Obj.surfs) (surfOwnership facing)
    (initState facing source ()).rayOwn (initState facing source ()).relev :=
  initState_shape facing source ()

theorem facing_len : ∀ s ∈ facing.flatMap Obj.surfs, s.LengthOk :=
  fun _ hs => mem_allSurfs facing_length hs

end Tracer.Examples
