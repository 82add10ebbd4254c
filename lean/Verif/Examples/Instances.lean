import Verif.Props.Going
import Verif.Props.Ties
import Verif.Props.EnergyLibrary

/-! Concrete cases of engine theorems that are not applied to a scene in their own files. -/

namespace Tracer

/-- `C14_order`: the facing mirrors, with the source the other way round. -/
example : ∃ res res', rayTracer Examples.facing () Examples.source 4 (1/5) true = .ok res ∧
    rayTracer Examples.facing () Examples.source.reverse 4 (1/5) true = .ok res' ∧
    res.tree.map List.length = [2, 2, 1, 1] ∧ res.tree ≠ res'.tree ∧
    ∀ k : Nat, (((res.tree[k]?).getD []).map Ray.strip).Perm (((res'.tree[k]?).getD []).map Ray.strip) := by
  obtain ⟨res, h, hl⟩ := Examples.exists_trace (objs := Examples.facing) (b := Examples.source) (reps := 4) (minE := 1/5)
    (n := [2, 2, 1, 1]) (by decide +kernel)
  obtain ⟨res', h', _⟩ := Examples.exists_trace (objs := Examples.facing) (b := Examples.source.reverse) (reps := 4)
    (minE := 1/5) (n := [2, 2, 1, 1]) (by decide +kernel)
  have hne : (rayTracer Examples.facing () Examples.source 4 (1/5) true).toOption.map (fun r => r.tree.map fun l => l.map Ray.parent) ≠
      (rayTracer Examples.facing () Examples.source.reverse 4 (1/5) true).toOption.map fun r => r.tree.map fun l => l.map Ray.parent := by
    decide +kernel
  refine ⟨res, res', h, h', hl, ?_, C14_order Examples.facing_default Examples.facing_perRay Examples.facing_parents
    Examples.facing_perHit Examples.facing_blind (List.reverse_perm _).symm h h'⟩
  intro e
  rw [h, h'] at hne
  exact hne (by simp [Except.toOption, e])

/-- `C14_flat_partial`: the two rays of that source, together and apart. -/
example : ∃ res res1 res2, rayTracer Examples.facing () Examples.source 4 (1/5) true = .ok res ∧
    rayTracer Examples.facing () (Examples.source.take 1) 4 (1/5) true = .ok res1 ∧
    rayTracer Examples.facing () (Examples.source.drop 1) 4 (1/5) true = .ok res2 ∧
    ∀ k : Nat, (((res.tree[k]?).getD []).map Ray.strip).Perm
      (((res1.tree[k]?).getD [] ++ (res2.tree[k]?).getD []).map Ray.strip) := by
  obtain ⟨res, h, _⟩ := Examples.exists_trace (objs := Examples.facing) (b := Examples.source) (reps := 4) (minE := 1/5)
    (n := [2, 2, 1, 1]) (by decide +kernel)
  obtain ⟨res1, h1, _⟩ := Examples.exists_trace (objs := Examples.facing) (b := Examples.source.take 1) (reps := 4)
    (minE := 1/5) (n := [1, 1]) (by decide +kernel)
  obtain ⟨res2, h2, _⟩ := Examples.exists_trace (objs := Examples.facing) (b := Examples.source.drop 1) (reps := 4)
    (minE := 1/5) (n := [1, 1, 1, 1]) (by decide +kernel)
  refine ⟨res, res1, res2, h, h1, h2, C14_flat_partial Examples.facing_default Examples.facing_flat ?_ (by exact h) h1 h2⟩
  have hwin : ((Examples.source.take 1 ++ Examples.source.drop 1).all fun p => (Examples.facing.flatMap Obj.surfs).all fun s =>
      decide (s.single p ≤ ((selfTol : ℚ) : WithTop ℚ)) || decide (((dropTol : ℚ) : WithTop ℚ) < s.single p)) = true := by
    decide +kernel
  intro p hp
  refine Or.inr fun s hs t ht => ?_
  rw [List.all_eq_true] at hwin
  have := hwin p hp
  rw [List.all_eq_true] at this
  have := this s hs
  rw [ht] at this
  simpa [WithTop.coe_le_coe, WithTop.coe_lt_coe] using this

/-- `C84_order`: a one-sided mirror facing a two-sided one, with the source the other way round. -/
example : ∃ res res', rayTracer Examples.facingSkip () Examples.source 4 (1/5) true = .ok res ∧
    rayTracer Examples.facingSkip () Examples.source.reverse 4 (1/5) true = .ok res' ∧
    res.tree.map List.length = [2, 2, 1, 1] ∧
    ∀ k : Nat, (((res.tree[k]?).getD []).map Ray.strip).Perm (((res'.tree[k]?).getD []).map Ray.strip) := by
  obtain ⟨res, h, hl⟩ := Examples.exists_trace (objs := Examples.facingSkip) (b := Examples.source) (reps := 4) (minE := 1/5)
    (n := [2, 2, 1, 1]) (by decide +kernel)
  obtain ⟨res', h', _⟩ := Examples.exists_trace (objs := Examples.facingSkip) (b := Examples.source.reverse) (reps := 4)
    (minE := 1/5) (n := [2, 2, 1, 1]) (by decide +kernel)
  have hfl := Examples.facingSkip_flat
  exact ⟨res, res', h, h', hl, C84_order (per := Surf.single) (out := Surf.alone ())
    (Obj.Plain.decides Examples.facingSkip_plain) (plainPolicy_blind _)
    (fun o ho s hs => ((hfl o ho s hs).spec ()).1) (fun o ho s hs => ((hfl o ho s hs).spec ()).2.1)
    (fun o ho s hs => ((hfl o ho s hs).spec ()).2.2.1)
    (fun s hs => ((mem_allSurfs hfl hs).spec ()).2.2.2.1) (List.reverse_perm _).symm h h'⟩

/-- `C15_children_ties`: the rays that come from one of two coincident receivers may carry twice the energy, and do. -/
example : ∃ res l1 p, rayTracer Examples.doubled (fun _ => Account.reset) Examples.source 1 0 true = .ok res ∧
    Examples.source[0]? = some p ∧ res.tree[0 + 1]? = some l1 ∧
    ((l1.filter fun r => r.parent == 0).map Ray.energy).sum = p.energy ∧
    ((l1.filter fun r => r.parent == 0).map Ray.energy).sum ≤
      (timesHit (cutoff Surf.single (Examples.doubled.flatMap Obj.surfs) (propagated 0 0 Examples.source)) Surf.single
        (Examples.doubled.flatMap Obj.surfs) p : ℚ) * p.energy := by
  have h : ((rayTracer Examples.doubled (fun _ => Account.reset) Examples.source 1 0 true).toOption.map fun r =>
      (r.tree[0]?, (r.tree[1]?).map fun l => ((l.filter fun r => r.parent == 0).map Ray.energy).sum)) =
      some (some Examples.source, some 1) := by
    decide +kernel
  cases hr : rayTracer Examples.doubled (fun _ => Account.reset) Examples.source 1 0 true with
  | error e => rw [hr] at h; simp [Except.toOption] at h
  | ok res =>
    rw [hr] at h
    simp only [Except.toOption, Option.map_some, Option.some.injEq, Prod.mk.injEq, Option.map_eq_some_iff] at h
    obtain ⟨h0, l1, h1, hs⟩ := h
    refine ⟨res, l1, _, rfl, rfl, h1, by rw [hs], ?_⟩
    have hall : ∀ {P : Surf (Receivers ℚ) ℚ Unit → Prop}, (∀ i, P (mkSurf flatGM (receiverAt i (1/2)) 1)) →
        AllSurfs P Examples.doubled := by
      intro P hP o ho s hs
      simp only [Examples.doubled, List.mem_cons, List.not_mem_nil, or_false] at ho
      rcases ho with rfl | rfl <;> simp only [List.mem_cons, List.not_mem_nil, or_false] at hs <;> subst hs <;> exact hP _
    refine C15_children_ties (per := Surf.single) (objs := Examples.doubled) ?_ (hall fun i => (mkSurf_perRay flatGM_perRay _ _).single)
      (hall fun i => mkSurf_parentsOk _ (opt := receiverAt i (1/2)) (fun w up hits out w' he =>
        reflective_atHit (1/2) _ up hits out w' he) _)
      (hall fun i => mkSurf_energyOk _ (opt := receiverAt i (1/2)) (fun w up hits out w' he =>
        reflective_atHit (1/2) _ up hits out w' he) (by
          unfold receiverAt reflectiveReceiver
          exact accountant_energyOk (reflective_energyOk (by norm_num) (by norm_num))) _) ?_ hr h0 h1 rfl
    · intro o ho
      simp only [Examples.doubled, List.mem_cons, List.not_mem_nil, or_false] at ho
      rcases ho with rfl | rfl <;> exact ⟨rfl, rfl⟩
    · intro r hr
      simp only [Examples.source, List.mem_cons, List.not_mem_nil, or_false] at hr
      rcases hr with rfl | rfl <;> norm_num

/-- The surfaces of the layer of oil never tie, whatever rays they are asked about together. -/
theorem oilOnGlass_neverTie (p : Ray ℝ Unit) : NeverTie (oilOnGlass.scene.flatMap Obj.surfs) p := by
  have hper : ∀ s ∈ oilOnGlass.scene.flatMap Obj.surfs, s.PerRay s.single := by
    have : AllSurfs (fun s : Surf Unit ℝ Unit => s.PerRay s.single) oilOnGlass.scene := scene_all
      (List.forall_mem_cons.2 ⟨List.forall_mem_cons.2 ⟨(mkSurf_perRay flatGM_perRay _ _).single, List.forall_mem_cons.2
        ⟨(mkSurf_perRay flatGM_perRay _ _).single, List.forall_mem_cons.2 ⟨(mkSurf_perRay flatGM_perRay _ _).single,
          List.forall_mem_nil _⟩⟩⟩, List.forall_mem_nil _⟩)
    exact fun s hs => mem_allSurfs this hs
  intro k k' s s' t rays rays' i i' e e' hi hi' hr hr'
  rw [hper s (List.mem_of_getElem? e) rays, List.getElem?_map, hi] at hr
  rw [hper s' (List.mem_of_getElem? e') rays', List.getElem?_map, hi'] at hr'
  exact oilOnGlass_noTie p k k' s s' t e e' (by simpa using hr) (by simpa using hr')

/-- `C15_all_total` and `C15_default_total`: the slanting ray into the layer of oil. -/
example (reps : Nat) (minE : ℝ) :
    ∃ res : TraceResult Unit ℝ Unit,
      rayTracer oilOnGlass.scene () [⟨⟨0, 0, 3⟩, ⟨0, 3 / 5, -4 / 5⟩, 1, 0, some 1, ()⟩] reps minE true = .ok res ∧
      (∀ (k : Nat) prev lvl, res.tree[k]? = some prev → res.tree[k + 1]? = some lvl →
        (lvl.map Ray.energy).sum ≤ (prev.map Ray.energy).sum) ∧
      ∀ lvl ∈ res.tree, (lvl.map Ray.energy).sum ≤ 1 := by
  have hb : ∀ r ∈ ([⟨⟨0, 0, 3⟩, ⟨0, 3 / 5, -4 / 5⟩, 1, 0, some 1, ()⟩] : Bundle ℝ Unit),
      MediaRay (fun n => n = 1 ∨ n = 4 / 3 ∨ n = 3 / 2) r ∧ 0 ≤ r.energy := by
    intro r hr
    rw [List.mem_singleton] at hr
    subst hr
    exact ⟨⟨by norm_num [V3.IsUnit, V3.dot], 1, Or.inl rfl, rfl⟩, zero_le_one⟩
  have hplain : ∀ o ∈ oilOnGlass.getObjects, ∀ s ∈ o.surfs, PlainGeometry s.data.1 :=
    List.forall_mem_cons.2 ⟨List.forall_mem_cons.2 ⟨.flat, List.forall_mem_cons.2 ⟨.flat,
      List.forall_mem_cons.2 ⟨.flat, List.forall_mem_nil _⟩⟩⟩, List.forall_mem_nil _⟩
  have hphys : ∀ o ∈ oilOnGlass.getObjects, ∀ s ∈ o.surfs, PhysicalOptics (fun n => n = 1 ∨ n = 4 / 3 ∨ n = 3 / 2) s.data.2 :=
    List.forall_mem_cons.2 ⟨List.forall_mem_cons.2 ⟨.solid _ (.mirror _ (by norm_num) (by norm_num)), List.forall_mem_cons.2
      ⟨.refractive _ _ (by norm_num) (by norm_num),
        List.forall_mem_cons.2 ⟨.refractive _ _ (by norm_num) (by norm_num), List.forall_mem_nil _⟩⟩⟩, List.forall_mem_nil _⟩
  obtain ⟨res, h⟩ := C75_media oilOnGlass_media hplain () (fun r hr => (hb r hr).1) minE (Or.inl rfl)
  have h1 := C15_all_total oilOnGlass_media hphys hb h fun _ _ p _ => oilOnGlass_neverTie p
  have h2 := C15_default_total oilOnGlass_media (List.forall_mem_cons.2 ⟨rfl, List.forall_mem_nil _⟩) hphys hb h
    (fun k lvl _ j i i' s s' t e e' hr hr' => by
      have hj : j < (propagated minE k lvl).length := by
        by_contra hj
        rw [List.getElem?_eq_none] at hr
        · simp at hr
        · have := (scene_all (a := oilOnGlass) (P := fun s : Surf Unit ℝ Unit => s.LengthOk)
            (List.forall_mem_cons.2 ⟨List.forall_mem_cons.2 ⟨mkSurf_lengthOk flatGM_perRay.lengthOk _ _, List.forall_mem_cons.2
              ⟨mkSurf_lengthOk flatGM_perRay.lengthOk _ _, List.forall_mem_cons.2 ⟨mkSurf_lengthOk flatGM_perRay.lengthOk _ _,
                List.forall_mem_nil _⟩⟩⟩, List.forall_mem_nil _⟩))
          have := mem_allSurfs this (List.mem_of_getElem? e) (propagated minE k lvl)
          omega
      exact oilOnGlass_neverTie _ i i' s s' t _ _ j j e e' (List.getElem?_eq_getElem hj) (List.getElem?_eq_getElem hj) hr hr')
  exact ⟨res, h, h1.1, by simpa using h2.2⟩

end Tracer
