import Verif.Lemmas.EnergyLibrary
import Verif.Props.Media
import Verif.Props.CurvedMirrors

/-!
# Energy along a trace of the package's components (C15)

The contracts of `Props/Energy.lean` hold of every callable of the package, for the rays that occur in a trace.
-/

set_option linter.unusedSectionVars false

namespace Tracer

section
variable {K E σ : Type _} [Field K] [LinearOrder K] [IsStrictOrderedRing K]
  {objs : List (Obj σ K E)} {w : σ} {b : Bundle K E} {reps : Nat} {minE : K}
  {res : TraceResult σ K E} {Q : Ray K E → Prop}

theorem step_bund {k : Nat} {prev bund b : Bundle K E}
    (h0 : k = 0 → prev = b ∧ bund = b)
    (h1 : 0 < k → ∃ weak, prev = bund ++ weak ∧ (∀ r ∈ bund, minE < r.energy) ∧ ∀ r ∈ weak, r.energy ≤ minE) :
    (∃ weak, prev = bund ++ weak) ∧ propagated minE k prev = bund := by
  cases k with
  | zero =>
    rw [(h0 rfl).1, (h0 rfl).2]
    exact ⟨⟨[], by simp⟩, rfl⟩
  | succ k =>
    obtain ⟨weak, hw, hs1, hs2⟩ := h1 (by omega)
    exact ⟨⟨weak, hw⟩, by rw [hw, propagated_append (by omega) hs1 hs2]⟩

/-- No negative energies, if the rays of the trace satisfy `Q`. -/
theorem nonneg_on (hobj : ∀ o ∈ objs, o.ShapeOk) (hlen : AllSurfs Surf.LengthOk objs)
    (hpar : AllSurfs Surf.ParentsOk objs) (hen : AllSurfs (Surf.EnergyOn Q) objs)
    (hpos : ∀ r ∈ b, 0 ≤ r.energy)
    (h : rayTracer objs w b reps minE true = .ok res) (hQ : ∀ lvl ∈ res.tree, ∀ r ∈ lvl, Q r)
    {k : Nat} {lvl : Bundle K E} (hk : res.tree[k]? = some lvl) : ∀ r ∈ lvl, 0 ≤ r.energy := by
  induction k generalizing lvl with
  | zero =>
    have := (C11_iteration_limit hobj h).1
    rw [List.head?_eq_getElem?, hk] at this
    cases this
    exact hpos
  | succ k ih =>
    obtain ⟨st, st', gen, steps, prev, hrun, _, hsh, hi, hne, hp, h0, h1⟩ := tree_level hobj h hk
    obtain ⟨⟨weak, hw⟩, _⟩ := step_bund (minE := minE) h0 h1
    have hst : ∀ r ∈ st.bund, 0 ≤ r.energy ∧ Q r := fun r hr =>
      have hm : r ∈ prev := by rw [hw]; exact List.mem_append_left _ hr
      ⟨ih hp r hm, hQ prev (List.mem_of_getElem? hp) r hm⟩
    obtain ⟨front, owned, hint, hg, _⟩ := iterate_energyOn hsh hpar hen hst hi
    intro r hr
    have hr' := (recorded_perm hsh hi).subset hr
    refine hg ?_ r hr'
    intro hb
    obtain ⟨_, _, p, hc⟩ := generated_child hsh hlen hpar hi hr'
    have := hc.parent
    rw [hb] at this
    simp at this

/-- The energy of the children, in terms of the surfaces marked for the ray. -/
theorem children_on (hobj : ∀ o ∈ objs, o.ShapeOk) (hlen : AllSurfs Surf.LengthOk objs)
    (hpar : AllSurfs Surf.ParentsOk objs) (hen : AllSurfs (Surf.EnergyOn Q) objs)
    (hpos : ∀ r ∈ b, 0 ≤ r.energy)
    (h : rayTracer objs w b reps minE true = .ok res) (hQ : ∀ lvl ∈ res.tree, ∀ r ∈ lvl, Q r)
    {k : Nat} {prev lvl : Bundle K E} (hk : res.tree[k]? = some prev)
    (hk1 : res.tree[k + 1]? = some lvl) {j : Nat} {p : Ray K E} (hj : prev[j]? = some p)
    (hties : ∀ steps st, Run objs minE (initState objs b w) steps st → st.Shape objs →
      st.bund = propagated minE k prev → st.bund[j]? = some p →
      ∀ (k k' : Nat) (t : K), Answer st.bund (objs.flatMap Obj.surfs) (surfOwnership objs) st.rayOwn st.relev k j t →
        Answer st.bund (objs.flatMap Obj.surfs) (surfOwnership objs) st.rayOwn st.relev k' j t → k = k') :
    ((lvl.filter fun r => r.parent == j).map Ray.energy).sum ≤ p.energy := by
  obtain ⟨st, st', gen, steps, prev', hrun, _, hsh, hi, _, hprev, h0, h1⟩ := tree_level hobj h hk1
  rw [hk] at hprev; cases hprev
  obtain ⟨⟨weak, hw⟩, hprop⟩ := step_bund (minE := minE) h0 h1
  have hn := nonneg_on hobj hlen hpar hen hpos h hQ hk
  have hst : ∀ r ∈ st.bund, 0 ≤ r.energy ∧ Q r := fun r hr =>
    have hm : r ∈ prev := by rw [hw]; exact List.mem_append_left _ hr
    ⟨hn r hm, hQ prev (List.mem_of_getElem? hk) r hm⟩
  have hp0 := hn p (List.mem_of_getElem? hj)
  change childEnergy j lvl ≤ p.energy
  rw [childEnergy_perm j (recorded_perm hsh hi)]
  rcases Nat.lt_or_ge j st.bund.length with hlt | hge
  · have hpj : st.bund[j]? = some p := by
      rw [hw, List.getElem?_append_left hlt] at hj
      exact hj
    obtain ⟨front, owned, hint, _, hc⟩ := iterate_energyOn hsh hpar hen hst hi
    refine (hc j p hpj).trans ?_
    have h1 : (front.countP fun f => decide (f[j]? = some true)) ≤ 1 := by
      apply countP_le_one
      intro i i' f f' hi hi' hf hf'
      rw [decide_eq_true_eq] at hf hf'
      exact C09_one_surface_partial hsh (fun s hs => mem_allSurfs hlen hs) hint j
        (fun k k' t ha ha' _ => hties steps st hrun hsh hprop.symm hpj k k' t ha ha') ⟨f, hi, hf⟩ ⟨f', hi', hf'⟩
    have h2 : ((front.countP fun f => decide (f[j]? = some true) : Nat) : K) ≤ 1 := by exact_mod_cast h1
    nlinarith
  · rw [childEnergy_none]
    · exact hp0
    · intro r hr hrj
      obtain ⟨_, _, q, hc⟩ := generated_child hsh hlen hpar hi hr
      have := (List.getElem?_eq_some_iff.1 hc.parent).1
      rw [hrj] at this
      omega

/-- From the children of each ray to whole bundles. -/
theorem total_of_children (hobj : ∀ o ∈ objs, o.ShapeOk) (hlen : AllSurfs Surf.LengthOk objs)
    (hpar : AllSurfs Surf.ParentsOk objs) (h : rayTracer objs w b reps minE true = .ok res)
    (hc : ∀ (k : Nat) prev lvl, res.tree[k]? = some prev → res.tree[k + 1]? = some lvl → ∀ (j : Nat) p, prev[j]? = some p →
      ((lvl.filter fun r => r.parent == j).map Ray.energy).sum ≤ p.energy) :
    (∀ (k : Nat) prev lvl, res.tree[k]? = some prev → res.tree[k + 1]? = some lvl →
      (lvl.map Ray.energy).sum ≤ (prev.map Ray.energy).sum) ∧
    ∀ lvl ∈ res.tree, (lvl.map Ray.energy).sum ≤ (b.map Ray.energy).sum := by
  have hstep : ∀ (k : Nat) prev lvl, res.tree[k]? = some prev → res.tree[k + 1]? = some lvl →
      (lvl.map Ray.energy).sum ≤ (prev.map Ray.energy).sum := by
    intro k prev lvl hk hk1
    have hpl : ∀ r ∈ lvl, r.parent < prev.length := by
      intro r hr
      obtain ⟨prev', p, hp, hp', _⟩ := C06_parents_valid hobj hlen hpar h hk1 hr
      rw [hk] at hp; cases hp
      exact (List.getElem?_eq_some_iff.1 hp').1
    rw [total_eq_sum_children lvl prev.length hpl]
    have hl : prev.map Ray.energy = (List.range prev.length).map fun j =>
        ((prev[j]?).map Ray.energy).getD 0 := by
      apply List.ext_getElem?
      intro j
      rcases Nat.lt_or_ge j prev.length with hj | hj
      · simp [hj]
      · simp [hj]
    rw [hl]
    apply List.sum_le_sum
    intro j hj
    have hj' := List.mem_range.1 hj
    have hpj : prev[j]? = some prev[j] := List.getElem?_eq_getElem hj'
    rw [hpj]
    exact hc k prev lvl hk hk1 j _ hpj
  refine ⟨hstep, ?_⟩
  have hall : ∀ (k : Nat) lvl, res.tree[k]? = some lvl → (lvl.map Ray.energy).sum ≤ (b.map Ray.energy).sum := by
    intro k
    induction k with
    | zero =>
      intro lvl hk
      have := (C11_iteration_limit hobj h).1
      rw [List.head?_eq_getElem?, hk] at this
      cases this
      exact le_rfl
    | succ k ih =>
      intro lvl hk
      have hkl : k < res.tree.length := by
        have := (List.getElem?_eq_some_iff.1 hk).1
        omega
      exact (hstep k _ lvl (List.getElem?_eq_getElem hkl) hk).trans (ih _ (List.getElem?_eq_getElem hkl))
  intro lvl hl
  obtain ⟨k, hk⟩ := List.getElem?_of_mem hl
  exact hall k lvl hk

end

/-! ## The package's components -/

section
variable {E σ : Type _} {M : ℝ → Prop} {a : SceneAsm σ ℝ E} {w : σ} {b : Bundle ℝ E} {reps : Nat} {minE : ℝ} {res : TraceResult σ ℝ E}

theorem scene_all {P : Surf σ ℝ E → Prop} (h : ∀ o ∈ a.getObjects, ∀ s ∈ o.surfs, P (mkSurf s.data.1 s.data.2 s.temp)) :
    AllSurfs P a.scene := by
  intro o ho s hs
  obtain ⟨q, hq, rfl⟩ := List.mem_map.1 ho
  obtain ⟨p, hp, rfl⟩ := List.mem_map.1 hs
  exact h q hq p hp

theorem Optics.Obeys.atHit {K : Type _} {opt : Optics σ K E} {law} (h : opt.Obeys law) : opt.AtHit := by
  intro w up hits out w' ho r hr
  obtain ⟨q, hq, e1, e2, _⟩ := h w up hits out w' ho r hr
  exact ⟨q, hq, e1, e2⟩

theorem MediaScene.lengthOk (ha : MediaScene M a) : AllSurfs Surf.LengthOk a.scene :=
  scene_all fun o ho s hs => mkSurf_lengthOk (ha.geometry o ho s hs).lengthOk _ _

theorem MediaScene.atHit (ha : MediaScene M a) : ∀ o ∈ a.getObjects, ∀ s ∈ o.surfs, s.data.2.AtHit := fun o ho s hs =>
  (mediaOptics_obeys ha.media (ha.optics o ho s hs)).atHit

theorem MediaScene.parentsOk (ha : MediaScene M a) : AllSurfs Surf.ParentsOk a.scene :=
  scene_all fun o ho s hs => mkSurf_parentsOk _ (ha.atHit o ho s hs) _

theorem MediaScene.energyOn (ha : MediaScene M a) (hphys : ∀ o ∈ a.getObjects, ∀ s ∈ o.surfs, PhysicalOptics M s.data.2) :
    AllSurfs (Surf.EnergyOn (MediaRay M)) a.scene :=
  scene_all fun o ho s hs => mkSurf_energyOn _ (ha.atHit o ho s hs) ((hphys o ho s hs).energyOn ha.media) _

/-- The ray that a surface is asked about. -/
theorem answer_place {K : Type _} [Field K] [LinearOrder K] {b : Bundle K E} {surfs : List (Surf σ K E)} {surfOwn : List Nat}
    {rayOwn : List (Option Nat)} {relev : List (List Bool)} {k j : Nat} {p : WithTop K}
    (h : Answer b surfs surfOwn rayOwn relev k j p) :
    ∃ (s : Surf σ K E) (rays : Bundle K E) (i : Nat), surfs[k]? = some s ∧ rays[i]? = b[j]? ∧ (s.register rays)[i]? = some p := by
  obtain ⟨s, i, hs, hi, hp⟩ := h
  refine ⟨s, _, i, hs, ?_, hp⟩
  have hall : ∀ l : List Nat, (∀ j ∈ l, j < b.length) → ∀ i j : Nat, l[i]? = some j →
      (l.filterMap fun j => b[j]?)[i]? = b[j]? := by
    intro l
    induction l with
    | nil => intro _ i j h; simp at h
    | cons a l ih =>
      intro hl i j hij
      have ha : a < b.length := hl a (by simp)
      rw [List.filterMap_cons_some (List.getElem?_eq_getElem ha)]
      cases i with
      | zero => simp at hij; subst hij; simp [ha]
      | succ i => simpa using ih (fun j hj => hl j (List.mem_cons_of_mem _ hj)) i j (by simpa using hij)
  exact hall _ (fun j hj => by
    unfold testedIdx at hj
    exact List.mem_range.1 (List.mem_filter.1 hj).1) i j hi

/-- C15: no ray has negative energy.  Scenes of the package's components, refracting and diffuse ones included, any number of media. -/
theorem C15_library_nonneg (ha : MediaScene M a) (hphys : ∀ o ∈ a.getObjects, ∀ s ∈ o.surfs, PhysicalOptics M s.data.2)
    (hb : ∀ r ∈ b, MediaRay M r ∧ 0 ≤ r.energy) (h : rayTracer a.scene w b reps minE true = .ok res) :
    ∀ lvl ∈ res.tree, ∀ r ∈ lvl, 0 ≤ r.energy := by
  intro lvl hl
  obtain ⟨k, hk⟩ := List.getElem?_of_mem hl
  exact nonneg_on ha.shapeOk ha.lengthOk ha.parentsOk (ha.energyOn hphys) (fun r hr => (hb r hr).2) h
    ((C74_media ha h).2 fun r hr => (hb r hr).1) hk

/-- C15: the children of a ray that no two surfaces meet at the same parameter carry together at most its energy.  Scenes of the package's
components on any geometries except hemispheres and cut spheres, whose answer about a ray depends on the other rays. -/
theorem C15_library_children (ha : MediaScene M a)
    (hplain : ∀ o ∈ a.getObjects, ∀ s ∈ o.surfs, PlainGeometry s.data.1)
    (hphys : ∀ o ∈ a.getObjects, ∀ s ∈ o.surfs, PhysicalOptics M s.data.2)
    (hb : ∀ r ∈ b, MediaRay M r ∧ 0 ≤ r.energy) (h : rayTracer a.scene w b reps minE true = .ok res)
    {k : Nat} {prev lvl : Bundle ℝ E} (hk : res.tree[k]? = some prev) (hk1 : res.tree[k + 1]? = some lvl)
    {j : Nat} {p : Ray ℝ E} (hj : prev[j]? = some p) (hnt : NoTie Surf.single (a.scene.flatMap Obj.surfs) p) :
    ((lvl.filter fun r => r.parent == j).map Ray.energy).sum ≤ p.energy := by
  have hper : AllSurfs (fun s => s.PerRay s.single) a.scene := scene_all fun o ho s hs => by
    obtain ⟨f, hf⟩ := (hplain o ho s hs).perRay
    exact (mkSurf_perRay hf s.data.2 s.temp).single
  refine children_on ha.shapeOk ha.lengthOk ha.parentsOk (ha.energyOn hphys) (fun r hr => (hb r hr).2) h
    ((C74_media ha h).2 fun r hr => (hb r hr).1) hk hk1 hj ?_
  intro steps st _ _ _ hpj k k' t hA hA'
  obtain ⟨s, r, e1, e2, e3⟩ := answer_perRay_imp (fun s hs => mem_allSurfs hper hs) hA
  obtain ⟨s', r', e1', e2', e3'⟩ := answer_perRay_imp (fun s hs => mem_allSurfs hper hs) hA'
  rw [hpj] at e2 e2'
  cases e2; cases e2'
  exact hnt k k' s s' t e1 e1' e3 e3'

/-- C15, for all geometries and all policies of the package. -/
theorem C15_all_children (ha : MediaScene M a)
    (hphys : ∀ o ∈ a.getObjects, ∀ s ∈ o.surfs, PhysicalOptics M s.data.2)
    (hb : ∀ r ∈ b, MediaRay M r ∧ 0 ≤ r.energy) (h : rayTracer a.scene w b reps minE true = .ok res)
    {k : Nat} {prev lvl : Bundle ℝ E} (hk : res.tree[k]? = some prev) (hk1 : res.tree[k + 1]? = some lvl)
    {j : Nat} {p : Ray ℝ E} (hj : prev[j]? = some p) (hnt : NeverTie (a.scene.flatMap Obj.surfs) p) :
    ((lvl.filter fun r => r.parent == j).map Ray.energy).sum ≤ p.energy := by
  refine children_on ha.shapeOk ha.lengthOk ha.parentsOk (ha.energyOn hphys) (fun r hr => (hb r hr).2) h
    ((C74_media ha h).2 fun r hr => (hb r hr).1) hk hk1 hj ?_
  intro steps st _ _ _ hpj k k' t hA hA'
  obtain ⟨s, rays, i, e1, e2, e3⟩ := answer_place hA
  obtain ⟨s', rays', i', e1', e2', e3'⟩ := answer_place hA'
  exact hnt k k' s s' t rays rays' i i' e1 e1' (e2.trans hpj) (e2'.trans hpj) e3 e3'

/-- C15: the total energy of a recorded bundle is at most that of the one before, and so at most that of the source.  All geometries and all
policies of the package. -/
theorem C15_all_total (ha : MediaScene M a)
    (hphys : ∀ o ∈ a.getObjects, ∀ s ∈ o.surfs, PhysicalOptics M s.data.2)
    (hb : ∀ r ∈ b, MediaRay M r ∧ 0 ≤ r.energy) (h : rayTracer a.scene w b reps minE true = .ok res)
    (hnt : ∀ lvl ∈ res.tree, ∀ p ∈ lvl, NeverTie (a.scene.flatMap Obj.surfs) p) :
    (∀ (k : Nat) prev lvl, res.tree[k]? = some prev → res.tree[k + 1]? = some lvl →
      (lvl.map Ray.energy).sum ≤ (prev.map Ray.energy).sum) ∧
    ∀ lvl ∈ res.tree, (lvl.map Ray.energy).sum ≤ (b.map Ray.energy).sum :=
  total_of_children ha.shapeOk ha.lengthOk ha.parentsOk h fun k prev lvl hk hk1 j p hj =>
    C15_all_children ha hphys hb h hk hk1 hj (hnt prev (List.mem_of_getElem? hk) p (List.mem_of_getElem? hj))

/-- C15, for the default policies and all geometries of the package. -/
theorem C15_default_children (ha : MediaScene M a)
    (hdef : ∀ o ∈ a.getObjects, o.data = (Obj.defaultOwn, Obj.defaultNext o.surfs.length))
    (hphys : ∀ o ∈ a.getObjects, ∀ s ∈ o.surfs, PhysicalOptics M s.data.2)
    (hb : ∀ r ∈ b, MediaRay M r ∧ 0 ≤ r.energy) (h : rayTracer a.scene w b reps minE true = .ok res)
    {k : Nat} {prev lvl : Bundle ℝ E} (hk : res.tree[k]? = some prev) (hk1 : res.tree[k + 1]? = some lvl)
    {j : Nat} {p : Ray ℝ E} (hj : prev[j]? = some p)
    (hnt : TieFree (a.scene.flatMap Obj.surfs) (propagated minE k prev) j) :
    ((lvl.filter fun r => r.parent == j).map Ray.energy).sum ≤ p.energy := by
  have hd : ∀ o ∈ a.scene, o.Default := by
    intro o ho
    obtain ⟨q, hq, rfl⟩ := List.mem_map.1 ho
    have := hdef q hq
    unfold Obj.Default
    simp [this]
  refine children_on ha.shapeOk ha.lengthOk ha.parentsOk (ha.energyOn hphys) (fun r hr => (hb r hr).2) h
    ((C74_media ha h).2 fun r hr => (hb r hr).1) hk hk1 hj ?_
  intro steps st hrun hsh hbund hpj k k' t hA hA'
  have hfree := hrun.free hd (initState_shape a.scene b w) (initState_free a.scene b w)
  obtain ⟨s, e1, _, e2⟩ := (hfree.answer hsh k j _).1 hA
  obtain ⟨s', e1', _, e2'⟩ := (hfree.answer hsh k' j _).1 hA'
  rw [hbund] at e2 e2'
  exact hnt k k' s s' t e1 e1' e2 e2'

/-- C15: the total energy of a recorded bundle is at most that of the one before, and so at most that of the source, if no two surfaces meet a
ray of the trace at the same parameter. -/
theorem C15_library_total (ha : MediaScene M a)
    (hplain : ∀ o ∈ a.getObjects, ∀ s ∈ o.surfs, PlainGeometry s.data.1)
    (hphys : ∀ o ∈ a.getObjects, ∀ s ∈ o.surfs, PhysicalOptics M s.data.2)
    (hb : ∀ r ∈ b, MediaRay M r ∧ 0 ≤ r.energy) (h : rayTracer a.scene w b reps minE true = .ok res)
    (hnt : ∀ lvl ∈ res.tree, ∀ p ∈ lvl, NoTie Surf.single (a.scene.flatMap Obj.surfs) p) :
    (∀ (k : Nat) prev lvl, res.tree[k]? = some prev → res.tree[k + 1]? = some lvl →
      (lvl.map Ray.energy).sum ≤ (prev.map Ray.energy).sum) ∧
    ∀ lvl ∈ res.tree, (lvl.map Ray.energy).sum ≤ (b.map Ray.energy).sum :=
  total_of_children ha.shapeOk ha.lengthOk ha.parentsOk h fun k prev lvl hk hk1 j p hj =>
    C15_library_children ha hplain hphys hb h hk hk1 hj
      (hnt prev (List.mem_of_getElem? hk) p (List.mem_of_getElem? hj))

/-- C15, totals for the default policies and all geometries of the package. -/
theorem C15_default_total (ha : MediaScene M a)
    (hdef : ∀ o ∈ a.getObjects, o.data = (Obj.defaultOwn, Obj.defaultNext o.surfs.length))
    (hphys : ∀ o ∈ a.getObjects, ∀ s ∈ o.surfs, PhysicalOptics M s.data.2)
    (hb : ∀ r ∈ b, MediaRay M r ∧ 0 ≤ r.energy) (h : rayTracer a.scene w b reps minE true = .ok res)
    (hnt : ∀ (k : Nat) lvl, res.tree[k]? = some lvl → ∀ j, TieFree (a.scene.flatMap Obj.surfs) (propagated minE k lvl) j) :
    (∀ (k : Nat) prev lvl, res.tree[k]? = some prev → res.tree[k + 1]? = some lvl →
      (lvl.map Ray.energy).sum ≤ (prev.map Ray.energy).sum) ∧
    ∀ lvl ∈ res.tree, (lvl.map Ray.energy).sum ≤ (b.map Ray.energy).sum :=
  total_of_children ha.shapeOk ha.lengthOk ha.parentsOk h fun k prev lvl hk hk1 j _ hj =>
    C15_default_children ha hdef hphys hb h hk hk1 hj (hnt k prev hk j)

end

/-! ## The layer of oil -/

theorem flatParam_level {c t : ℝ} {v d : V3 ℝ} (h : flatParam ⟨1, ⟨0, 0, c⟩⟩ v d = (t : WithTop ℝ)) : v.z + t * d.z = c := by
  have e1 : V3.dot d ((1 : M3 ℝ).c3) = d.z := by show d.x * 0 + d.y * 0 + d.z * 1 = _; ring
  have e2 : V3.dot ((1 : M3 ℝ).c3) (v - ⟨0, 0, c⟩) = v.z - c := by
    show 0 * (v.x - 0) + 0 * (v.y - 0) + 1 * (v.z - c) = _; ring
  unfold flatParam at h
  simp only [e1, e2] at h
  split at h
  · rename_i hp
    have hz : d.z ≠ 0 := by
      rintro hz
      rw [hz, abs_zero] at hp
      exact absurd hp (not_lt.2 (by unfold parallelTol; norm_num))
    split at h
    · exact absurd h (by simp)
    · have := WithTop.coe_injective h
      rw [← this]
      field_simp
      ring
  · exact absurd h (by simp)

/-- No ray meets two of the three planes at the same place. -/
theorem oilOnGlass_noTie (p : Ray ℝ Unit) : NoTie Surf.single (oilOnGlass.scene.flatMap Obj.surfs) p := by
  have hs : ∀ (k : Nat) s, (oilOnGlass.scene.flatMap Obj.surfs)[k]? = some s → ∀ t : ℝ, s.single p = (t : WithTop ℝ) →
      p.vertex.z + t * p.dir.z = k := by
    have key : ∀ (c : ℝ) (opt : Optics Unit ℝ Unit) (t : ℝ), (mkSurf flatGM opt ⟨1, ⟨0, 0, c⟩⟩).single p = (t : WithTop ℝ) →
        p.vertex.z + t * p.dir.z = c := fun c opt t ht => flatParam_level (by rw [← ht]; rfl)
    intro k s hk t ht
    match k, hk with
    | 0, hk => cases hk; simpa using key 0 _ t (by rw [← ht]; rfl)
    | 1, hk => cases hk; simpa using key 1 _ t (by rw [← ht])
    | 2, hk => cases hk; simpa using key 2 _ t (by rw [← ht])
    | k + 3, hk => cases hk
  intro k k' s s' t e e' h h'
  exact_mod_cast (hs k s e t h).symm.trans (hs k' s' e' t h')

/-- The slanting ray into the oil: for every number of iterations, the light of a generation is at most that of the source. -/
example (reps : Nat) (minE : ℝ) :
    ∃ res : TraceResult Unit ℝ Unit,
      rayTracer oilOnGlass.scene () [⟨⟨0, 0, 3⟩, ⟨0, 3 / 5, -4 / 5⟩, 1, 0, some 1, ()⟩] reps minE true = .ok res ∧
      ∀ lvl ∈ res.tree, (∀ r ∈ lvl, 0 ≤ r.energy) ∧ (lvl.map Ray.energy).sum ≤ 1 := by
  have hb : ∀ r ∈ ([⟨⟨0, 0, 3⟩, ⟨0, 3 / 5, -4 / 5⟩, 1, 0, some 1, ()⟩] : Bundle ℝ Unit),
      MediaRay (fun n => n = 1 ∨ n = 4 / 3 ∨ n = 3 / 2) r ∧ 0 ≤ r.energy := by
    intro r hr
    rw [List.mem_singleton] at hr
    subst hr
    exact ⟨⟨by norm_num [V3.IsUnit, V3.dot], 1, Or.inl rfl, rfl⟩, zero_le_one⟩
  have hplain : ∀ o ∈ oilOnGlass.getObjects, ∀ s ∈ o.surfs, PlainGeometry s.data.1 :=
    List.forall_mem_cons.2 ⟨List.forall_mem_cons.2 ⟨.flat, List.forall_mem_cons.2 ⟨.flat,
      List.forall_mem_cons.2 ⟨.flat, List.forall_mem_nil _⟩⟩⟩, List.forall_mem_nil _⟩
  have hphys : ∀ o ∈ oilOnGlass.getObjects, ∀ s ∈ o.surfs, PhysicalOptics (fun n => n = 1 ∨ n = 4 / 3 ∨ n = 3 / 2) s.data.2 :=
    List.forall_mem_cons.2 ⟨List.forall_mem_cons.2 ⟨.solid _ (.mirror _ (by norm_num) (by norm_num)), List.forall_mem_cons.2
      ⟨.refractive _ _ (by norm_num) (by norm_num),
        List.forall_mem_cons.2 ⟨.refractive _ _ (by norm_num) (by norm_num), List.forall_mem_nil _⟩⟩⟩, List.forall_mem_nil _⟩
  obtain ⟨res, h⟩ := C75_media oilOnGlass_media hplain () (fun r hr => (hb r hr).1) minE (Or.inl rfl)
  refine ⟨res, h, fun lvl hl => ⟨C15_library_nonneg oilOnGlass_media hphys hb h lvl hl, ?_⟩⟩
  have := (C15_library_total oilOnGlass_media hplain hphys hb h fun _ _ p _ => oilOnGlass_noTie p).2 lvl hl
  simpa using this

end Tracer
