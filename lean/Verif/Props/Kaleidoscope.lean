import Verif.Lemmas.DishCourse

/-!
# Light through a homogenizer (C86)

The walls of a `rect_homogenizer` act as a kaleidoscope: a ray that enters it arrives at the receiver at the end where the straight line
crosses the receiver's plane, folded back through the mirror images, after as many reflections as there are mirrors between.  The theorems
go from the construction of the collectors of the package over the trace to what their receivers report.
-/

set_option linter.unusedSectionVars false

namespace Tracer

open Real

variable {E σ : Type _}

theorem MirrorOptics.opaque {opt : Optics σ ℝ E} (h : MirrorOptics opt) : OpaqueOptics opt := by
  induction h with
  | mirror a => exact .mirror a
  | oneSided a => exact .oneSided a
  | receiver a get set opt _ ih => exact .receiver a get set opt ih

theorem map_attach {α β : Type _} (l : List α) (f : α → β) : (l.attach.map fun i => f i.1) = l.map f := by
  have : (fun i : {x // x ∈ l} => f i.1) = f ∘ Subtype.val := rfl
  rw [this, ← List.map_map, List.attach_map_subtype_val]

/-- What a homogenized receiver reports of rays whose ways to it are known. -/
theorem collector_report {reflector : SceneSurf σ ℝ E} {pos x y depth eff minE : ℝ} {get : σ → Account ℝ} {set : Account ℝ → σ → σ}
    {b : Bundle ℝ E} {reps : Nat} {w : σ} {en : Ray ℝ E → ℝ} {pt : Ray ℝ E → V3 ℝ} (hx : 0 < x) (hy : 0 < y) (hd : 0 < depth)
    (hrig : reflector.own.Rigid) (hgeo : PlainGeometry reflector.data.1) (hopt : MirrorOptics reflector.data.2)
    (hkeep : KeepsMemory get reflector.data.2) (hgs : ∀ acc w, get (set acc w) = acc) (hw : get w = Account.reset)
    (hunit : ∀ r ∈ b, r.dir.IsUnit) (junk : M3 ℝ)
    (hcourse : ∀ (objs : List (Obj σ ℝ E)) (ws : Nat → Surf σ ℝ E) (front back : Surf σ ℝ E),
      IsTube objs (plainPolicy objs) w x y (pos - depth) pos eff ws front back (mkSurf reflector.data.1 reflector.data.2 reflector.own) →
      ∀ r ∈ b, ∃ P q τ, Course Surf.single (Surf.alone w) (plainPolicy objs) (sites objs) minE ⟨r, none⟩ P ∧ P.length ≤ reps ∧
        toFront P = [(q, τ)] ∧ q.energy = en r ∧ q.at τ = pt r) :
    ∃ a res es ps, homogenizedLocalReceiver reflector pos (x, y) depth eff get set junk = .ok a ∧
      rayTracer a.scene w b reps minE true = .ok res ∧ (get res.world).getAllHits = .ok (es, ps) ∧ es.length = ps.length ∧
      (es.zip ps).Perm (b.map fun r => (en r, pt r)) := by
  obtain ⟨a, own, fw, gw, g, ha, hg, hgw, hfw, hobjs, hwall⟩ := collector_scene (σ := σ) (E := E) reflector pos hx hy hd eff get set junk
  have hF := receiverFrame_rigid pos
  have htube := fun r0 : Ray ℝ E => collector_tube (refl := mkSurf reflector.data.1 reflector.data.2 reflector.own) (get := get) (set := set)
    hg hwall w r0
  have hscene : a.scene = tubeObjs gw fw eff g (translate 0 0 pos * rotx π) get set
      (mkSurf reflector.data.1 reflector.data.2 reflector.own) := by
    unfold Asm.scene
    rw [hobjs]
    rfl
  generalize translate 0 0 pos * rotx π = F at *
  have hall : ∀ o ∈ a.getObjects, ∀ s ∈ o.surfs, s.temp.Rigid ∧ PlainGeometry s.data.1 ∧ MirrorOptics s.data.2 := by
    intro o ho s hs
    rw [hobjs] at ho
    have hwl : ∀ k, s ∈ (wallNode (own k) (gw k) (fw k) eff : SceneObj σ ℝ E).surfs →
        s.temp.Rigid ∧ PlainGeometry s.data.1 ∧ MirrorOptics s.data.2 := by
      intro k hs
      obtain ⟨W, L, hWL⟩ := hgw k
      rw [wallNode, List.mem_singleton] at hs
      subst hs
      exact ⟨hfw k, .rect _ _ _ hWL, .oneSided _⟩
    simp only [List.mem_cons, List.not_mem_nil, or_false] at ho
    rcases ho with rfl | rfl | rfl | rfl | rfl | rfl
    · exact hwl 0 hs
    · exact hwl 1 hs
    · exact hwl 2 hs
    · exact hwl 3 hs
    · simp only [receiverNode, List.mem_cons, List.not_mem_nil, or_false] at hs
      rcases hs with rfl | rfl
      · exact ⟨hF, .rect _ _ _ hg, .receiver _ _ _ _ (.mirror _)⟩
      · exact ⟨(back_rigid hF).1, .rect _ _ _ hg, .mirror _⟩
    · rw [reflectorNode, List.mem_singleton] at hs
      subst hs
      exact ⟨hrig, hgeo, hopt⟩
  have hlib : LibraryScene 1 1 a := by
    refine ⟨?_, fun o ho s hs => (hall o ho s hs).1, fun o ho s hs => .plain _ (hall o ho s hs).2.1,
      fun o ho s hs => (hall o ho s hs).2.2.opaque.library 1 1, ?_⟩
    · rw [hobjs]
      exact ⟨_, List.mem_cons_self .., by simp [wallNode]⟩
    · intro o ho
      rw [hobjs] at ho
      simp only [List.mem_cons, List.not_mem_nil, or_false] at ho
      rcases ho with rfl | rfl | rfl | rfl | rfl | rfl
      all_goals first | exact Or.inr rfl | exact Or.inl rfl
  obtain ⟨res, hres⟩ := C75_opaque hlib (fun o ho s hs => (hall o ho s hs).2.1) (fun o ho s hs => (hall o ho s hs).2.2.opaque) w hunit
    (reps := reps) minE (keepTree := true) (Or.inl rfl)
  have hpl : ∀ o ∈ a.scene, o.Plain := by
    intro o ho
    rw [hscene] at ho
    simp only [tubeObjs, List.mem_cons, List.not_mem_nil, or_false] at ho
    rcases ho with rfl | rfl | rfl | rfl | rfl | rfl
    all_goals first | exact ⟨rfl, Or.inr rfl⟩ | exact ⟨rfl, Or.inl rfl⟩
  have hmir : AllSurfs PlainMirror a.scene := by
    intro o ho s hs
    obtain ⟨o', ho', rfl⟩ := List.mem_map.1 ho
    obtain ⟨s', hs', rfl⟩ := List.mem_map.1 hs
    exact ⟨_, _, _, rfl, (hall o' ho' s' hs').2⟩
  have hk : KeepsMemory get (reflective 1 : Optics σ ℝ E) := (C51_reflective 1 get).1
  have hfront : (⟨4, 0, mkSurf g (reflectiveReceiver 1 get set) F⟩ : Site σ ℝ E) ∈ sites a.scene := by
    rw [hscene]
    exact (tubeObjs_sites _).2 (Or.inr (Or.inl rfl))
  have hign : ∀ z ∈ sites a.scene, ¬ (z.obj = 4 ∧ z.num = 0) → z.surf.Ignores get := by
    intro z hz hne
    rw [hscene] at hz
    rcases (tubeObjs_sites _).1 hz with ⟨j, _, rfl⟩ | rfl | rfl | rfl
    · exact keeps_ignores (mirror_keeps _ _)
    · exact absurd ⟨rfl, rfl⟩ hne
    · exact keeps_ignores hk
    · exact keeps_ignores hkeep
  obtain ⟨es, ps, hes, hlen, hperm⟩ := C67_mirrors hpl hmir hgs hk hfront rfl hign hres hw
  refine ⟨a, res, es, ps, ha, hres, hes, hlen, hperm.trans ?_⟩
  have hc : ∀ i : {r // r ∈ b}, ∃ P q τ, Course Surf.single (Surf.alone w) (plainPolicy a.scene) (sites a.scene) minE ⟨i.1, none⟩ P ∧
      P.length ≤ reps ∧ toFront P = [(q, τ)] ∧ q.energy = en i.1 ∧ q.at τ = pt i.1 := by
    intro i
    rw [hscene]
    exact hcourse _ _ _ _ (htube i.1) i.1 i.2
  choose P q τ h1 h2 h3 h4 h5 using hc
  have hb : b.map (fun r => (⟨r, none⟩ : Going ℝ E)) = b.attach.map fun i => (⟨i.1, none⟩ : Going ℝ E) :=
    (map_attach b fun r => (⟨r, none⟩ : Going ℝ E)).symm
  have := (traceHits_course hb (fun i _ => h1 i) (fun i _ => h2 i) hfront).map fun y : Ray ℝ E × ℝ => (y.1.energy * 1, y.1.at y.2)
  refine this.trans (List.Perm.of_eq ?_)
  rw [List.map_flatMap, ← map_attach b (fun r => (en r, pt r)), ← List.flatMap_pure_eq_map]
  refine List.flatMap_congr fun i _ => ?_
  have e := h3 i
  unfold toFront at e
  rw [e]
  simp [h4, h5]

/-- C86: a homogenizer in front of any of the package's mirrors.  Rays that enter it, and do not meet the mirror, are reported by the receiver
at the points, and with the energies, that the tiling of mirror images gives. -/
theorem C86_homogenized {reflector : SceneSurf σ ℝ E} {pos x y depth eff minE : ℝ} {get : σ → Account ℝ} {set : Account ℝ → σ → σ}
    {b : Bundle ℝ E} {reps : Nat} {w : σ} (hx : 0 < x) (hy : 0 < y) (hd : 0 < depth) (h0 : 0 ≤ eff) (h1 : eff ≤ 1) (hm : 0 ≤ minE)
    (hrig : reflector.own.Rigid) (hgeo : PlainGeometry reflector.data.1) (hopt : MirrorOptics reflector.data.2)
    (hkeep : KeepsMemory get reflector.data.2) (hgs : ∀ acc w, get (set acc w) = acc) (hw : get w = Account.reset) (junk : M3 ℝ)
    (hunit : ∀ r ∈ b, r.dir.IsUnit) (hin : ∀ r ∈ b, GoesIn x y (pos - depth) pos r.vertex r.dir)
    (hen : ∀ r ∈ b, 0 ≤ r.energy ∧ minE < r.energy * eff ^ reflections x y (crossing pos r.vertex r.dir) ∧
      reflections x y (crossing pos r.vertex r.dir) + 1 ≤ reps)
    (hmiss : ∀ r ∈ b, (mkSurf reflector.data.1 reflector.data.2 reflector.own).MissedBy r ∧
      ∀ q : Ray ℝ E, pos - depth ≤ q.vertex.z → |q.dir.x| = |r.dir.x| → |q.dir.y| = |r.dir.y| → q.dir.z = r.dir.z →
        (mkSurf reflector.data.1 reflector.data.2 reflector.own).MissedBy q) :
    ∃ a res es ps, homogenizedLocalReceiver reflector pos (x, y) depth eff get set junk = .ok a ∧
      rayTracer a.scene w b reps minE true = .ok res ∧ (get res.world).getAllHits = .ok (es, ps) ∧ es.length = ps.length ∧
      (es.zip ps).Perm (b.map fun r =>
        (r.energy * eff ^ reflections x y (crossing pos r.vertex r.dir), foldPoint x y (crossing pos r.vertex r.dir))) := by
  refine collector_report hx hy hd hrig hgeo hopt hkeep hgs hw hunit junk ?_
  intro objs ws front back ht r hr
  obtain ⟨s, T, hs0, hs1, hent⟩ := hin r hr
  obtain ⟨he0, he1, hreps⟩ := hen r hr
  have hup : 0 < r.dir.z := lt_trans (by norm_num) hent.up
  have hcr := crossing_eq (v := r.vertex) (d := r.dir) (s := s) (T := T) hup hent.reach
  have hmet : ∀ q : Ray ℝ E, (mkSurf reflector.data.1 reflector.data.2 reflector.own).MissedBy q →
      ∀ t : ℝ, (mkSurf reflector.data.1 reflector.data.2 reflector.own).single q = (t : WithTop ℝ) → t ≤ selfTol := by
    intro q hq t hs
    refine hq t ?_
    obtain ⟨f, hf⟩ := hgeo.perRay
    have := (mkSurf_perRay hf reflector.data.2 reflector.own).single [q]
    rw [this, List.map_singleton, hs]
  have hb : bounces x y (r.at s) r.dir T = reflections x y (crossing pos r.vertex r.dir) := by
    unfold bounces reflections
    rw [hcr]
    rfl
  obtain ⟨P, q, τ, c1, c2, c3, c4, c5⟩ := ht.course h0 h1 hm (cx := |r.dir.x|) (cy := |r.dir.y|) (cz := r.dir.z)
    (fun q h1 h2 h3 h4 => hmet q ((hmiss r hr).2 q h1 h2 h3 h4)) _ r none s T
    ⟨hs0, by
      rcases hs1 with hs1 | hs1
      · exact Or.inl hs1
      · exact Or.inr ⟨hs1.le, hent.insideX, hent.insideY⟩⟩ hent.inTube rfl rfl rfl (Or.inl rfl) (hmet r (hmiss r hr).1) hb he0 he1
  refine ⟨P, q, τ, c1, by rw [c2]; exact hreps, c3, c4, ?_⟩
  rw [c5]
  unfold arrival foldPoint
  rw [hcr]
  rfl

section
variable {get : σ → Account ℝ} {set : Account ℝ → σ → σ} {b : Bundle ℝ E} {reps : Nat} {w : σ}
  {diameter focal dishEff receiverPos side depth homogEff aspect minE : ℝ}

theorem dish_report {g : Geometry ℝ E} {S : V3 ℝ → Prop} {rim : ℝ} (hgeo : PlainGeometry g)
    (hD : IsDish (mkSurf g (reflective (1 - dishEff)) 1 : Surf σ ℝ E) w focal rim dishEff S) (hf : 0 < focal) (hs : 0 < side) (hd : 0 < depth)
    (ha : 0 < aspect) (hrim : rim < focal) (hlo : rim ≤ receiverPos - depth) (hde : 0 ≤ dishEff) (h0 : 0 ≤ homogEff) (h1 : homogEff ≤ 1) (hm : 0 ≤ minE)
    (hgs : ∀ acc w, get (set acc w) = acc) (hw : get w = Account.reset) (junk : M3 ℝ)
    (hin : ∀ r ∈ b, ComesDown side (side * aspect) (receiverPos - depth) receiverPos focal S r.vertex r.dir)
    (hen : ∀ r ∈ b, 0 ≤ r.energy ∧ minE < r.energy * dishEff *
        homogEff ^ reflections side (side * aspect) (crossing receiverPos (dishPoint focal r.vertex) (dishDir focal r.vertex)) ∧
      reflections side (side * aspect) (crossing receiverPos (dishPoint focal r.vertex) (dishDir focal r.vertex)) + 2 ≤ reps) :
    ∃ a res es ps, homogenizedLocalReceiver (Surface.new g (reflective (1 - dishEff)) 1) receiverPos (side, side * aspect) depth homogEff get set junk = .ok a ∧
      rayTracer a.scene w b reps minE true = .ok res ∧ (get res.world).getAllHits = .ok (es, ps) ∧ es.length = ps.length ∧
      (es.zip ps).Perm (b.map fun r =>
        (r.energy * dishEff * homogEff ^ reflections side (side * aspect) (crossing receiverPos (dishPoint focal r.vertex) (dishDir focal r.vertex)),
          foldPoint side (side * aspect) (crossing receiverPos (dishPoint focal r.vertex) (dishDir focal r.vertex)))) := by
  refine collector_report hs (mul_pos hs ha) hd Tf.Rigid.one hgeo (.mirror _) (C51_reflective _ get).1 hgs hw ?_ junk ?_
  · intro r hr
    rw [(hin r hr).down]
    unfold V3.IsUnit V3.dot
    norm_num
  · intro objs ws front back ht r hr
    obtain ⟨he0, he1, hreps⟩ := hen r hr
    obtain ⟨P, q, τ, c1, c2, c3, c4, c5⟩ := ht.dish_course h0 h1 hm hD hde hf hrim hlo (hin r hr) he0 he1
    exact ⟨P, q, τ, c1, by rw [c2]; exact hreps, c3, c4, c5⟩

theorem rim_below {diameter focal : ℝ} (hD : 0 < diameter) (h4 : diameter < 4 * focal) : diameter ^ 2 / (16 * focal) < focal := by
  have hf : 0 < focal := by linarith
  rw [div_lt_iff₀ (by positivity)]
  nlinarith

/-- C86: a `MiniDish` brings the rays that come down along its axis to its receiver. -/
theorem C86_minidish (hD : 0 < diameter) (hs : 0 < side) (hd : 0 < depth) (ha : 0 < aspect) (h4 : diameter < 4 * focal)
    (hlo : diameter ^ 2 / (16 * focal) ≤ receiverPos - depth) (hde : 0 ≤ dishEff) (h0 : 0 ≤ homogEff) (h1 : homogEff ≤ 1) (hm : 0 ≤ minE)
    (hgs : ∀ acc w, get (set acc w) = acc) (hw : get w = Account.reset) (junk : M3 ℝ)
    (hin : ∀ r ∈ b, ComesDown side (side * aspect) (receiverPos - depth) receiverPos focal
      (fun q => q.x ^ 2 + q.y ^ 2 ≤ (diameter / 2) ^ 2) r.vertex r.dir)
    (hen : ∀ r ∈ b, 0 ≤ r.energy ∧ minE < r.energy * dishEff *
        homogEff ^ reflections side (side * aspect) (crossing receiverPos (dishPoint focal r.vertex) (dishDir focal r.vertex)) ∧
      reflections side (side * aspect) (crossing receiverPos (dishPoint focal r.vertex) (dishDir focal r.vertex)) + 2 ≤ reps) :
    ∃ a res es ps, miniDish diameter focal dishEff receiverPos side depth homogEff aspect get set junk = .ok a ∧
      rayTracer a.scene w b reps minE true = .ok res ∧ (get res.world).getAllHits = .ok (es, ps) ∧ es.length = ps.length ∧
      (es.zip ps).Perm (b.map fun r =>
        (r.energy * dishEff * homogEff ^ reflections side (side * aspect) (crossing receiverPos (dishPoint focal r.vertex) (dishDir focal r.vertex)),
          foldPoint side (side * aspect) (crossing receiverPos (dishPoint focal r.vertex) (dishDir focal r.vertex)))) := by
  have hf : 0 < focal := by linarith
  exact dish_report (.dish _ _ hD hf) (dish_isDish hf dishEff w) hf hs hd ha (rim_below hD h4) hlo hde h0 h1 hm hgs hw junk hin hen

/-- C86: so does a `PETAL`, with its hexagonal dish. -/
theorem C86_petal (hD : 0 < diameter) (hs : 0 < side) (hd : 0 < depth) (ha : 0 < aspect) (h4 : diameter < 4 * focal)
    (hlo : diameter ^ 2 / (16 * focal) ≤ receiverPos - depth) (hde : 0 ≤ dishEff) (h0 : 0 ≤ homogEff) (h1 : homogEff ≤ 1) (hm : 0 ≤ minE)
    (hgs : ∀ acc w, get (set acc w) = acc) (hw : get w = Account.reset) (junk : M3 ℝ)
    (hin : ∀ r ∈ b, ComesDown side (side * aspect) (receiverPos - depth) receiverPos focal (hexagon (diameter / 2)) r.vertex r.dir)
    (hen : ∀ r ∈ b, 0 ≤ r.energy ∧ minE < r.energy * dishEff *
        homogEff ^ reflections side (side * aspect) (crossing receiverPos (dishPoint focal r.vertex) (dishDir focal r.vertex)) ∧
      reflections side (side * aspect) (crossing receiverPos (dishPoint focal r.vertex) (dishDir focal r.vertex)) + 2 ≤ reps) :
    ∃ a res es ps, petal diameter focal dishEff receiverPos side depth homogEff aspect get set junk = .ok a ∧
      rayTracer a.scene w b reps minE true = .ok res ∧ (get res.world).getAllHits = .ok (es, ps) ∧ es.length = ps.length ∧
      (es.zip ps).Perm (b.map fun r =>
        (r.energy * dishEff * homogEff ^ reflections side (side * aspect) (crossing receiverPos (dishPoint focal r.vertex) (dishDir focal r.vertex)),
          foldPoint side (side * aspect) (crossing receiverPos (dishPoint focal r.vertex) (dishDir focal r.vertex)))) := by
  have hf : 0 < focal := by linarith
  exact dish_report (.hexagonal _ _ hD hf) (hexagonalDish_isDish hf dishEff w) hf hs hd ha (rim_below hD h4) hlo hde h0 h1 hm hgs hw junk hin hen

/-- C86: and so does the standard minidish, whose homogenizer begins at the focus. -/
theorem C86_standard_minidish {concentration virtSources : ℝ} (hD : 0 < diameter) (hc : 0 < concentration)
    (hv : 0 ≤ virtSources) (hn : (virtSources + 1) * (diameter / 2 * √(π / concentration)) < diameter)
    (hde : 0 ≤ dishEff) (h0 : 0 ≤ homogEff) (h1 : homogEff ≤ 1) (hm : 0 ≤ minE)
    (hgs : ∀ acc w, get (set acc w) = acc) (hw : get w = Account.reset) (junk : M3 ℝ) {f W H : ℝ}
    (hme : standardMinidishMeasures diameter concentration virtSources = .ok (f, W, H))
    (hin : ∀ r ∈ b, ComesDown W W f (f + H) f (fun q => q.x ^ 2 + q.y ^ 2 ≤ (diameter / 2) ^ 2) r.vertex r.dir)
    (hen : ∀ r ∈ b, 0 ≤ r.energy ∧
      minE < r.energy * dishEff * homogEff ^ reflections W W (crossing (f + H) (dishPoint f r.vertex) (dishDir f r.vertex)) ∧
      reflections W W (crossing (f + H) (dishPoint f r.vertex) (dishDir f r.vertex)) + 2 ≤ reps) :
    ∃ a res es ps, standardMinidish diameter concentration virtSources dishEff homogEff get set junk = .ok (a, f, W, H) ∧
      rayTracer a.scene w b reps minE true = .ok res ∧ (get res.world).getAllHits = .ok (es, ps) ∧ es.length = ps.length ∧
      (es.zip ps).Perm (b.map fun r =>
        (r.energy * dishEff * homogEff ^ reflections W W (crossing (f + H) (dishPoint f r.vertex) (dishDir f r.vertex)),
          foldPoint W W (crossing (f + H) (dishPoint f r.vertex) (dishDir f r.vertex)))) := by
  obtain ⟨f', W', H', hme', hf, hW, hH, hrim, _⟩ := C63_measures hD hc hv hn
  rw [hme] at hme'
  cases hme'
  have hr := (hrim ⟨diameter / 2, 0, (diameter / 2) ^ 2 / (4 * f)⟩ (by unfold dishSet; simp) (by simp)).1
  have hlt : diameter ^ 2 / (16 * f) < f := by
    have e : diameter ^ 2 / (16 * f) = (diameter / 2) ^ 2 / (4 * f) := by field_simp; ring
    rw [e]
    exact hr
  obtain ⟨a, res, es, ps, h2, h3⟩ := dish_report (aspect := 1) (receiverPos := f + H) (depth := H) (.dish _ _ hD hf)
    (dish_isDish hf dishEff w) hf hW hH one_pos hlt (by rw [add_sub_cancel_right]; exact hlt.le) hde h0 h1 hm hgs hw junk
    (by simpa only [mul_one, add_sub_cancel_right] using hin) (by simpa only [mul_one] using hen)
  rw [mul_one] at h3
  refine ⟨a, res, es, ps, ?_, h3⟩
  unfold standardMinidish
  rw [hme]
  unfold miniDish
  simp only
  rw [h2]

end

/-! ### Concrete cases -/

namespace Examples

/-- A ray that enters a tube of side 1/5 at the middle of its lower end, and crosses one mirror before the plane of the receiver. -/
theorem enters_example {H : ℝ} (h1 : 3 / 25 < H) (h2 : H < 3 / 10) :
    Enters (1 / 5) (1 / 5) 1 (1 + H) ⟨0, 0, 1⟩ ⟨-20 / 29, 0, 21 / 29⟩ (29 / 21 * H) := by
  have hy : ∀ t : ℝ, ¬ OnEdge (1 / 5) ((0 : ℝ) + t * 0) := by
    rintro t ⟨k, hk⟩
    have h2 : (2 * k + 1 : ℝ) = 0 := by linarith
    have : (2 * k + 1 : ℤ) = 0 := by exact_mod_cast h2
    omega
  refine ⟨by norm_num, by norm_num, by norm_num, by norm_num, by simp only; ring, by norm_num; linarith, Or.inr ?_, Or.inl rfl, ?_, by norm_num, ?_,
    fun t _ _ h => absurd h (hy t), fun t t' _ _ _ _ _ h => absurd h (hy t')⟩
  · rw [abs_of_neg] <;> norm_num
  · rw [abs_of_neg] <;> norm_num
  · rintro t h0 h1 ⟨k, hk⟩
    simp only [zero_add] at hk
    have hlt : ((k : ℝ) < 0) := by linarith
    have hgt : (-2 : ℝ) < k := by linarith
    have h3 : k < 0 := by exact_mod_cast hlt
    have h4 : (-2 : ℤ) < k := by exact_mod_cast hgt
    obtain rfl : k = -1 := by omega
    push_cast at hk
    constructor <;> linarith

theorem fold_example : foldPoint (1 / 5) (1 / 5) ⟨-1 / 5, 0, 121 / 100⟩ = ⟨0, 0, 121 / 100⟩ ∧
    reflections (1 / 5) (1 / 5) ⟨-1 / 5, 0, 121 / 100⟩ = 1 := by
  have h1 : cellOf (1 / 5) (-1 / 5) = -1 := by
    unfold cellOf
    rw [Int.floor_eq_iff]
    constructor <;> norm_num
  have h2 : cellOf (1 / 5) 0 = 0 := by
    unfold cellOf
    rw [Int.floor_eq_iff]
    constructor <;> norm_num
  unfold foldPoint foldInto reflections
  simp only [h1, h2]
  rw [if_neg (by decide), if_pos (by decide)]
  norm_num

/-- A ray that comes down on a dish of focal length 1 and diameter 2, beside a receiver of side 1/5 at the height 121/100. -/
theorem dishPoint_example : dishPoint 1 ⟨4 / 5, 0, 2⟩ = ⟨4 / 5, 0, 4 / 25⟩ := by
  unfold dishPoint
  norm_num

theorem dishDir_example : dishDir 1 ⟨4 / 5, 0, 2⟩ = ⟨-20 / 29, 0, 21 / 29⟩ := by
  unfold dishDir
  rw [dishPoint_example]
  apply V3.ext <;> simp <;> norm_num

theorem crossing_example : crossing (121 / 100) (⟨4 / 5, 0, 4 / 25⟩ : V3 ℝ) ⟨-20 / 29, 0, 21 / 29⟩ = ⟨-1 / 5, 0, 121 / 100⟩ := by
  unfold crossing
  apply V3.ext <;> simp <;> norm_num

theorem comesDown_example {S : V3 ℝ → Prop} (hS : S ⟨4 / 5, 0, 4 / 25⟩) {H : ℝ} (h1 : 3 / 25 < H) (h2 : H < 3 / 10) :
    ComesDown (1 / 5) (1 / 5) 1 (1 + H) 1 S ⟨4 / 5, 0, 2⟩ ⟨0, 0, -1⟩ := by
  refine ⟨rfl, by rw [dishPoint_example]; exact hS, by rw [dishPoint_example]; norm_num, Or.inl ?_, by rw [dishDir_example]; norm_num,
    29 / 25, 29 / 21 * H, by norm_num, Or.inr ?_, ?_⟩
  · rw [abs_of_pos] <;> norm_num
  · rw [dishPoint_example, dishDir_example]; norm_num
  · rw [dishPoint_example, dishDir_example]
    have : (⟨4 / 5, 0, 4 / 25⟩ : V3 ℝ) + (29 / 25 : ℝ) • (⟨-20 / 29, 0, 21 / 29⟩ : V3 ℝ) = ⟨0, 0, 1⟩ := by
      apply V3.ext <;> simp <;> norm_num
    rw [this]
    exact enters_example h1 h2

/-- The hypotheses of `C86_minidish` are met: the receiver reports the ray at its centre, after the dish and one wall. -/
example : ∃ a res es ps, miniDish 2 1 (9 / 10) (121 / 100) (1 / 5) (21 / 100) (1 / 2) 1 id (fun acc _ => acc) (1 : M3 ℝ) = .ok a ∧
    rayTracer a.scene (Account.reset : Account ℝ) [(⟨⟨4 / 5, 0, 2⟩, ⟨0, 0, -1⟩, 10, 0, none, ()⟩ : Ray ℝ Unit)] 3 1 true = .ok res ∧
    res.world.getAllHits = .ok (es, ps) ∧ es = [9 / 2] ∧ ps = [⟨0, 0, 121 / 100⟩] := by
  have hcr : crossing (121 / 100) (dishPoint 1 ⟨4 / 5, 0, 2⟩) (dishDir 1 ⟨4 / 5, 0, 2⟩) = ⟨-1 / 5, 0, 121 / 100⟩ := by
    rw [dishPoint_example, dishDir_example, crossing_example]
  obtain ⟨a, res, es, ps, h1, h2, h3, h4, h5⟩ := C86_minidish (get := id) (set := fun acc (_ : Account ℝ) => acc) (diameter := 2) (focal := 1)
    (dishEff := 9 / 10) (receiverPos := 121 / 100) (side := 1 / 5) (depth := 21 / 100) (homogEff := 1 / 2) (aspect := 1) (minE := 1)
    (reps := 3) (w := Account.reset) (b := [(⟨⟨4 / 5, 0, 2⟩, ⟨0, 0, -1⟩, 10, 0, none, ()⟩ : Ray ℝ Unit)])
    (by norm_num) (by norm_num) (by norm_num) (by norm_num) (by norm_num) (by norm_num) (by norm_num) (by norm_num) (by norm_num) (by norm_num)
    (fun _ _ => rfl) rfl 1
    (by
      intro r hr
      rw [List.mem_singleton] at hr
      subst hr
      have := comesDown_example (S := fun q => q.x ^ 2 + q.y ^ 2 ≤ ((2 : ℝ) / 2) ^ 2) (by norm_num) (H := 21 / 100) (by norm_num) (by norm_num)
      norm_num at this ⊢
      exact this)
    (by
      intro r hr
      rw [List.mem_singleton] at hr
      subst hr
      simp only [hcr, mul_one, fold_example.2]
      norm_num)
  refine ⟨a, res, es, ps, h1, h2, h3, ?_⟩
  simp only [List.map_cons, List.map_nil, hcr, mul_one, fold_example.1, fold_example.2] at h5
  have h6 := List.perm_singleton.1 h5
  have e1 := congrArg (List.map Prod.fst) h6
  have e2 := congrArg (List.map Prod.snd) h6
  rw [List.map_fst_zip h4.le] at e1
  rw [List.map_snd_zip h4.ge] at e2
  refine ⟨?_, ?_⟩
  · rw [e1]; norm_num
  · rw [e2]; rfl

/-- The hypotheses of `C86_homogenized` are met: a homogenizer above a plate, and a ray that starts between them. -/
example : ∃ a res es ps, homogenizedLocalReceiver (Surface.new (finiteFlatGM (rectOutside 1 1)) (reflective (1 / 10)) 1) (121 / 100)
      ((1 / 5 : ℝ), (1 / 5 : ℝ)) (21 / 100) (1 / 2) id (fun acc _ => acc) (1 : M3 ℝ) = .ok a ∧
    rayTracer a.scene (Account.reset : Account ℝ) [(⟨⟨4 / 5, 0, 4 / 25⟩, ⟨-20 / 29, 0, 21 / 29⟩, 10, 0, none, ()⟩ : Ray ℝ Unit)] 2 1 true = .ok res ∧
    res.world.getAllHits = .ok (es, ps) ∧ (es.zip ps).Perm [(5, ⟨0, 0, 121 / 100⟩)] := by
  have hg : rectPlateGM (1 : ℝ) 1 = .ok (finiteFlatGM (rectOutside 1 1) : Geometry ℝ Unit) := by
    unfold rectPlateGM
    norm_num
  have hmiss : ∀ q : Ray ℝ Unit, 0 < q.vertex.z → 0 < q.dir.z →
      (mkSurf (finiteFlatGM (rectOutside 1 1)) (reflective (1 / 10)) 1 : Surf (Account ℝ) ℝ Unit).MissedBy q := by
    intro q h1 h2 t ht
    exfalso
    have hs : (mkSurf (finiteFlatGM (rectOutside 1 1)) (reflective (1 / 10)) 1 : Surf (Account ℝ) ℝ Unit).single q = (t : WithTop ℝ) := by
      unfold Surf.single
      rw [ht]
      rfl
    obtain ⟨h3, p, ⟨h4, _⟩, h5⟩ := plate_on hg Tf.Rigid.one hs
    rw [Tf.one_point] at h5
    rw [← h5] at h4
    simp only [V3.add_z, V3.smul_z] at h4
    nlinarith
  obtain ⟨a, res, es, ps, h1, h2, h3, h4, h5⟩ := C86_homogenized (get := id) (set := fun acc (_ : Account ℝ) => acc)
    (reflector := Surface.new (finiteFlatGM (rectOutside 1 1)) (reflective (1 / 10)) 1) (pos := 121 / 100) (x := 1 / 5) (y := 1 / 5)
    (depth := 21 / 100) (eff := 1 / 2) (minE := 1) (reps := 2) (w := Account.reset)
    (b := [(⟨⟨4 / 5, 0, 4 / 25⟩, ⟨-20 / 29, 0, 21 / 29⟩, 10, 0, none, ()⟩ : Ray ℝ Unit)])
    (by norm_num) (by norm_num) (by norm_num) (by norm_num) (by norm_num) (by norm_num) Tf.Rigid.one (.rect 1 1 _ hg) (.mirror _)
    (C51_reflective _ _).1 (fun _ _ => rfl) rfl 1
    (by
      intro r hr
      rw [List.mem_singleton] at hr
      subst hr
      unfold V3.IsUnit V3.dot
      norm_num)
    (by
      intro r hr
      rw [List.mem_singleton] at hr
      subst hr
      have := (comesDown_example (S := fun _ => True) trivial (H := 21 / 100) (by norm_num) (by norm_num)).goesIn
      rw [dishPoint_example, dishDir_example] at this
      norm_num at this ⊢
      exact this)
    (by
      intro r hr
      rw [List.mem_singleton] at hr
      subst hr
      simp only [crossing_example, fold_example.2]
      norm_num)
    (by
      intro r hr
      rw [List.mem_singleton] at hr
      subst hr
      exact ⟨hmiss _ (by norm_num) (by norm_num), fun q h1 _ _ h4 => hmiss q (by norm_num at h1 ⊢; linarith) (by rw [h4]; norm_num)⟩)
  refine ⟨a, res, es, ps, h1, h2, h3, ?_⟩
  simp only [List.map_cons, List.map_nil, crossing_example, fold_example.1, fold_example.2] at h5
  norm_num at h5 ⊢
  exact h5

/-- The point at which the ray of the examples meets the dish is within the hexagon of a `PETAL` too. -/
example : ComesDown (1 / 5) (1 / 5) 1 (1 + 21 / 100) 1 (hexagon ((2 : ℝ) / 2)) ⟨4 / 5, 0, 2⟩ ⟨0, 0, -1⟩ := by
  refine comesDown_example ?_ (by norm_num) (by norm_num)
  have hi : (1 : Tf ℝ).inv.point ⟨4 / 5, 0, 4 / 25⟩ = ⟨4 / 5, 0, 4 / 25⟩ := by
    have := Tf.point_inv_point (t := (1 : Tf ℝ)) (M3.IsRotation.det_ne Tf.Rigid.one) ⟨4 / 5, 0, 4 / 25⟩
    rwa [Tf.one_point] at this
  rw [← hi, ← hexagon_iff]
  unfold hexagonTest
  simp only [hi, tan_pi_div_six, Bool.not_eq_true', Bool.or_eq_false_iff, decide_eq_false_iff_not, not_lt]
  have hs : (17 / 10 : ℝ) < √3 := by rw [Real.lt_sqrt (by norm_num)]; norm_num
  have : 1 / √3 ≤ (10 / 17 : ℝ) := by rw [div_le_iff₀ (by linarith)]; linarith
  rw [abs_of_pos (by norm_num), abs_zero]
  constructor
  · linarith
  · linarith

/-- The hypotheses of `C86_standard_minidish` are met: a standard minidish of focal length 1 whose receiver has the side 1/5. -/
theorem standard_example : ∃ H : ℝ, (0 : ℝ) < 4 * (√2 - 1) ∧ 0 < π * (2 * (√2 - 1)) ^ 2 * 25 ∧
    (0 + 1) * (4 * (√2 - 1) / 2 * √(π / (π * (2 * (√2 - 1)) ^ 2 * 25))) < 4 * (√2 - 1) ∧
    standardMinidishMeasures (4 * (√2 - 1)) (π * (2 * (√2 - 1)) ^ 2 * 25) 0 = .ok (1, 1 / 5, H) ∧
    ComesDown (1 / 5) (1 / 5) 1 (1 + H) 1 (fun q => q.x ^ 2 + q.y ^ 2 ≤ (4 * (√2 - 1) / 2) ^ 2) ⟨4 / 5, 0, 2⟩ ⟨0, 0, -1⟩ := by
  have h1 : (14 / 10 : ℝ) < √2 := by rw [Real.lt_sqrt (by norm_num)]; norm_num
  have h2 : √2 < (145 / 100 : ℝ) := by rw [Real.sqrt_lt' (by norm_num)]; norm_num
  have h3 : (4 / 10 : ℝ) < √2 - 1 := by linarith
  have h4 : √2 - 1 < (45 / 100 : ℝ) := by linarith
  unfold standardMinidishMeasures
  simp only
  generalize √2 - 1 = k at *
  have hk : 0 < k := by linarith
  have hc : 0 < π * (2 * k) ^ 2 * 25 := by have := pi_pos; positivity
  have hq : π / (π * (2 * k) ^ 2 * 25) = (1 / (10 * k)) ^ 2 := by
    have := pi_pos.ne'
    field_simp
    norm_num
  have hW : 4 * k / 2 * √(π / (π * (2 * k) ^ 2 * 25)) = 1 / 5 := by
    rw [hq, Real.sqrt_sq (by positivity)]
    field_simp
    norm_num
  have hden : (0 : ℝ) < 4 * k - 1 / 5 := by linarith
  refine ⟨1 / 5 / (4 * k - 1 / 5), by linarith, hc, ?_, ?_, ?_⟩
  · rw [hW]; linarith
  · rw [if_neg hc.ne', if_neg (not_lt.2 (div_pos pi_pos hc).le), hW, if_neg (by norm_num; linarith)]
    have : 4 * k / 4 / k = 1 := by field_simp
    rw [this]
    simp
  · refine comesDown_example (by norm_num; nlinarith) ?_ ?_
    · rw [lt_div_iff₀ hden]; linarith
    · rw [div_lt_iff₀ hden]; linarith

end Examples
end Tracer
