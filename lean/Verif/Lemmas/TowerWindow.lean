import Verif.Spec.TowerWindow
import Verif.Props.Tower
import Verif.Props.Windows
import Verif.Props.TwoMirrors

/-! For `Props/TowerWindow.lean`: heliostats and a receiver, wherever they are. -/

namespace Tracer

open Real

variable {E σ : Type _}

/-- Heliostats in some frames, and a receiver. -/
noncomputable def plantNodes (frames : List (Tf ℝ)) (g g' : Geometry ℝ E) (F : Tf ℝ) (get : σ → Account ℝ) (set : Account ℝ → σ → σ) :
    List (SceneObj σ ℝ E) :=
  frames.map (fun T => (⟨T, [⟨1, T, (g, absorberReflector 0)⟩], (Obj.defaultOwn, Obj.skipNext 1)⟩ : SceneObj σ ℝ E)) ++
    [⟨F, [⟨1, F, (g', reflectiveReceiver 1 get set)⟩,
      ⟨⟨1, ⟨0, 0, -(1 / 10 ^ 10)⟩⟩, F * ⟨1, ⟨0, 0, -(1 / 10 ^ 10)⟩⟩, (g', reflective 1)⟩], (Obj.defaultOwn, Obj.skipNext 2)⟩]

section
variable {frames : List (Tf ℝ)} {W L x y : ℝ} {g g' : Geometry ℝ E} {F : Tf ℝ} {get : σ → Account ℝ} {set : Account ℝ → σ → σ}
  {a : SceneAsm σ ℝ E}

theorem plantNodes_all (ha : a.getObjects = plantNodes frames g g' F get set) {P : SceneSurf σ ℝ E → Prop}
    (h1 : ∀ T ∈ frames, P ⟨1, T, (g, absorberReflector 0)⟩) (h2 : P ⟨1, F, (g', reflectiveReceiver 1 get set)⟩)
    (h3 : P ⟨⟨1, ⟨0, 0, -(1 / 10 ^ 10)⟩⟩, F * ⟨1, ⟨0, 0, -(1 / 10 ^ 10)⟩⟩, (g', reflective 1)⟩) :
    ∀ o ∈ a.getObjects, ∀ s ∈ o.surfs, P s := by
  intro o ho s hs
  rw [ha] at ho
  rcases List.mem_append.1 ho with ho | ho
  · obtain ⟨T, hT, rfl⟩ := List.mem_map.1 ho
    rw [List.mem_singleton] at hs
    subst hs
    exact h1 T hT
  · rw [List.mem_singleton] at ho
    subst ho
    simp only [List.mem_cons, List.not_mem_nil, or_false] at hs
    rcases hs with rfl | rfl
    · exact h2
    · exact h3

variable (hg : rectPlateGM W L = .ok g) (hg' : rectPlateGM x y = .ok g') (hF : F.Rigid) (hfr : ∀ T ∈ frames, T.Rigid)
  (ha : a.getObjects = plantNodes frames g g' F get set)

include hg hg' ha in
theorem plant_plain : ∀ o ∈ a.getObjects, ∀ s ∈ o.surfs, PlainGeometry s.data.1 :=
  plantNodes_all ha (fun _ _ => .rect _ _ _ hg) (.rect _ _ _ hg') (.rect _ _ _ hg')

include ha in
theorem plant_opaque : ∀ o ∈ a.getObjects, ∀ s ∈ o.surfs, OpaqueOptics s.data.2 :=
  plantNodes_all ha (fun _ _ => .oneSided _) (.receiver _ _ _ _ (.mirror _)) (.mirror _)

include hg hg' hF hfr ha in
theorem plant_library : LibraryScene 1 1 a := by
  refine ⟨?_, plantNodes_all ha hfr hF (back_rigid hF).1, fun o ho s hs => .plain _ (plant_plain hg hg' ha o ho s hs),
    fun o ho s hs => (plant_opaque ha o ho s hs).library 1 1, ?_⟩
  · rw [ha]
    exact ⟨_, List.mem_append_right _ (List.mem_singleton.2 rfl), by simp⟩
  · intro o ho
    right
    rw [ha] at ho
    rcases List.mem_append.1 ho with ho | ho
    · obtain ⟨p, _, rfl⟩ := List.mem_map.1 ho
      rfl
    · rw [List.mem_singleton] at ho
      subst ho
      rfl

theorem mirror_allOrNothing : AllOrNothing (absorberReflector 0 : Optics σ ℝ E) := by
  refine allOrNothing_mono (C74_one_sided 0) fun up q r hl => ?_
  rcases le_or_gt (V3.dot q.ray.dir up) 0 with h0 | h0
  · rw [hl.front h0]
    right; ring
  · exact .inl (hl.back h0)

theorem black_allOrNothing : AllOrNothing (reflective 1 : Optics σ ℝ E) := by
  refine allOrNothing_mono (C74_reflective 1) fun up q r hl => ?_
  rw [hl.energy]
  left; ring

include hg hg' hF hfr ha in
theorem plant_energies {w : σ} {b : Bundle ℝ E} {reps : Nat} {minE : ℝ} {res : TraceResult σ ℝ E} (hb : ∀ r ∈ b, r.energy = 1)
    (hres : rayTracer a.scene w b reps minE true = .ok res) : ∀ lvl ∈ res.tree, ∀ r ∈ lvl, r.energy = 0 ∨ r.energy = 1 := by
  have hlib := plant_library hg hg' hF hfr ha
  intro lvl hl
  obtain ⟨k, hk⟩ := List.getElem?_of_mem hl
  clear hl
  induction k generalizing lvl with
  | zero =>
    intro r hr
    have h0 := (C11_iteration_limit hlib.shapeOk hres).1
    rw [List.head?_eq_getElem?, hk] at h0
    cases h0
    exact .inr (hb r hr)
  | succ k ih =>
    intro r hr
    obtain ⟨prev, p, hp, hp', o, ho, s, hs, t, _, _, _, hl⟩ := C74_law (fun _ _ h r => r.energy = 0 ∨ r.energy = h.ray.energy)
      hlib.shapeOk (fun o ho s hs => (hlib.geometry o ho s hs).lengthOk)
      (plantNodes_all (P := fun s => AllOrNothing s.data.2) ha (fun _ _ => mirror_allOrNothing) (C74_receiver black_allOrNothing 1 get set)
        black_allOrNothing) (fun _ _ _ _ _ _ h => h) hres hk hr
    rcases hl with hl | hl
    · exact .inl hl
    · rw [hl]
      exact ih prev hp p (List.mem_of_getElem? hp')

include hg hg' hF hfr ha in
/-- What is plotted of the plant. -/
theorem plant_plot {w : σ} {b : Bundle ℝ E} (hb : ∀ r ∈ b, r.dir.IsUnit ∧ r.energy = 1) :
    ∃ (res : TraceResult σ ℝ E) (points : List (V3 ℝ)) (connections : List (Nat × Nat)),
      firstPlot a.scene w b = .ok (res, points, connections) ∧ res.tree.head? = some b ∧
      (∀ lvl ∈ res.tree, ∀ r ∈ lvl, r.energy = 0 ∨ r.energy = 1) ∧
      ∀ p q, Drawn points connections p q ↔ ToChild res.tree p q ∨
        ∃ k i r, InTree res.tree k i r ∧ r.energy ≠ 0 ∧ (∀ j c, InTree res.tree (k + 1) j c → c.parent ≠ i) ∧
          p = r.vertex ∧ q = r.vertex + (1 : ℝ) • r.dir := by
  have hlib := plant_library hg hg' hF hfr ha
  obtain ⟨res, hres⟩ := C75_opaque hlib (plant_plain hg hg' ha) (plant_opaque ha) w (fun r hr => (hb r hr).1)
    (reps := 200000000) (1 / 20) (keepTree := true) (.inl rfl)
  have hen := plant_energies hg hg' hF hfr ha (fun r hr => (hb r hr).2) hres
  obtain ⟨points, connections, hshow, _, hdrawn⟩ := C65_trace_partial hlib.shapeOk
    (scene_all fun o ho s hs => mkSurf_lengthOk (hlib.geometry o ho s hs).lengthOk _ _)
    (scene_all fun o ho s hs => mkSurf_parentsOk _ (plant_opaque ha o ho s hs).keeps_unit.atHit _) (by norm_num)
    (fun r hr => by rw [(hb r hr).2]; norm_num) hres (by
      intro k lvl hk r hr
      rcases hen lvl (List.mem_of_getElem? hk) r hr with he | he
      · exact .inl he
      · exact .inr (by rw [he]; norm_num)) (1 : ℝ)
  refine ⟨res, points, connections, ?_, (C11_iteration_limit hlib.shapeOk hres).1, hen, hdrawn⟩
  unfold firstPlot
  simp only [hres, hshow]

include hg hg' hF hfr ha in
/-- What a receiver with an empty memory reports. -/
theorem plant_map (hgs : ∀ acc w, get (set acc w) = acc) {w : σ} (h0 : get w = Account.reset) {b : Bundle ℝ E}
    (hb : ∀ r ∈ b, r.dir.IsUnit ∧ r.energy = 1) (reps : Nat) :
    ∃ (res : TraceResult σ ℝ E) (H : List (List ℝ)), rayTracer a.scene w b reps (1 / 20) true = .ok res ∧
      histogramHits F (x, y) 50 (get res.world) = .ok (H, binEdges 50 (x / 2), binEdges 50 (y / 2)) ∧ res.tree.head? = some b ∧
      (H.length = 50 ∧ ∀ row ∈ H, row.length = 50) ∧ cellTotal H = (get res.world).absorbed.flatten.sum ∧
      ((∀ lvl ∈ res.tree, ∀ p ∈ lvl, NoTie Surf.single (a.scene.flatMap Obj.surfs) p) → cellTotal H ≤ b.length) := by
  have hlib := plant_library hg hg' hF hfr ha
  have hplain := plant_plain hg hg' ha
  have hopq := plant_opaque ha
  obtain ⟨res, hres⟩ := C75_opaque hlib hplain hopq w (fun r hr => (hb r hr).1) (reps := reps) (1 / 20) (keepTree := true) (.inl rfl)
  obtain ⟨H, hH, hcell⟩ := C76_trace (objs := a.scene) hgs hF hg' (scene_all (P := fun s => s.Ignores get ∨ ∃ (c : ℝ) (opt : Optics σ ℝ E),
      KeepsMemory get opt ∧ s = mkSurf g' (accountant c get set opt) F) (plantNodes_all ha
    (fun _ _ => .inl (keeps_ignores (mirror_keeps _ _))) (.inr ⟨1, reflective 1, (C51_reflective _ _).1, rfl⟩)
    (.inl (keeps_ignores (C51_reflective _ _).1)))) hres h0 (bins := 50) (by norm_num)
  refine ⟨res, H, hres, hH, (C11_iteration_limit hlib.shapeOk hres).1, ?_, hcell, ?_⟩
  · unfold histogramHits at hH
    split at hH
    · cases hH
    · split at hH
      · cases hH
      · simp only [OfNat.ofNat_ne_zero, ↓reduceIte, Except.ok.injEq, Prod.mk.injEq] at hH
        rw [← hH.1]
        unfold histogram2d
        refine ⟨by simp, ?_⟩
        intro row hrow
        obtain ⟨i, _, rfl⟩ := List.mem_map.1 hrow
        simp
  · intro hnt
    have hfair : ∀ o ∈ a.getObjects, ∀ s ∈ o.surfs, Fair get s.data.2 := plantNodes_all (P := fun s => Fair get s.data.2) ha
      (fun _ _ => fair_absorberReflector le_rfl zero_le_one get) (fair_receiver zero_le_one le_rfl hgs) (fair_reflective zero_le_one le_rfl get)
    have hnn : ∀ lvl ∈ res.tree, ∀ p ∈ lvl, 0 ≤ p.energy := by
      intro lvl hl p hp
      rcases plant_energies hg hg' hF hfr ha (fun r hr => (hb r hr).2) hres lvl hl p hp with he | he <;> rw [he]
      norm_num
    have := C101_scene (absorbed := fun w => (get w).absorbed.flatten.sum) (Q := fun _ => True) hlib.shapeOk
      (scene_all fun o ho s hs => mkSurf_lengthOk (hlib.geometry o ho s hs).lengthOk _ _)
      (scene_all fun o ho s hs => mkSurf_parentsOk _ (hfair o ho s hs).atHit _)
      (scene_all fun o ho s hs => mkSurf_total _ (hfair o ho s hs).total _)
      (scene_all fun o ho s hs => mkSurf_creditable _ (hfair o ho s hs).credit _) hres
      fun lvl hl p hp => ⟨⟨hnn lvl hl p hp, trivial⟩, (hnt lvl hl p hp).never fun s hs => mem_allSurfs (plain_perRay hplain) hs⟩
    have hle : 0 ≤ totalEnergy (treeLeaves res.tree) := by
      refine List.sum_nonneg fun x hx => ?_
      obtain ⟨r, hr, rfl⟩ := List.mem_map.1 hx
      obtain ⟨lvl, hl, hr⟩ := mem_treeLeaves hr
      exact hnn lvl hl r hr
    have htot : totalEnergy b = b.length := by
      unfold totalEnergy
      rw [List.map_congr_left fun r hr => (hb r hr).2]
      simp
    rw [hcell]
    simp only [h0, Account.reset, List.flatten_nil, List.sum_nil, zero_add, htot] at this
    linarith

end

/-! ### The plant of the window -/

theorem onField_onField (f h : HelioField σ E → HelioField σ E) (t : Tower σ E) : (t.onField h).onField f = t.onField fun x => f (h x) := by
  obtain ⟨pos, aim, plant⟩ := t
  obtain ⟨own, subs, objs⟩ := plant
  cases subs <;> rfl

theorem runHelio_append (ops ops' : List HelioOp) (f : HelioField σ E) : runHelio (ops ++ ops') f = runHelio ops' (runHelio ops f) := by
  unfold runHelio
  rw [List.foldl_append]

theorem tower_new_scene {positions : List (V3 ℝ)} {W L th x y : ℝ} {g g' : Geometry ℝ E} (hg : rectPlateGM W L = .ok g)
    (hg' : rectPlateGM x y = .ok g') (F : Tf ℝ) (get : σ → Account ℝ) (set : Account ℝ → σ → σ) (junk junk' : M3 ℝ) :
    ∃ t : Tower σ E, Tower.new positions W L 0 th x y F get set junk junk' = .ok t ∧ t.pos = positions ∧
      t.plant.getObjects = plantNodes (positions.map fun p => ⟨(rotx π).rot, p⟩) g g' F get set := by
  obtain ⟨f, h1, h2, h3, h4⟩ := new_inv (σ := σ) (a := 0) (th := th) hg positions junk
  have hrec : (oneSidedReceiver (E := E) x y 1 get set) = .ok
      (Surface.new g' (reflectiveReceiver 1 get set) 1,
       ObjNode.new [Surface.new g' (reflectiveReceiver 1 get set) 1, Surface.new g' (reflective 1) ⟨1, ⟨0, 0, -(1 / 10 ^ 10)⟩⟩] 1
        (Obj.defaultOwn, Obj.skipNext 2)) := by
    unfold oneSidedReceiver; rw [hg']
  refine ⟨_, by unfold Tower.new; rw [h1, hrec], h2.pos, ?_⟩
  obtain ⟨pos, aimHeight, asm⟩ := f
  obtain ⟨i1, i2, i3, i4, i5⟩ := h2
  cases asm with
  | mk own subs objs =>
    simp only [Asm.own, Asm.subs, Asm.objs] at i1 i2 i3 i4 i5 h3 h4
    subst i1 i2 i3
    unfold Asm.new Asm.set
    simp only [Asm.transformChildren, Asm.set, Change.apply, Asm.transformAll, List.map_cons, List.map_nil, List.map_map,
      ObjNode.new, ObjNode.set, ObjNode.transformChildren, SurfNode.transformFrame, Surface.new, Function.comp_def, Asm.getObjects,
      Asm.getObjectsAll, List.append_nil]
    have e : (1 : Tf ℝ) * ⟨1, 0⟩ = 1 := Tf.one_mul' _
    have e1 : (⟨1, 0⟩ : Tf ℝ) = 1 := rfl
    simp only [e, e1, Tf.one_mul', Tf.mul_one']
    unfold plantNodes
    congr 1
    clear i4 i5 h1
    induction h4 with
    | nil => rfl
    | cons h _ ih =>
      subst h
      refine congrArg₂ List.cons ?_ ih
      simp only [List.map_cons, List.map_nil, Tf.one_mul', Tf.mul_one']

end Tracer
