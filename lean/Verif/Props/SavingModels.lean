import Verif.Spec.SavingModels
import Verif.Props.Saving
import Verif.Props.Kaleidoscope

/-!
# Assemblies in which the policies only save work (C108, C109)

C109 and the resumption of traces for assemblies of the package: objects with default policies, one-sided mirrors, and receivers
that absorb everything; among them the readymade collectors and the field with its tower, after any history of aims.
-/

set_option linter.unusedSectionVars false

namespace Tracer

open Real

variable {E σ : Type _}

theorem rigid_up {F : Tf ℝ} (h : F.Rigid) : V3.dot F.rot.c3 F.rot.c3 = 1 := ((M3.isRotation_iff _).1 h).1.2.2.1

theorem MirrorOptics.specular {opt : Optics σ ℝ E} (h : MirrorOptics opt) : SpecularOptics 1 1 opt := by
  induction h with
  | mirror a => exact .mirror a
  | oneSided a => exact .oneSided a
  | receiver a get set opt _ ih => exact .receiver a get set opt ih

theorem SparingScene.specular {a : SceneAsm σ ℝ E} (h : SparingScene a) : AllSurfs SpecularSurf a.scene := by
  intro o ho s hs
  obtain ⟨n, hn, rfl⟩ := List.mem_map.1 ho
  obtain ⟨t, ht, rfl⟩ := List.mem_map.1 hs
  obtain ⟨n1, n2, hopt⟩ := h.optics n hn t ht
  exact ⟨_, _, _, n1, n2, rfl, h.geometry n hn t ht, hopt⟩

theorem SparingScene.sparing {a : SceneAsm σ ℝ E} (h : SparingScene a) : ∀ o ∈ a.scene, o.Sparing := by
  intro o ho
  obtain ⟨n, hn, rfl⟩ := List.mem_map.1 ho
  have hr := h.rigid n hn
  rcases h.policies n hn with hd | ⟨hd, ⟨s, hs, hg, hopt⟩ | hbl⟩
  · exact ⟨by rw [hd], Or.inl (by rw [hd, List.length_map])⟩
  · refine ⟨by rw [hd], Or.inr ⟨by rw [hd, List.length_map], Or.inl ⟨_, by rw [hs]; rfl, ?_⟩⟩⟩
    exact ⟨_, _, _, rfl, hg, hopt, rigid_up (hr s (by rw [hs]; simp))⟩
  · refine ⟨by rw [hd], Or.inr ⟨by rw [hd, List.length_map], Or.inr fun s hs => ?_⟩⟩
    obtain ⟨t, ht, rfl⟩ := List.mem_map.1 hs
    rcases hbl t ht with e | ⟨get, set, e⟩
    · rw [e]; exact black_reflective _ _
    · rw [e]; exact black_receiver _ _ _ _

/-- C109 for assemblies. -/
theorem C109_scene {a : SceneAsm σ ℝ E} (h : SparingScene a) {minE : ℝ} (hE : 0 ≤ minE) (w : σ) (b : Bundle ℝ E) (reps : Nat)
    (keep : Bool) : rayTracer a.scene w b reps minE keep = rayTracer (a.scene.map Obj.asked) w b reps minE keep :=
  C109_library h.sparing h.specular hE w b reps keep

/-- C108 for assemblies. -/
theorem C108_scene {a : SceneAsm σ ℝ E} (hs : SparingScene a) {minE : ℝ} (hE : 0 ≤ minE) {w : σ} {b : Bundle ℝ E}
    {res : TraceResult σ ℝ E} {n m : Nat} {last : Bundle ℝ E}
    (h : rayTracer a.scene w b (n + 1) minE true = .ok res) (hlevel : res.tree[n + 1]? = some last) :
    rayTracer a.scene w b (n + 1 + m) minE true =
      (rayTracer a.scene res.world (last.filter fun r => decide (minE < r.energy)) m minE true).map fun rest =>
        ⟨rest.vertices, rest.directions, res.tree ++ rest.tree.tail, rest.world⟩ :=
  C108_library hs.sparing hs.specular hE h hlevel

/-- C108, C109: the collectors of the package are such assemblies. -/
theorem C109_collector (reflector : SceneSurf σ ℝ E) (pos : ℝ) {x y depth : ℝ} (hx : 0 < x) (hy : 0 < y) (hd : 0 < depth)
    (hrig : reflector.own.Rigid) (hgeo : PlainGeometry reflector.data.1) (hopt : MirrorOptics reflector.data.2)
    (eff : ℝ) (get : σ → Account ℝ) (set : Account ℝ → σ → σ) (junk : M3 ℝ) :
    ∃ a : SceneAsm σ ℝ E, homogenizedLocalReceiver reflector pos (x, y) depth eff get set junk = .ok a ∧ SparingScene a := by
  obtain ⟨a, own, fw, gw, g, ha, hg, hgw, hfw, hobjs, _⟩ := collector_scene (σ := σ) (E := E) reflector pos hx hy hd eff get set junk
  have hF := receiverFrame_rigid pos
  generalize translate 0 0 pos * rotx π = F at *
  refine ⟨a, ha, ?_⟩
  have hall : ∀ o ∈ a.getObjects, ∀ s ∈ o.surfs, s.temp.Rigid ∧ PlainGeometry s.data.1 ∧ MirrorOptics s.data.2 := by
    intro o ho s hs
    rw [hobjs] at ho
    have hwl : ∀ k, s ∈ (wallNode (own k) (gw k) (fw k) eff : SceneObj σ ℝ E).surfs →
        s.temp.Rigid ∧ PlainGeometry s.data.1 ∧ MirrorOptics s.data.2 := by
      intro k hs
      obtain ⟨W, L, hWL⟩ := hgw k
      rw [wallNode, List.mem_singleton] at hs
      subst hs
      exact ⟨hfw k, .rect _ _ _ hWL, .oneSided _⟩
    simp only [List.mem_cons, List.not_mem_nil, or_false] at ho
    rcases ho with rfl | rfl | rfl | rfl | rfl | rfl
    · exact hwl 0 hs
    · exact hwl 1 hs
    · exact hwl 2 hs
    · exact hwl 3 hs
    · simp only [receiverNode, List.mem_cons, List.not_mem_nil, or_false] at hs
      rcases hs with rfl | rfl
      · exact ⟨hF, .rect _ _ _ hg, .receiver _ _ _ _ (.mirror _)⟩
      · exact ⟨(back_rigid hF).1, .rect _ _ _ hg, .mirror _⟩
    · rw [reflectorNode, List.mem_singleton] at hs
      subst hs
      exact ⟨hrig, hgeo, hopt⟩
  refine ⟨fun o ho s hs => (hall o ho s hs).1, fun o ho s hs => (hall o ho s hs).2.1,
    fun o ho s hs => ⟨1, 1, (hall o ho s hs).2.2.specular⟩, ?_⟩
  intro o ho
  rw [hobjs] at ho
  have hwl : ∀ k, (wallNode (own k) (gw k) (fw k) eff : SceneObj σ ℝ E).data = (Obj.defaultOwn, Obj.skipNext 1) ∧
      ∃ s, (wallNode (own k) (gw k) (fw k) eff : SceneObj σ ℝ E).surfs = [s] ∧ FlatGeometry s.data.1 ∧ MirrorOptics s.data.2 := by
    intro k
    obtain ⟨W, L, hWL⟩ := hgw k
    exact ⟨rfl, _, rfl, .rect _ _ _ hWL, .oneSided _⟩
  simp only [List.mem_cons, List.not_mem_nil, or_false] at ho
  rcases ho with rfl | rfl | rfl | rfl | rfl | rfl
  · exact Or.inr ⟨(hwl 0).1, Or.inl (hwl 0).2⟩
  · exact Or.inr ⟨(hwl 1).1, Or.inl (hwl 1).2⟩
  · exact Or.inr ⟨(hwl 2).1, Or.inl (hwl 2).2⟩
  · exact Or.inr ⟨(hwl 3).1, Or.inl (hwl 3).2⟩
  · refine Or.inr ⟨rfl, Or.inr fun s hs => ?_⟩
    simp only [receiverNode, List.mem_cons, List.not_mem_nil, or_false] at hs
    rcases hs with rfl | rfl
    · exact Or.inr ⟨get, set, rfl⟩
    · exact Or.inl rfl
  · exact Or.inl rfl

/-- C108, C109: so is the plant of a heliostat field and a tower, after any history of the field that ends with an aim. -/
theorem C109_tower {positions : List (V3 ℝ)} {W L absorpt th x y az el : ℝ} {F : Tf ℝ} {get : σ → Account ℝ}
    {set : Account ℝ → σ → σ} (hW : 0 < W) (hL : 0 < L) (hx : 0 < x) (hy : 0 < y) (hF : F.Rigid) (junk junk' : M3 ℝ)
    (ops : List HelioOp) :
    ∃ t : Tower σ E, Tower.new positions W L absorpt th x y F get set junk junk' = .ok t ∧
      SparingScene (t.onField (runHelio (ops ++ [.aim az el]))).plant := by
  obtain ⟨g, hg⟩ := (C31_constructor (K := ℝ) (E := E) W L).1 ⟨hW, hL⟩
  obtain ⟨g', hg'⟩ := (C31_constructor (K := ℝ) (E := E) x y).1 ⟨hx, hy⟩
  obtain ⟨t, ht, hobjs⟩ := tower_scene (σ := σ) (positions := positions) (a := absorpt) (th := th) hg hg' F get set junk junk' ops az el
  generalize heightAfter th ops = H at hobjs
  refine ⟨t, ht, ?_⟩
  have hall : ∀ o ∈ (t.onField (runHelio (ops ++ [.aim az el]))).plant.getObjects, ∀ s ∈ o.surfs,
      s.temp.Rigid ∧ PlainGeometry s.data.1 ∧ MirrorOptics s.data.2 := by
    intro o ho s hs
    rw [hobjs] at ho
    rcases List.mem_append.1 ho with ho | ho
    · obtain ⟨p, _, rfl⟩ := List.mem_map.1 ho
      rw [List.mem_singleton] at hs
      subst hs
      exact ⟨aimTransform_rigid az el H p, .rect _ _ _ hg, .oneSided _⟩
    · rw [List.mem_singleton] at ho
      subst ho
      simp only [List.mem_cons, List.not_mem_nil, or_false] at hs
      rcases hs with rfl | rfl
      · exact ⟨hF, .rect _ _ _ hg', .receiver _ _ _ _ (.mirror _)⟩
      · exact ⟨(back_rigid hF).1, .rect _ _ _ hg', .mirror _⟩
  refine ⟨fun o ho s hs => (hall o ho s hs).1, fun o ho s hs => (hall o ho s hs).2.1,
    fun o ho s hs => ⟨1, 1, (hall o ho s hs).2.2.specular⟩, ?_⟩
  intro o ho
  rw [hobjs] at ho
  rcases List.mem_append.1 ho with ho | ho
  · obtain ⟨p, _, rfl⟩ := List.mem_map.1 ho
    exact Or.inr ⟨rfl, Or.inl ⟨_, rfl, .rect _ _ _ hg, .oneSided _⟩⟩
  · rw [List.mem_singleton] at ho
    subst ho
    refine Or.inr ⟨rfl, Or.inr fun s hs => ?_⟩
    simp only [List.mem_cons, List.not_mem_nil, or_false] at hs
    rcases hs with rfl | rfl
    · exact Or.inr ⟨get, set, rfl⟩
    · exact Or.inl rfl

/-- C109 for the readymade dish: what `MiniDish(10., 5., ...)` traces is what it would with default policies everywhere. -/
example (junk : M3 ℝ) : ∃ a : SceneAsm (Account ℝ) ℝ E,
    miniDish 10 5 1 6 (1/10) (1/20) 1 1 id (fun acc _ => acc) junk = .ok a ∧ a.getObjects ≠ [] ∧
    ∀ w b reps keep, rayTracer a.scene w b reps 0 keep = rayTracer (a.scene.map Obj.asked) w b reps 0 keep := by
  obtain ⟨a, ha, hs⟩ := C109_collector (σ := Account ℝ) (E := E) (Surface.new (parabolicDishGM 10 5) (reflective (1 - 1)) 1) 6
    (x := 1/10) (y := 1/10 * 1) (depth := 1/20) (by norm_num) (by norm_num) (by norm_num) Tf.Rigid.one
    (.dish 10 5 (by norm_num) (by norm_num)) (.mirror _) 1 id (fun acc _ => acc) junk
  refine ⟨a, ha, ?_, fun w b reps keep => C109_scene hs (le_refl 0) w b reps keep⟩
  obtain ⟨a', walls, receiver, refl, ha', ho, _⟩ := C68_layout (σ := Account ℝ) (E := E)
    (Surface.new (parabolicDishGM 10 5) (reflective (1 - 1)) 1) 6 (x := 1/10) (y := 1/10 * 1) (depth := 1/20)
    (by norm_num) (by norm_num) (by norm_num) 1 id (fun acc _ => acc) junk
  rw [ha] at ha'
  cases ha'
  rw [ho]
  simp

/-- C109 for a tower with one heliostat. -/
example (junk junk' : M3 ℝ) : ∃ t : Tower (Account ℝ) E,
    Tower.new [⟨0, 10, 0⟩] 1 1 (1/10) 10 1 1 1 id (fun acc _ => acc) junk junk' = .ok t ∧
    ∀ w b reps keep, rayTracer (t.onField (runHelio ([] ++ [.aim 0 1]))).plant.scene w b reps 0 keep =
      rayTracer ((t.onField (runHelio ([] ++ [.aim 0 1]))).plant.scene.map Obj.asked) w b reps 0 keep := by
  obtain ⟨t, ht, hs⟩ := C109_tower (σ := Account ℝ) (E := E) (positions := [⟨0, 10, 0⟩]) (W := 1) (L := 1) (absorpt := 1/10) (th := 10)
    (x := 1) (y := 1) (az := 0) (el := 1) (F := 1) (get := id) (set := fun acc _ => acc) one_pos one_pos one_pos one_pos Tf.Rigid.one junk junk' []
  exact ⟨t, ht, fun w b reps keep => C109_scene hs (le_refl 0) w b reps keep⟩

end Tracer
