import Verif.Lemmas.Programs
import Verif.Lemmas.DishCourse

/-! Light along the axis of a minidish, for the examples in `Props/Programs.lean`. -/

namespace Tracer

open Real

variable {E σ : Type _}

/-- On the axis of a collector in the frame `T`. -/
def Axial (T : Tf ℝ) (r : Ray ℝ E) : Prop :=
  ∃ z e : ℝ, (e = 1 ∨ e = -1) ∧ r.vertex = T.point ⟨0, 0, z⟩ ∧ r.dir = T.dir ⟨0, 0, e⟩

theorem axial_at {T : Tf ℝ} {r : Ray ℝ E} {z e : ℝ} (hv : r.vertex = T.point ⟨0, 0, z⟩) (hd : r.dir = T.dir ⟨0, 0, e⟩) (t : ℝ) :
    r.at t = T.point ⟨0, 0, z + t * e⟩ := by
  unfold Ray.at
  rw [hv, hd, ← Tf.point_add_smul]
  congr 1
  apply V3.ext <;> simp

/-- The receiver's frame upside down: its Z axis is that of the collector, reversed. -/
theorem hanging_dir (T : Tf ℝ) (pos : ℝ) (u : V3 ℝ) :
    (T * (translate 0 0 pos * rotx π)).dir u = T.dir ⟨u.x, -u.y, -u.z⟩ := by
  rw [Tf.mul_dir, receiverFrame_dir]

theorem hanging_point (T : Tf ℝ) (pos : ℝ) (u : V3 ℝ) :
    (T * (translate 0 0 pos * rotx π)).point u = T.point ⟨u.x, -u.y, pos - u.z⟩ := by
  rw [Tf.mul_point, receiverFrame_point]

theorem point_inj {T : Tf ℝ} (hT : T.Rigid) {p q : V3 ℝ} (h : T.point p = T.point q) : p = q := by
  have := congrArg T.inv.point h
  rwa [Tf.inv_point_point (M3.IsRotation.det_ne hT), Tf.inv_point_point (M3.IsRotation.det_ne hT)] at this

theorem c3_dir (f : Tf ℝ) : f.rot.c3 = f.dir ⟨0, 0, 1⟩ := by
  unfold Tf.dir
  apply V3.ext <;> simp

/-- What happens to axial light at a surface: the Z coordinate of the hit, and a normal along the axis. -/
def AxialHit (T : Tf ℝ) (s : SceneSurf σ ℝ E) (Z : ℝ) : Prop :=
  ∀ (rays : Bundle ℝ E) (i : Nat) (r : Ray ℝ E) (z e t : ℝ), rays[i]? = some r → (e = 1 ∨ e = -1) → r.vertex = T.point ⟨0, 0, z⟩ →
    r.dir = T.dir ⟨0, 0, e⟩ → (s.data.1.find s.temp rays)[i]? = some (t : WithTop ℝ) →
    z + t * e = Z ∧ ∃ e' : ℝ, (e' = 1 ∨ e' = -1) ∧ s.data.1.normal s.temp (r.at t) r.dir = T.dir ⟨0, 0, e'⟩

theorem axial_wall {T : Tf ℝ} (hT : T.Rigid) {pos : ℝ} {own : Tf ℝ} (ho : own.Rigid) (hz : own.rot.c3.z = 0) {g : Geometry ℝ E} {W L : ℝ}
    (hg : rectPlateGM W L = .ok g) (rays : Bundle ℝ E) (i : Nat) (r : Ray ℝ E) (e : ℝ) (hr : rays[i]? = some r)
    (hd : r.dir = T.dir ⟨0, 0, e⟩) : (g.find (T * (translate 0 0 pos * rotx π) * own * 1) rays)[i]? = some ⊤ := by
  have hF := hT.mul (receiverFrame_rigid pos)
  obtain ⟨p, hp, _, hpar⟩ := C31_rect_plate ((hF.mul ho).mul Tf.Rigid.one) hg rays i r hr
  rw [hp]
  congr 1
  apply hpar
  have h1 : r.dir = (T * (translate 0 0 pos * rotx π)).dir ⟨0, 0, -e⟩ := by
    rw [hanging_dir, hd]; simp
  have h2 : (T * (translate 0 0 pos * rotx π) * own * 1).rot.c3 = (T * (translate 0 0 pos * rotx π)).dir own.rot.c3 := by
    rw [Tf.mul_one', c3_dir, Tf.mul_dir, ← c3_dir own]
  rw [h1, h2]
  have h3 : V3.dot ((T * (translate 0 0 pos * rotx π)).dir ⟨0, 0, -e⟩) ((T * (translate 0 0 pos * rotx π)).dir own.rot.c3) =
      V3.dot ⟨0, 0, -e⟩ own.rot.c3 := M3.IsRotation.dot hF _ _
  rw [h3]
  unfold V3.dot
  rw [hz]
  norm_num

theorem axial_plate {T : Tf ℝ} (hT : T.Rigid) {pos c : ℝ} {own : Tf ℝ} {opt : Optics σ ℝ E} {g : Geometry ℝ E} {W L : ℝ}
    (hg : rectPlateGM W L = .ok g) : AxialHit T (⟨own, T * (translate 0 0 pos * rotx π) * ⟨1, ⟨0, 0, -c⟩⟩, (g, opt)⟩ : SceneSurf σ ℝ E) (pos + c) := by
  intro rays i r z e t hr he hv hd ht
  simp only at ht ⊢
  have hF := hT.mul (receiverFrame_rigid pos)
  have hf : (T * (translate 0 0 pos * rotx π) * ⟨1, ⟨0, 0, -c⟩⟩).Rigid := hF.mul M3.IsRotation.one
  have hc3 : (T * (translate 0 0 pos * rotx π) * ⟨1, ⟨0, 0, -c⟩⟩).rot.c3 = T.dir ⟨0, 0, -1⟩ := by
    rw [c3_dir, Tf.mul_dir, hanging_dir]
    congr 1
    unfold Tf.dir
    apply V3.ext <;> simp [M3.one_mulVec]
  have hdot : V3.dot r.dir (T * (translate 0 0 pos * rotx π) * ⟨1, ⟨0, 0, -c⟩⟩).rot.c3 = -e := by
    rw [hc3, hd]
    have : V3.dot (T.dir ⟨0, 0, e⟩) (T.dir ⟨0, 0, -1⟩) = V3.dot ⟨0, 0, e⟩ ⟨0, 0, -1⟩ := M3.IsRotation.dot hT _ _
    rw [this]
    simp [V3.dot]
  obtain ⟨p, hp, hfirst, _⟩ := C31_rect_plate hf hg rays i r hr
  rw [ht] at hp
  cases hp
  obtain ⟨_, ⟨q, hq, hqe⟩, _⟩ := hfirst (by rw [hdot]; rcases he with rfl | rfl <;> norm_num)
  refine ⟨?_, ?_⟩
  · have e1 : r.vertex + t • r.dir = T.point ⟨0, 0, z + t * e⟩ := axial_at hv hd t
    rw [hqe, Tf.mul_point, hanging_point] at e1
    have e2 := congrArg V3.z (point_inj hT e1)
    have hqz : q.z = 0 := hq.1
    simp [Tf.point, M3.one_mulVec, hqz] at e2
    linarith
  · have hn : g.normal = flatNormal := by
      unfold rectPlateGM at hg
      split at hg
      · cases hg
      · split at hg
        · cases hg
        · cases hg
          rfl
    rw [hn]
    unfold flatNormal
    rw [hc3]
    split
    · refine ⟨1, .inl rfl, ?_⟩
      unfold Tf.dir
      rw [← M3.mulVec_neg]
      congr 1
      apply V3.ext <;> simp
    · exact ⟨-1, .inr rfl, rfl⟩

theorem axial_dish {T : Tf ℝ} (hT : T.Rigid) {diameter focal : ℝ} (hf : 0 < focal) {own : Tf ℝ} {opt : Optics σ ℝ E} :
    AxialHit T (⟨own, T * 1 * 1, (parabolicDishGM diameter focal, opt)⟩ : SceneSurf σ ℝ E) 0 := by
  intro rays i r z e t hr he hv hd ht
  simp only [Tf.mul_one'] at ht ⊢
  have hoff : offAxis T r.dir = 0 := by
    unfold offAxis
    rw [c3_dir, hd]
    have : (T.dir ⟨0, 0, e⟩ : V3 ℝ) = e • T.dir ⟨0, 0, 1⟩ := by
      unfold Tf.dir
      rw [← M3.mulVec_smul]
      congr 1
      apply V3.ext <;> simp
    rw [this]
    simp [V3.dot, V3.cross]
    ring
  have hne : r.dir ≠ 0 := by
    intro h
    have : V3.dot (T.dir ⟨0, 0, e⟩) (T.dir ⟨0, 0, e⟩) = V3.dot ⟨0, 0, e⟩ ⟨0, 0, e⟩ := M3.IsRotation.dot hT _ _
    rw [← hd, h] at this
    simp [V3.dot] at this
    rcases he with rfl | rfl <;> simp at this
  obtain ⟨p, hp, hfirst⟩ := C37_dish (diameter := diameter) hT hf rays i r hr hne (.inr hoff)
  rw [ht] at hp
  cases hp
  obtain ⟨_, ⟨q, ⟨hq, _⟩, hqe⟩, _⟩ := hfirst
  have e1 : r.vertex + t • r.dir = T.point ⟨0, 0, z + t * e⟩ := axial_at hv hd t
  have e2 := point_inj hT (hqe.symm.trans e1)
  have hz : z + t * e = 0 := by
    rw [e2] at hq
    simpa [dishSet] using hq
  refine ⟨hz, ?_⟩
  rw [axial_at hv hd, hz]
  unfold parabolicDishGM
  simp only
  unfold paraboloidNormal
  rw [Tf.inv_point_point (M3.IsRotation.det_ne hT)]
  simp only [mul_zero, zero_mul, neg_zero]
  split
  · refine ⟨-1, .inr rfl, ?_⟩
    unfold Tf.dir
    congr 1
    apply V3.ext <;> simp
  · refine ⟨1, .inl rfl, ?_⟩
    unfold Tf.dir
    congr 1
    apply V3.ext <;> simp

theorem noTie_append {K : Type _} {per : Surf σ K E → Ray K E → WithTop K} {l m : List (Surf σ K E)} {p : Ray K E}
    (hl : ∀ s ∈ l, per s p = ⊤) (hm : NoTie per m p) : NoTie per (l ++ m) p := by
  have key : ∀ (k : Nat) s (t : K), (l ++ m)[k]? = some s → per s p = (t : WithTop K) → l.length ≤ k ∧ m[k - l.length]? = some s := by
    intro k s t e h
    rcases Nat.lt_or_ge k l.length with hk | hk
    · rw [List.getElem?_append_left hk] at e
      rw [hl s (List.mem_of_getElem? e)] at h
      cases h
    · rw [List.getElem?_append_right hk] at e
      exact ⟨hk, e⟩
  intro k k' s s' t e e' h h'
  obtain ⟨a1, a2⟩ := key k s t e h
  obtain ⟨b1, b2⟩ := key k' s' t e' h'
  have := hm _ _ s s' t a2 b2 h h'
  omega

theorem axial_unit {T : Tf ℝ} (hT : T.Rigid) {e : ℝ} (he : e = 1 ∨ e = -1) : (T.dir ⟨0, 0, e⟩).IsUnit := by
  have : V3.dot (T.dir ⟨0, 0, e⟩) (T.dir ⟨0, 0, e⟩) = V3.dot ⟨0, 0, e⟩ ⟨0, 0, e⟩ := M3.IsRotation.dot hT _ _
  unfold V3.IsUnit
  rw [this]
  rcases he with rfl | rfl <;> simp [V3.dot]

/-- An answer for a single ray, from the answers for bundles. -/
theorem find_of_single {g : Geometry ℝ E} (hlen : g.LengthOk) {opt : Optics σ ℝ E} {frame : Tf ℝ} {r : Ray ℝ E} {q : WithTop ℝ}
    (h : (mkSurf g opt frame).single r = q) : (g.find frame [r])[0]? = some q := by
  have hl := hlen frame [r]
  cases hf : g.find frame [r] with
  | nil => rw [hf] at hl; simp at hl
  | cons x l =>
    have := single_of_find (opt := opt) (q := x) (by rw [hf]; rfl : (g.find frame [r])[0]? = some x)
    rw [h] at this
    rw [this]
    rfl

/-- Light on the axis of a minidish stays there, and meets no two surfaces at once. -/
theorem axial_trace {diameter focal pos x y depth eff dishEff : ℝ} (hdia : 0 < diameter) (hf : 0 < focal) (hx : 0 < x) (hy : 0 < y)
    (hd : 0 < depth) (h1 : pos ≠ 0) (h2 : pos + 1 / 10 ^ 10 ≠ 0) {get : σ → Account ℝ} {set : Account ℝ → σ → σ} (junk : M3 ℝ)
    {T : Tf ℝ} (hT : T.Rigid) {a : SceneAsm σ ℝ E}
    (h : homogenizedLocalReceiver (Surface.new (parabolicDishGM diameter focal) (reflective (1 - dishEff)) 1) pos (x, y) depth eff get set
      junk = .ok a)
    {w : σ} {b : Bundle ℝ E} {reps : Nat} {minE : ℝ} {res : TraceResult σ ℝ E} (hb : ∀ r ∈ b, Axial T r)
    (hres : rayTracer (a.set (.transform T)).scene w b reps minE true = .ok res) :
    ∀ lvl ∈ res.tree, ∀ p ∈ lvl, Axial T p ∧ NoTie Surf.single ((a.set (.transform T)).scene.flatMap Obj.surfs) p := by
  have hg0 : PlainGeometry (parabolicDishGM diameter focal : Geometry ℝ E) := .dish _ _ hdia hf
  obtain ⟨a', ha, hlib, hplain, _⟩ := collector_library (Surface.new (parabolicDishGM diameter focal) (reflective (1 - dishEff)) 1 : SceneSurf σ ℝ E)
    hg0 (.mirror _) Tf.Rigid.one pos hx hy hd eff get set junk hT
  rw [h] at ha
  cases ha
  obtain ⟨a', g, ha, hg, walls, rec, refl, ho, _, hw, hr, _, hl, _⟩ := collector_objects
    (Surface.new (parabolicDishGM diameter focal) (reflective (1 - dishEff)) 1 : SceneSurf σ ℝ E) pos hx hy hd eff get set junk T
  rw [h] at ha
  cases ha
  -- the three surfaces the light can meet
  have hfront : AxialHit T (⟨1, T * (translate 0 0 pos * rotx π) * 1, (g, reflectiveReceiver 1 get set)⟩ : SceneSurf σ ℝ E) pos := by
    have := axial_plate (c := 0) (pos := pos) (own := 1) (opt := (reflectiveReceiver 1 get set : Optics σ ℝ E)) hT hg
    rw [add_zero] at this
    have e : (⟨1, ⟨0, 0, -0⟩⟩ : Tf ℝ) = 1 := by rw [neg_zero]; rfl
    rwa [e] at this
  have hback := axial_plate (c := 1 / 10 ^ 10) (pos := pos) (own := ⟨1, ⟨0, 0, -(1 / 10 ^ 10)⟩⟩) (opt := (reflective 1 : Optics σ ℝ E)) hT hg
  have hdish := axial_dish (diameter := diameter) (own := 1) (opt := (reflective (1 - dishEff) : Optics σ ℝ E)) hT hf
  have hhit : ∀ o ∈ (a.set (.transform T)).getObjects, ∀ s ∈ o.surfs, ∃ Z, AxialHit T s Z := by
    intro n hn m hm
    rw [ho, List.mem_append] at hn
    rcases hn with hn | hn
    · obtain ⟨own, g', k1, ⟨k2, W, L, k3⟩, hsu, _⟩ := hw n hn
      rw [hsu, List.mem_singleton] at hm
      subst hm
      refine ⟨0, ?_⟩
      intro rays i r z e t hr he hv hd' ht
      simp only at ht
      rw [axial_wall hT k1 k2 k3 rays i r e hr hd'] at ht
      cases ht
    · rw [List.mem_cons, List.mem_singleton] at hn
      rcases hn with rfl | rfl
      · rw [hr, List.mem_cons, List.mem_singleton] at hm
        rcases hm with rfl | rfl
        · exact ⟨_, hfront⟩
        · exact ⟨_, hback⟩
      · rw [hl, List.mem_singleton] at hm
        subst hm
        exact ⟨_, hdish⟩
  have hlen : ∀ o ∈ (a.set (.transform T)).getObjects, ∀ s ∈ o.surfs, s.data.1.LengthOk := fun o ho s hs => (hlib.geometry o ho s hs).lengthOk
  have hax : ∀ (k : Nat) (lvl : Bundle ℝ E), res.tree[k]? = some lvl → ∀ r ∈ lvl, Axial T r := by
    intro k
    induction k with
    | zero =>
      intro lvl hk r hr
      have h0 : res.tree[0]? = some b := by
        obtain ⟨_, steps, stf, _, _, htree, _⟩ := rayTracer_run hres
        rw [htree]; rfl
      rw [h0] at hk; cases hk
      exact hb r hr
    | succ k ih =>
      intro lvl hk r hr
      obtain ⟨prev, p, hprev, hp, o, ho', s, hs, t, _, ⟨rays, i, hi, ht⟩, hvert, hlaw⟩ :=
        C74_law (fun _ _ h r => h.normal.IsUnit → Mirrored h.ray.dir h.normal r.dir) hlib.shapeOk hlen
          (collector_surfs _ pos hx hy hd eff get set junk T h (fun opt => Optics.Obeys opt fun _ h r => h.normal.IsUnit → Mirrored h.ray.dir h.normal r.dir)
            (fun w up hits out w' e r hr => by obtain ⟨q, q1, q2, q3, q4⟩ := C74_one_sided _ w up hits out w' e r hr; exact ⟨q, q1, q2, q3, q4.dir⟩)
            (C74_receiver (fun w up hits out w' e r hr => by
              obtain ⟨q, q1, q2, q3, q4⟩ := C74_reflective _ w up hits out w' e r hr; exact ⟨q, q1, q2, q3, q4.dir⟩) _ _ _)
            (fun w up hits out w' e r hr => by obtain ⟨q, q1, q2, q3, q4⟩ := C74_reflective _ w up hits out w' e r hr; exact ⟨q, q1, q2, q3, q4.dir⟩)
            (fun w up hits out w' e r hr => by obtain ⟨q, q1, q2, q3, q4⟩ := C74_reflective _ w up hits out w' e r hr; exact ⟨q, q1, q2, q3, q4.dir⟩))
          (fun _ _ _ _ _ _ h => h) hres hk hr
      obtain ⟨z, e, he, hv, hd'⟩ := ih prev hprev p (List.mem_of_getElem? hp)
      obtain ⟨Z, hZ⟩ := hhit o ho' s hs
      obtain ⟨_, e', he', hn⟩ := hZ rays i p z e t hi he hv hd' ht
      refine ⟨z + t * e, -e, by rcases he with rfl | rfl <;> norm_num, ?_, ?_⟩
      · rw [hvert, axial_at hv hd']
      · rw [hn] at hlaw
        have hu := axial_unit hT he'
        rw [C44_unique hu (hlaw hu) (C44_mirrored hu _)]
        simp only
        unfold reflection
        have hdot : V3.dot p.dir (T.dir ⟨0, 0, e'⟩) = e * e' := by
          rw [hd']
          have : V3.dot (T.dir ⟨0, 0, e⟩) (T.dir ⟨0, 0, e'⟩) = V3.dot ⟨0, 0, e⟩ ⟨0, 0, e'⟩ := M3.IsRotation.dot hT _ _
          rw [this]
          simp [V3.dot]
        rw [hdot, hd']
        have hee : e' * e' = 1 := by rcases he' with rfl | rfl <;> norm_num
        apply V3.ext <;> simp [Tf.dir, M3.mulVec_x, M3.mulVec_y, M3.mulVec_z]
        · linear_combination (-2 * e * T.rot.c3.x) * hee
        · linear_combination (-2 * e * T.rot.c3.y) * hee
        · linear_combination (-2 * e * T.rot.c3.z) * hee
  intro lvl hlvl p hp
  obtain ⟨k, hk⟩ := List.mem_iff_getElem?.1 hlvl
  have hA := hax k lvl hk p hp
  refine ⟨hA, ?_⟩
  obtain ⟨z, e, he, hv, hd'⟩ := hA
  have hscene : (a.set (.transform T)).scene.flatMap Obj.surfs =
      (walls.flatMap fun o => o.surfs.map fun s => mkSurf s.data.1 s.data.2 s.temp) ++
      [mkSurf g (reflectiveReceiver 1 get set) (T * (translate 0 0 pos * rotx π) * 1),
        mkSurf g (reflective 1) (T * (translate 0 0 pos * rotx π) * ⟨1, ⟨0, 0, -(1 / 10 ^ 10)⟩⟩),
        mkSurf (parabolicDishGM diameter focal) (reflective (1 - dishEff)) (T * 1 * 1)] := by
    unfold Asm.scene
    rw [ho, List.map_append, List.flatMap_append, List.flatMap_map]
    congr 1
    simp only [List.map_cons, List.map_nil, List.flatMap_cons, List.flatMap_nil, hr, hl, List.append_nil]
    rfl
  rw [hscene]
  have hgl : g.LengthOk := by
    have := hlen rec (by rw [ho]; simp) _ (by rw [hr]; exact List.mem_cons_self)
    exact this
  refine noTie_append ?_ ?_
  · intro s hs
    obtain ⟨o, how, hs⟩ := List.mem_flatMap.1 hs
    obtain ⟨own, g', k1, ⟨k2, W, L, k3⟩, hsu, _⟩ := hw o how
    rw [hsu, List.map_singleton, List.mem_singleton] at hs
    subst hs
    exact single_of_find (axial_wall hT k1 k2 k3 [p] 0 p e rfl hd')
  · intro k k' s s' t e1 e1' hs hs'
    have key : ∀ (k : Nat) s, [mkSurf g (reflectiveReceiver 1 get set) (T * (translate 0 0 pos * rotx π) * 1),
        mkSurf g (reflective 1) (T * (translate 0 0 pos * rotx π) * ⟨1, ⟨0, 0, -(1 / 10 ^ 10)⟩⟩),
        mkSurf (parabolicDishGM diameter focal) (reflective (1 - dishEff)) (T * 1 * 1)][k]? = some s →
        s.single p = (t : WithTop ℝ) → (k = 0 ∧ z + t * e = pos) ∨ (k = 1 ∧ z + t * e = pos + 1 / 10 ^ 10) ∨ (k = 2 ∧ z + t * e = 0) := by
      intro k s e2 h
      match k, e2 with
      | 0, e2 => cases e2; exact .inl ⟨rfl, (hfront [p] 0 p z e t rfl he hv hd' (find_of_single hgl h)).1⟩
      | 1, e2 => cases e2; exact .inr (.inl ⟨rfl, (hback [p] 0 p z e t rfl he hv hd' (find_of_single hgl h)).1⟩)
      | 2, e2 => cases e2; exact .inr (.inr ⟨rfl, (hdish [p] 0 p z e t rfl he hv hd' (find_of_single (LibraryGeometry.lengthOk (hlib.geometry refl (by rw [ho]; simp) _ (by rw [hl]; exact List.mem_cons_self))) h)).1⟩)
      | k + 3, e2 => cases e2
    rcases key k s e1 hs with ⟨rfl, q1⟩ | ⟨rfl, q1⟩ | ⟨rfl, q1⟩ <;> rcases key k' s' e1' hs' with ⟨rfl, q2⟩ | ⟨rfl, q2⟩ | ⟨rfl, q2⟩ <;>
      first
        | rfl
        | (exfalso; rw [q1] at q2; first | exact h1 q2 | exact h2 q2 | exact h1 q2.symm | exact h2 q2.symm | (norm_num at q2))

end Tracer
