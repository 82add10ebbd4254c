import Verif.Lemmas.Fermat
import Verif.Lemmas.Reversal

/-! # The recorded paths are the shortest (C97) -/

set_option linter.unusedSectionVars false

namespace Tracer

section
variable {E σ : Type _} {M : ℝ → Prop} {a : SceneAsm σ ℝ E} {w : σ} {b : Bundle ℝ E} {reps : Nat} {minE : ℝ} {res : TraceResult σ ℝ E}

/-- Every ray of the tree goes back to a ray of the source. -/
theorem lineage_exists (hobj : ∀ o ∈ a.scene, o.ShapeOk)
    (hgeo : ∀ o ∈ a.getObjects, ∀ s ∈ o.surfs, LibraryGeometry s.data.1) {Q : Ray ℝ E → Prop}
    (hbend : ∀ o ∈ a.getObjects, ∀ s ∈ o.surfs, Optics.Obeys s.data.2 (BendLaw Q))
    (hQ : ∀ r i, Q r → Q { r with parent := i })
    (h : rayTracer a.scene w b reps minE true = .ok res) :
    ∀ (k : Nat) (lvl : Bundle ℝ E), res.tree[k]? = some lvl → ∀ r ∈ lvl, ∃ q ∈ b, ∃ rays, Lineage res.tree q k r rays := by
  have hlen : ∀ o ∈ a.getObjects, ∀ s ∈ o.surfs, s.data.1.LengthOk := fun o ho s hs => (hgeo o ho s hs).lengthOk
  intro k
  induction k with
  | zero =>
    intro lvl hk r hr
    have h0 : res.tree[0]? = some b := by
      obtain ⟨_, steps, stf, _, _, htree, _⟩ := rayTracer_run h
      rw [htree]; rfl
    have hk' := hk
    rw [h0] at hk'; cases hk'
    exact ⟨r, hr, [], .source hk hr⟩
  | succ k ih =>
    intro lvl hk r hr
    obtain ⟨prev, p, hprev, hp, _⟩ := C74_law (fun _ => BendLaw Q) hobj hlen hbend (fun _ => bendLaw_numberFree Q hQ) h hk hr
    obtain ⟨q, hq, rays, hl⟩ := ih prev hprev p (List.mem_of_getElem? hp)
    exact ⟨q, hq, _, .child hk hr hprev hp hl⟩

/-- The general form, for a law that keeps the momentum along the surface. -/
theorem shortest_tangent {Q : Ray ℝ E → Prop}
    (hobj : ∀ o ∈ a.scene, o.ShapeOk)
    (hgeo : ∀ o ∈ a.getObjects, ∀ s ∈ o.surfs, LibraryGeometry s.data.1)
    (hrig : ∀ o ∈ a.getObjects, ∀ s ∈ o.surfs, s.temp.Rigid)
    (hbend : ∀ o ∈ a.getObjects, ∀ s ∈ o.surfs, Optics.Obeys s.data.2 (BendLaw Q))
    (hQ : ∀ r i, Q r → Q { r with parent := i }) (hgood : ∀ r, Q r → r.dir.IsUnit ∧ 0 ≤ r.index)
    {P : SceneSurf σ ℝ E → V3 ℝ → (V3 ℝ → Prop) → Prop}
    (hP : ∀ o ∈ a.getObjects, ∀ s ∈ o.surfs, ∀ v S, TangentPlane s v S →
      ∃ S', P s v S' ∧ S' v ∧ ∀ q, S' q → S q)
    (hb : ∀ r ∈ b, Q r) (h : rayTracer a.scene w b reps minE true = .ok res)
    {k : Nat} {lvl : Bundle ℝ E} (hk : res.tree[k]? = some lvl) {r : Ray ℝ E} (hr : r ∈ lvl) :
    (∃ q ∈ b, ∃ rays, Lineage res.tree q k r rays) ∧
    ∀ q rays, Lineage res.tree q k r rays →
      ∃ planes : List (V3 ℝ → Prop),
        List.Forall₂ (fun S r' => S r'.vertex ∧ ∃ o ∈ a.getObjects, ∃ s ∈ o.surfs, P s r'.vertex S) planes rays ∧
        ∀ pts : List (V3 ℝ), List.Forall₂ (fun S q => S q) planes pts → ∀ t : ℝ, 0 ≤ t →
          opticalLength ((q :: rays).map Ray.index) (q.vertex :: (rays.map Ray.vertex ++ [r.at t])) ≤
            opticalLength ((q :: rays).map Ray.index) (q.vertex :: (pts ++ [r.at t])) := by
  have hlen : ∀ o ∈ a.getObjects, ∀ s ∈ o.surfs, s.data.1.LengthOk := fun o ho s hs => (hgeo o ho s hs).lengthOk
  refine ⟨lineage_exists hobj hgeo hbend hQ h k lvl hk r hr, fun q rays hl => ?_⟩
  have hall := (conserved (F := fun _ => ()) hobj hgeo hrig hbend hQ (fun r hr => (hgood r hr).1)
    (fun _ _ _ _ _ _ _ _ _ _ => rfl) hb h).2
  have hgood' : ∀ lvl ∈ res.tree, ∀ r ∈ lvl, r.dir.IsUnit ∧ 0 ≤ r.index := fun lvl hl r hr => hgood r (hall lvl hl r hr).1
  obtain ⟨planes, h1, h2⟩ := shortest_step hl hgood'
    (T := fun p r S => (∃ o ∈ a.getObjects, ∃ s ∈ o.surfs, P s r.vertex S) ∧ Bent S p r) (fun _ _ _ h => h.2)
    (by
      intro k lvl prev r p hk hr hprev hp
      obtain ⟨prev', p', hprev', hp', o, ho, s, hs, t, ht, ⟨bund, i, hi, hfind⟩, hv, hlaw⟩ :=
        C74_law (fun _ => BendLaw Q) hobj hlen hbend (fun _ => bendLaw_numberFree Q hQ) h hk hr
      rw [hprev] at hprev'; cases hprev'
      rw [hp] at hp'; cases hp'
      have hq := (hall prev (List.mem_of_getElem? hprev) p (List.mem_of_getElem? hp)).1
      have hn := C74_normals (hgeo o ho s hs) (hrig o ho s hs) bund i p t hi (hgood p hq).1 hfind
      obtain ⟨_, e2⟩ := hlaw hn hq
      obtain ⟨S', hS1, hS2, hS3⟩ := hP o ho s hs r.vertex _ ⟨bund, i, p, t, hi, hfind, hv, rfl⟩
      refine ⟨S', ⟨o, ho, s, hs, hS1⟩, hS2, ⟨t, ht, hv⟩, fun q hq' => ?_⟩
      have := hS3 q hq'
      refine bend_dot hn e2 ?_
      rw [← hv]
      rw [hv] at this ⊢
      exact this)
  refine ⟨planes, h1.imp fun S r' ⟨p, hp⟩ => ⟨hp.2.on, hp.1⟩, fun pts hpts t ht => ?_⟩
  have h3 := h2 pts hpts (r.at t)
  have hr' := hgood' lvl (List.mem_of_getElem? hk) r hr
  have h4 : V3.dot r.dir (t • r.dir) = t := by
    have := hr'.1
    unfold V3.IsUnit V3.dot at this
    unfold V3.dot
    simp only [V3.smul_x, V3.smul_y, V3.smul_z]
    linear_combination t * this
  rw [at_sub, V3.length_smul_unit hr'.1 ht, h4, sub_self, mul_zero, add_zero] at h3
  exact h3

theorem flat_tangent (hrig : ∀ o ∈ a.getObjects, ∀ s ∈ o.surfs, s.temp.Rigid)
    (hflat : ∀ o ∈ a.getObjects, ∀ s ∈ o.surfs, FlatGeometry s.data.1) :
    ∀ o ∈ a.getObjects, ∀ s ∈ o.surfs, ∀ v S, TangentPlane s v S →
      ∃ S', S' = Placed s.temp planeXY ∧ S' v ∧ ∀ q, S' q → S q := by
  rintro o ho s hs v S ⟨rays, i, p, t, hi, hfind, rfl, rfl⟩
  have hat := flatGeometry_at (hflat o ho s hs) (hrig o ho s hs) hi hfind
  refine ⟨_, rfl, hat, fun q hq => ?_⟩
  rw [plane_iff (hrig o ho s hs)] at hat hq
  obtain ⟨c, hc⟩ := flatGeometry_normal (hflat o ho s hs) s.temp (p.at t) p.dir
  show V3.dot _ _ = 0
  rw [hc]
  unfold V3.dot at *
  simp only [V3.smul_x, V3.smul_y, V3.smul_z, V3.sub_x, V3.sub_y, V3.sub_z] at *
  linear_combination c * (hq - hat)

/-- C97: in a scene of flat surfaces, the path of the light from the source to any point of a recorded ray is the shortest, by optical length, of
all paths that visit the planes of the same surfaces in the same order. -/
theorem C97_shortest (ha : MediaScene M a) (hclear : ∀ o ∈ a.getObjects, ∀ s ∈ o.surfs, ClearOptics M s.data.2)
    (hflat : ∀ o ∈ a.getObjects, ∀ s ∈ o.surfs, FlatGeometry s.data.1)
    (hb : ∀ r ∈ b, MediaRay M r) (h : rayTracer a.scene w b reps minE true = .ok res)
    {k : Nat} {lvl : Bundle ℝ E} (hk : res.tree[k]? = some lvl) {r : Ray ℝ E} (hr : r ∈ lvl) :
    (∃ q ∈ b, ∃ rays, Lineage res.tree q k r rays) ∧
    ∀ q rays, Lineage res.tree q k r rays →
      ∃ planes : List (V3 ℝ → Prop),
        List.Forall₂ (fun S r' => S r'.vertex ∧ ∃ o ∈ a.getObjects, ∃ s ∈ o.surfs, S = Placed s.temp planeXY) planes rays ∧
        ∀ pts : List (V3 ℝ), List.Forall₂ (fun S q => S q) planes pts → ∀ t : ℝ, 0 ≤ t →
          opticalLength ((q :: rays).map Ray.index) (q.vertex :: (rays.map Ray.vertex ++ [r.at t])) ≤
            opticalLength ((q :: rays).map Ray.index) (q.vertex :: (pts ++ [r.at t])) :=
  shortest_tangent (P := fun s _ S => S = Placed s.temp planeXY) ha.shapeOk ha.geometry ha.rigid
    (fun o ho s hs => clear_bends ha.media (hclear o ho s hs)) mediaRay_parent
    (fun r hr => ⟨hr.1, by obtain ⟨n, hn, e⟩ := hr.2; unfold Ray.index; rw [e]; exact (ha.media n hn).le⟩)
    (flat_tangent ha.rigid hflat) hb h hk hr

/-- C97: for mirrors only, with rays that may carry no refractive index. -/
theorem C97_mirrors (hobj : ∀ o ∈ a.scene, o.ShapeOk)
    (hrig : ∀ o ∈ a.getObjects, ∀ s ∈ o.surfs, s.temp.Rigid)
    (hopt : ∀ o ∈ a.getObjects, ∀ s ∈ o.surfs, MirrorOptics s.data.2)
    (hflat : ∀ o ∈ a.getObjects, ∀ s ∈ o.surfs, FlatGeometry s.data.1)
    (hb : ∀ r ∈ b, r.dir.IsUnit ∧ 0 ≤ r.index) (h : rayTracer a.scene w b reps minE true = .ok res)
    {k : Nat} {lvl : Bundle ℝ E} (hk : res.tree[k]? = some lvl) {r : Ray ℝ E} (hr : r ∈ lvl) :
    (∃ q ∈ b, ∃ rays, Lineage res.tree q k r rays) ∧
    ∀ q rays, Lineage res.tree q k r rays →
      ∃ planes : List (V3 ℝ → Prop),
        List.Forall₂ (fun S r' => S r'.vertex ∧ ∃ o ∈ a.getObjects, ∃ s ∈ o.surfs, S = Placed s.temp planeXY) planes rays ∧
        ∀ pts : List (V3 ℝ), List.Forall₂ (fun S q => S q) planes pts → ∀ t : ℝ, 0 ≤ t →
          opticalLength ((q :: rays).map Ray.index) (q.vertex :: (rays.map Ray.vertex ++ [r.at t])) ≤
            opticalLength ((q :: rays).map Ray.index) (q.vertex :: (pts ++ [r.at t])) :=
  shortest_tangent (P := fun s _ S => S = Placed s.temp planeXY) hobj (fun o ho s hs => .plain _ (hflat o ho s hs).plain) hrig
    (fun o ho s hs => mirror_bends_pos (hopt o ho s hs)) (fun _ _ h => h) (fun _ h => h)
    (flat_tangent hrig hflat) hb h hk hr

/-- C97: with curved surfaces, the same for the tangent planes at the points that were hit. -/
theorem C97_tangent (ha : MediaScene M a) (hclear : ∀ o ∈ a.getObjects, ∀ s ∈ o.surfs, ClearOptics M s.data.2)
    (hb : ∀ r ∈ b, MediaRay M r) (h : rayTracer a.scene w b reps minE true = .ok res)
    {k : Nat} {lvl : Bundle ℝ E} (hk : res.tree[k]? = some lvl) {r : Ray ℝ E} (hr : r ∈ lvl) :
    (∃ q ∈ b, ∃ rays, Lineage res.tree q k r rays) ∧
    ∀ q rays, Lineage res.tree q k r rays →
      ∃ planes : List (V3 ℝ → Prop),
        List.Forall₂ (fun S r' => S r'.vertex ∧ ∃ o ∈ a.getObjects, ∃ s ∈ o.surfs, TangentPlane s r'.vertex S) planes rays ∧
        ∀ pts : List (V3 ℝ), List.Forall₂ (fun S q => S q) planes pts → ∀ t : ℝ, 0 ≤ t →
          opticalLength ((q :: rays).map Ray.index) (q.vertex :: (rays.map Ray.vertex ++ [r.at t])) ≤
            opticalLength ((q :: rays).map Ray.index) (q.vertex :: (pts ++ [r.at t])) :=
  shortest_tangent (P := TangentPlane) ha.shapeOk ha.geometry ha.rigid
    (fun o ho s hs => clear_bends ha.media (hclear o ho s hs)) mediaRay_parent
    (fun r hr => ⟨hr.1, by obtain ⟨n, hn, e⟩ := hr.2; unfold Ray.index; rw [e]; exact (ha.media n hn).le⟩)
    (by
      intro o ho s hs v S hS
      refine ⟨S, hS, ?_, fun _ h => h⟩
      obtain ⟨rays, i, p, t, hi, hfind, rfl, rfl⟩ := hS
      show V3.dot _ _ = 0
      unfold V3.dot
      simp) hb h hk hr

end

/-! ## Light through the layer of oil -/

/-- A slanting ray from the air: its paths through the oil and the glass, refracted and reflected, are the shortest. -/
example (reps : Nat) (minE : ℝ) :
    ∃ res : TraceResult Unit ℝ Unit,
      rayTracer oilOnGlass.scene () [⟨⟨0, 0, 3⟩, ⟨0, 3 / 5, -4 / 5⟩, 1, 0, some 1, ()⟩] reps minE true = .ok res ∧
      ∀ (k : Nat) (lvl : Bundle ℝ Unit), res.tree[k]? = some lvl → ∀ r ∈ lvl, ∀ q rays, Lineage res.tree q k r rays →
      ∃ planes : List (V3 ℝ → Prop),
        List.Forall₂ (fun S r' => S r'.vertex ∧ ∃ o ∈ oilOnGlass.getObjects, ∃ s ∈ o.surfs, S = Placed s.temp planeXY) planes rays ∧
        ∀ pts : List (V3 ℝ), List.Forall₂ (fun S q => S q) planes pts → ∀ t : ℝ, 0 ≤ t →
          opticalLength ((q :: rays).map Ray.index) (q.vertex :: (rays.map Ray.vertex ++ [r.at t])) ≤
            opticalLength ((q :: rays).map Ray.index) (q.vertex :: (pts ++ [r.at t])) := by
  have hq : ∀ r ∈ ([⟨⟨0, 0, 3⟩, ⟨0, 3 / 5, -4 / 5⟩, 1, 0, some 1, ()⟩] : Bundle ℝ Unit),
      MediaRay (fun n => n = 1 ∨ n = 4 / 3 ∨ n = 3 / 2) r := fun r hr => by
    rw [List.mem_singleton.1 hr]
    exact ⟨by norm_num [V3.IsUnit, V3.dot], 1, Or.inl rfl, rfl⟩
  obtain ⟨res, h⟩ := C75_media oilOnGlass_media oilOnGlass_plain () hq minE (Or.inl rfl)
  exact ⟨res, h, fun k lvl hk r hr => (C97_shortest oilOnGlass_media oilOnGlass_clear (fun o ho s hs => (oilOnGlass_flat o ho s hs).1)
    hq h hk hr).2⟩

/-! ## Two mirrors at right angles -/

/-- The mirrors Z = 0 and X = 0. -/
noncomputable def rightAngle : SceneAsm Unit ℝ Unit :=
  .mk 1 [] [⟨1, [⟨1, 1, (flatGM, reflective (1 / 4))⟩,
    ⟨1, ⟨⟨⟨0, 1, 0⟩, ⟨0, 0, 1⟩, ⟨1, 0, 0⟩⟩, 0⟩, (flatGM, reflective (1 / 4))⟩], (Obj.defaultOwn, Obj.defaultNext 2)⟩]

/-- Rays without a refractive index, and every path of one reflection at the mirror Z = 0 or of one at each. -/
example (reps : Nat) (minE : ℝ) :
    ∃ res : TraceResult Unit ℝ Unit,
      rayTracer rightAngle.scene () [⟨⟨2, 0, 1⟩, ⟨-3 / 5, 0, -4 / 5⟩, 1, 0, none, ()⟩] reps minE true = .ok res ∧
      ∀ (k : Nat) (lvl : Bundle ℝ Unit), res.tree[k]? = some lvl → ∀ r ∈ lvl, ∀ q rays, Lineage res.tree q k r rays →
      ∃ planes : List (V3 ℝ → Prop),
        List.Forall₂ (fun S r' => S r'.vertex ∧ ∃ o ∈ rightAngle.getObjects, ∃ s ∈ o.surfs, S = Placed s.temp planeXY) planes rays ∧
        ∀ pts : List (V3 ℝ), List.Forall₂ (fun S q => S q) planes pts → ∀ t : ℝ, 0 ≤ t →
          opticalLength ((q :: rays).map Ray.index) (q.vertex :: (rays.map Ray.vertex ++ [r.at t])) ≤
            opticalLength ((q :: rays).map Ray.index) (q.vertex :: (pts ++ [r.at t])) := by
  have hR : (⟨⟨⟨0, 1, 0⟩, ⟨0, 0, 1⟩, ⟨1, 0, 0⟩⟩, 0⟩ : Tf ℝ).Rigid := by
    unfold Tf.Rigid; rw [M3.isRotation_iff]; unfold M3.det V3.dot V3.cross; norm_num
  have hflat : ∀ o ∈ rightAngle.getObjects, ∀ s ∈ o.surfs, FlatGeometry s.data.1 :=
    List.forall_mem_cons.2 ⟨List.forall_mem_cons.2 ⟨.flat, List.forall_mem_cons.2 ⟨.flat,
      List.forall_mem_nil _⟩⟩, List.forall_mem_nil _⟩
  have hrig : ∀ o ∈ rightAngle.getObjects, ∀ s ∈ o.surfs, s.temp.Rigid :=
    List.forall_mem_cons.2 ⟨List.forall_mem_cons.2 ⟨.one, List.forall_mem_cons.2
      ⟨hR, List.forall_mem_nil _⟩⟩, List.forall_mem_nil _⟩
  have hopt : ∀ o ∈ rightAngle.getObjects, ∀ s ∈ o.surfs, MirrorOptics s.data.2 :=
    List.forall_mem_cons.2 ⟨List.forall_mem_cons.2 ⟨.mirror _, List.forall_mem_cons.2 ⟨.mirror _, List.forall_mem_nil _⟩⟩,
        List.forall_mem_nil _⟩
  have hscene : LibraryScene 1 1 rightAngle :=
    ⟨⟨_, List.mem_cons_self, fun h => by cases h⟩, hrig, fun o ho s hs => .plain _ (hflat o ho s hs).plain,
      List.forall_mem_cons.2 ⟨List.forall_mem_cons.2 ⟨.mirror _, List.forall_mem_cons.2 ⟨.mirror _, List.forall_mem_nil _⟩⟩,
        List.forall_mem_nil _⟩, List.forall_mem_cons.2 ⟨.inl rfl, List.forall_mem_nil _⟩⟩
  have hq : ∀ r ∈ ([⟨⟨2, 0, 1⟩, ⟨-3 / 5, 0, -4 / 5⟩, 1, 0, none, ()⟩] : Bundle ℝ Unit), r.dir.IsUnit ∧ 0 ≤ r.index := fun r hr => by
    rw [List.mem_singleton.1 hr]
    norm_num [V3.IsUnit, V3.dot, Ray.index]
  obtain ⟨res, h⟩ := C75_opaque hscene (fun o ho s hs => (hflat o ho s hs).plain)
    (List.forall_mem_cons.2 ⟨List.forall_mem_cons.2 ⟨.mirror _, List.forall_mem_cons.2 ⟨.mirror _, List.forall_mem_nil _⟩⟩,
        List.forall_mem_nil _⟩) () (fun r hr => (hq r hr).1) (reps := reps) minE
    (Or.inl rfl)
  exact ⟨res, h, fun k lvl hk r hr => (C97_mirrors hscene.shapeOk hrig hopt hflat hq h hk hr).2⟩

/-! ## A ball of glass -/

/-- A ball of glass alone. -/
noncomputable def glassBall (ball : Geometry ℝ Unit) : SceneAsm Unit ℝ Unit :=
  .mk 1 [] [⟨1, [⟨1, 1, (ball, refractiveHomogenous 1 (3 / 2))⟩], (Obj.defaultOwn, Obj.defaultNext 1)⟩]

/-- Paths through the ball, with any number of reflections inside. -/
example (reps : Nat) (minE : ℝ) : ∃ (ball : Geometry ℝ Unit) (res : TraceResult Unit ℝ Unit), sphereGM 1 = .ok ball ∧
      rayTracer (glassBall ball).scene () [⟨⟨1 / 2, 0, 3⟩, ⟨0, 0, -1⟩, 1, 0, some 1, ()⟩] reps minE true = .ok res ∧
      ∀ (k : Nat) (lvl : Bundle ℝ Unit), res.tree[k]? = some lvl → ∀ r ∈ lvl, ∀ q rays, Lineage res.tree q k r rays →
      ∃ planes : List (V3 ℝ → Prop),
        List.Forall₂ (fun S r' => S r'.vertex ∧ ∃ o ∈ (glassBall ball).getObjects, ∃ s ∈ o.surfs, TangentPlane s r'.vertex S) planes rays ∧
        ∀ pts : List (V3 ℝ), List.Forall₂ (fun S q => S q) planes pts → ∀ t : ℝ, 0 ≤ t →
          opticalLength ((q :: rays).map Ray.index) (q.vertex :: (rays.map Ray.vertex ++ [r.at t])) ≤
            opticalLength ((q :: rays).map Ray.index) (q.vertex :: (pts ++ [r.at t])) := by
  obtain ⟨ball, hball⟩ : ∃ g, (sphereGM 1 : Except Err (Geometry ℝ Unit)) = .ok g := by
    unfold sphereGM setRadius
    rw [if_neg (by norm_num)]
    exact ⟨_, rfl⟩
  have hplain : ∀ o ∈ (glassBall ball).getObjects, ∀ s ∈ o.surfs, PlainGeometry s.data.1 :=
    List.forall_mem_cons.2 ⟨List.forall_mem_cons.2 ⟨.sphere 1 _ hball, List.forall_mem_nil _⟩, List.forall_mem_nil _⟩
  have hclear : ∀ o ∈ (glassBall ball).getObjects, ∀ s ∈ o.surfs, ClearOptics (fun n => n = 1 ∨ n = 3 / 2) s.data.2 :=
    List.forall_mem_cons.2 ⟨List.forall_mem_cons.2 ⟨.refractive _ _ (by norm_num) (by norm_num), List.forall_mem_nil _⟩, List.forall_mem_nil _⟩
  have hmedia : MediaScene (fun n => n = 1 ∨ n = 3 / 2) (glassBall ball) := by
    refine ⟨?_, ⟨_, List.mem_cons_self, fun h => by cases h⟩, ?_, fun o ho s hs => .plain _ (hplain o ho s hs), ?_, ?_⟩
    · rintro n (rfl | rfl) <;> norm_num
    · exact List.forall_mem_cons.2 ⟨List.forall_mem_cons.2 ⟨.one, List.forall_mem_nil _⟩, List.forall_mem_nil _⟩
    · exact List.forall_mem_cons.2 ⟨List.forall_mem_cons.2 ⟨.refractive _ _ (by norm_num) (by norm_num) (by norm_num),
        List.forall_mem_nil _⟩, List.forall_mem_nil _⟩
    · exact List.forall_mem_cons.2 ⟨.inl rfl, List.forall_mem_nil _⟩
  have hq : ∀ r ∈ ([⟨⟨1 / 2, 0, 3⟩, ⟨0, 0, -1⟩, 1, 0, some 1, ()⟩] : Bundle ℝ Unit),
      MediaRay (fun n => n = 1 ∨ n = 3 / 2) r := fun r hr => by
    rw [List.mem_singleton.1 hr]
    exact ⟨by norm_num [V3.IsUnit, V3.dot], 1, Or.inl rfl, rfl⟩
  obtain ⟨res, h⟩ := C75_media hmedia hplain () hq minE (Or.inl rfl)
  exact ⟨ball, res, hball, h, fun k lvl hk r hr => (C97_tangent hmedia hclear hq h hk hr).2⟩

end Tracer
