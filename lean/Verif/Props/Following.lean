import Verif.Spec.Following
import Verif.Props.Kaleidoscope
import Verif.Props.TraceMotion
import Verif.Props.Histogram
import Verif.Lemmas.Programs
import Verif.Model.Programs

/-! # Collectors that follow the sun (C103) -/

namespace Tracer

open Real

variable {E σ : Type _}

theorem set_again {P Q : Type _} (a : Asm ℝ P Q) (S T : Tf ℝ) : (a.set (.transform S)).set (.transform T) = a.set (.transform T) := by
  obtain ⟨own, subs, objs⟩ := a
  simp only [Asm.set, Asm.transformChildren, Change.apply, List.map_map]
  rw [transformAll_twice]
  congr 1
  apply List.map_congr_left
  intro o _
  unfold ObjNode.transformChildren SurfNode.transformFrame
  simp [Function.comp_def]

theorem turned_eq {P Q : Type _} (a : Asm ℝ P Q) (before : List (Tf ℝ)) (T : Tf ℝ) : a.turned before T = a.set (.transform T) := by
  unfold Asm.turned
  induction before generalizing a with
  | nil => rfl
  | cons S l ih => rw [List.foldl_cons, ih, set_again]

theorem plain_equivariant {g : Geometry ℝ E} (h : PlainGeometry g) : g.Equivariant := by
  cases h with
  | flat => exact C28_flat
  | rect _ _ _ h => exact C28_rect h
  | round _ _ h => exact C28_round h
  | triangle => exact C28_triangle _ _
  | sphere _ _ h => exact C28_sphere h
  | paraboloid => exact C28_paraboloid _ _
  | dish => exact C28_dish _ _
  | hexagonal => exact C28_hexagonal_dish _ _
  | cylinder => exact C28_infinite_cylinder _
  | finiteCylinder => exact C28_finite_cylinder _ _

/-- A collector as it comes from its constructor. -/
theorem collector_home (reflector : SceneSurf σ ℝ E) (pos : ℝ) (x y depth eff : ℝ) (get : σ → Account ℝ) (set : Account ℝ → σ → σ)
    (junk : M3 ℝ) {a : SceneAsm σ ℝ E} (h : homogenizedLocalReceiver reflector pos (x, y) depth eff get set junk = .ok a) :
    InSync 1 a ∧ a.own = 1 ∧ a.getObjects = (a.set (.transform 1)).getObjects := by
  obtain ⟨objs, sub, rfl⟩ : ∃ objs sub, a = Asm.new objs [sub] 0 1 junk := by
    unfold homogenizedLocalReceiver at h
    split at h
    · cases h
    · simp only at h
      split at h
      · cases h
      · cases h
        exact ⟨_, _, rfl⟩
  refine ⟨(C22_construct _ _ _ _ _).1, ?_, by rw [new_sub_set_getObjects, new_sub_getObjects]⟩
  unfold Asm.new Asm.set Asm.transformChildren Asm.own
  simp only [Change.apply]
  rfl

theorem getAllHits_move (T : Tf ℝ) (acc : Account ℝ) : (acc.move T).getAllHits = acc.getAllHits.map fun p => (p.1, p.2.map T.point) := by
  have hfil : (acc.hits.map (List.map T.point)).filter (fun l => ! l.isEmpty) =
      (acc.hits.filter fun l => ! l.isEmpty).map (List.map T.point) := by
    rw [List.filter_map]
    congr 1
    apply List.filter_congr
    intro l _
    simp [Function.comp]
  unfold Account.getAllHits Account.move
  simp only [hfil]
  split
  · rfl
  · simp only [List.isEmpty_map]
    split
    · rfl
    · simp only [Except.map, List.map_flatten]

section
variable {g0 : Geometry ℝ E} (hg0 : PlainGeometry g0) {dishEff pos x y depth eff : ℝ} (hx : 0 < x) (hy : 0 < y) (hd : 0 < depth)
  {get : σ → Account ℝ} {set : Account ℝ → σ → σ} {junk : M3 ℝ} {T : Tf ℝ} (hT : T.Rigid) {a : SceneAsm σ ℝ E}
  (h : homogenizedLocalReceiver (Surface.new g0 (reflective (1 - dishEff)) 1) pos (x, y) depth eff get set junk = .ok a)

include hg0 hx hy hd hT h in
theorem collector_follows (hm : Memory get set) (w : σ) (b : Bundle ℝ E) (reps : Nat) (minE : ℝ) (keep : Bool) :
    rayTracer (a.set (.transform T)).scene (set ((get w).move T) w) (b.map (Ray.move T)) reps minE keep =
      (rayTracer a.scene w b reps minE keep).map (TraceResult.move T fun w => set ((get w).move T) w) := by
  obtain ⟨hsync, hown, hhome⟩ := collector_home _ _ _ _ _ _ _ _ _ h
  obtain ⟨a', ha, hlib, hplain, _⟩ := collector_library (Surface.new g0 (reflective (1 - dishEff)) 1 : SceneSurf σ ℝ E) hg0 (.mirror _)
    Tf.Rigid.one pos hx hy hd eff get set junk Tf.Rigid.one
  rw [h] at ha
  cases ha
  have hget : ∀ w, get (set ((get w).move T) w) = (get w).move T := fun w => hm.get_set _ _
  have hset : ∀ acc w, set ((get (set acc w)).move T) (set acc w) = set (acc.move T) (set ((get w).move T) w) := by
    intro acc w
    rw [hm.get_set, hm.set_set, hm.set_set]
  have hopt := collector_surfs (Surface.new g0 (reflective (1 - dishEff)) 1) pos hx hy hd eff get set junk 1 h
    (Optics.MovesWith T fun w => set ((get w).move T) w) (C70_one_sided hT _ _) (C70_receiver _ hget hset (C70_reflective hT _ _))
    (C70_reflective hT _ _) (C70_reflective hT _ _)
  have := C70_motion hT hsync (ψ := fun w => set ((get w).move T) w)
    (by rw [hhome]; exact hlib.rigid) (by rw [hhome]; exact fun o ho s hs => plain_equivariant (hplain o ho s hs)) (by rw [hhome]; exact hopt)
    (by
      rw [hhome]
      intro o ho
      rcases hlib.policies o ho with hp | hp <;> rw [hp]
      · exact (C70_policies T _).1
      · exact (C70_policies T _).2)
    w b reps minE keep
  rw [hown, Tf.mul_one'] at this
  exact this

include hx hy hd hT h in
theorem collector_picture (sides : ℝ × ℝ) (bins : Nat) (acc : Account ℝ) :
    collectorHistogram (a.set (.transform T)) sides bins (acc.move T) = collectorHistogram a sides bins acc := by
  obtain ⟨_, _, hhome⟩ := collector_home _ _ _ _ _ _ _ _ _ h
  have key : ∀ S : Tf ℝ, ∃ g, ((a.set (.transform S)).getObjects[4]?).bind (fun o => o.surfs[0]?) =
      some ⟨1, S * (translate 0 0 pos * rotx π) * 1, (g, reflectiveReceiver 1 get set)⟩ := by
    intro S
    obtain ⟨a', g, ha, hg, walls, rec, refl, ho, hwl, _, hr, _⟩ := collector_objects
      (Surface.new g0 (reflective (1 - dishEff)) 1 : SceneSurf σ ℝ E) pos hx hy hd eff get set junk S
    rw [h] at ha
    cases ha
    refine ⟨g, ?_⟩
    rw [ho, List.getElem?_append_right (by omega), hwl]
    simp [hr]
  unfold collectorHistogram
  obtain ⟨g, e⟩ := key T
  obtain ⟨g', e'⟩ := key 1
  rw [hhome, e, e']
  simp only [Tf.mul_one', Tf.one_mul']
  have hF := receiverFrame_rigid pos
  generalize translate 0 0 pos * rotx π = F at *
  unfold histogramHits
  rw [getAllHits_move]
  cases acc.getAllHits with
  | error e => rfl
  | ok p =>
    obtain ⟨es, ps⟩ := p
    simp only [Except.map, globalToLocal, if_neg (M3.IsRotation.det_ne (hT.mul hF)), if_neg (M3.IsRotation.det_ne hF), List.map_map]
    have : ((fun p => ((T * F).inv.point p, (1 : ℝ))) ∘ T.point) = fun p => (F.inv.point p, 1) := by
      funext p
      simp only [Function.comp]
      rw [inv_point_move hT hF]
    rw [this]

end

/-- C103: a `MiniDish` or `PETAL` collector that is put anywhere, whatever it went through before, and light that is moved with it: the trace is
the one in the place of its construction, moved.  The receiver's memory moves likewise. -/
theorem C103_trace {diameter focal side depth aspect : ℝ} (hdia : 0 < diameter) (hf : 0 < focal) (hs : 0 < side) (hd : 0 < depth)
    (ha : 0 < aspect) {dishEff homogEff pos : ℝ} {get : σ → Account ℝ} {set : Account ℝ → σ → σ} (hm : Memory get set) {junk : M3 ℝ}
    {a : SceneAsm σ ℝ E} (hmade : miniDish diameter focal dishEff pos side depth homogEff aspect get set junk = .ok a ∨
      petal diameter focal dishEff pos side depth homogEff aspect get set junk = .ok a)
    {T : Tf ℝ} (hT : T.Rigid) (before : List (Tf ℝ)) (w : σ) (b : Bundle ℝ E) (reps : Nat) (minE : ℝ) (keep : Bool) :
    rayTracer (a.turned before T).scene (set ((get w).move T) w) (b.map (Ray.move T)) reps minE keep =
      (rayTracer a.scene w b reps minE keep).map (TraceResult.move T fun w => set ((get w).move T) w) := by
  rw [turned_eq]
  rcases hmade with h | h
  · exact collector_follows (.dish _ _ hdia hf) hs (mul_pos hs ha) hd hT h hm w b reps minE keep
  · exact collector_follows (.hexagonal _ _ hdia hf) hs (mul_pos hs ha) hd hT h hm w b reps minE keep

/-- C103: and its receiver, which was cleared, absorbs the same amounts, and `histogram_hits` gives the same picture. -/
theorem C103_picture {diameter focal side depth aspect : ℝ} (hdia : 0 < diameter) (hf : 0 < focal) (hs : 0 < side) (hd : 0 < depth)
    (ha : 0 < aspect) {dishEff homogEff pos : ℝ} {get : σ → Account ℝ} {set : Account ℝ → σ → σ} (hm : Memory get set) {junk : M3 ℝ}
    {a : SceneAsm σ ℝ E} (hmade : miniDish diameter focal dishEff pos side depth homogEff aspect get set junk = .ok a ∨
      petal diameter focal dishEff pos side depth homogEff aspect get set junk = .ok a)
    {T : Tf ℝ} (hT : T.Rigid) (before : List (Tf ℝ)) {w : σ} (hw : get w = Account.reset) {b : Bundle ℝ E} {reps : Nat} {minE : ℝ}
    {keep : Bool} {res : TraceResult σ ℝ E} (h : rayTracer a.scene w b reps minE keep = .ok res) :
    ∃ res', rayTracer (a.turned before T).scene w (b.map (Ray.move T)) reps minE keep = .ok res' ∧
      (get res'.world).absorbed = (get res.world).absorbed ∧
      (get res'.world).hits = (get res.world).hits.map (List.map T.point) ∧
      ∀ bins, collectorHistogram (a.turned before T) (side, side * aspect) bins (get res'.world) =
        collectorHistogram a (side, side * aspect) bins (get res.world) := by
  have hclear : set ((get w).move T) w = w := by
    have : (get w).move T = get w := by rw [hw]; rfl
    rw [this, hm.set_get]
  have := C103_trace hdia hf hs hd ha hm hmade hT before w b reps minE keep
  rw [hclear, h] at this
  refine ⟨_, this, ?_, ?_, ?_⟩
  · simp only [TraceResult.move, hm.get_set, Account.move]
  · simp only [TraceResult.move, hm.get_set, Account.move]
  · intro bins
    simp only [TraceResult.move, hm.get_set]
    rw [turned_eq]
    rcases hmade with h | h
    · exact collector_picture hs (mul_pos hs ha) hd hT h _ bins _
    · exact collector_picture hs (mul_pos hs ha) hd hT h _ bins _

/-- C103: a collector that points at the sun, wherever it is, brings the rays that come along its axis beside its receiver to the receiver, and
reports for each what C86 says, at the place that moved with it. -/
theorem C103_minidish {diameter focal dishEff receiverPos side depth homogEff aspect minE : ℝ} (hD : 0 < diameter) (hs : 0 < side)
    (hd : 0 < depth) (ha : 0 < aspect) (h4 : diameter < 4 * focal) (hlo : diameter ^ 2 / (16 * focal) ≤ receiverPos - depth) (hde : 0 ≤ dishEff)
    (h0 : 0 ≤ homogEff) (h1 : homogEff ≤ 1) (hm : 0 ≤ minE) {get : σ → Account ℝ} {set : Account ℝ → σ → σ} (hmem : Memory get set)
    {w : σ} (hw : get w = Account.reset) (junk : M3 ℝ) {T : Tf ℝ} (hT : T.Rigid) (before : List (Tf ℝ)) {b : Bundle ℝ E} {reps : Nat}
    (hin : ∀ r ∈ b, ComesDown side (side * aspect) (receiverPos - depth) receiverPos focal
      (fun q => q.x ^ 2 + q.y ^ 2 ≤ (diameter / 2) ^ 2) r.vertex r.dir)
    (hen : ∀ r ∈ b, 0 ≤ r.energy ∧ minE < r.energy * dishEff *
        homogEff ^ reflections side (side * aspect) (crossing receiverPos (dishPoint focal r.vertex) (dishDir focal r.vertex)) ∧
      reflections side (side * aspect) (crossing receiverPos (dishPoint focal r.vertex) (dishDir focal r.vertex)) + 2 ≤ reps) :
    ∃ a res es ps, miniDish diameter focal dishEff receiverPos side depth homogEff aspect get set junk = .ok a ∧
      rayTracer (a.turned before T).scene w (b.map (Ray.move T)) reps minE true = .ok res ∧
      (get res.world).getAllHits = .ok (es, ps) ∧ es.length = ps.length ∧
      (es.zip ps).Perm (b.map fun r =>
        (r.energy * dishEff * homogEff ^ reflections side (side * aspect) (crossing receiverPos (dishPoint focal r.vertex) (dishDir focal r.vertex)),
          T.point (foldPoint side (side * aspect) (crossing receiverPos (dishPoint focal r.vertex) (dishDir focal r.vertex))))) := by
  obtain ⟨a, res, es, ps, h2, h3, h5, h6, h7⟩ := C86_minidish (b := b) (w := w) hD hs hd ha h4 hlo hde h0 h1 hm hmem.get_set hw junk hin hen
  obtain ⟨res', e1, e2, e3, _⟩ := C103_picture hD (by linarith) hs hd ha hmem (.inl h2) hT before hw h3
  refine ⟨a, res', es, ps.map T.point, h2, e1, ?_, by rw [List.length_map]; exact h6, ?_⟩
  · have hmove : get res'.world = (get res.world).move T := by
      cases hg : get res'.world
      rw [hg] at e2 e3
      unfold Account.move
      rw [← e2, ← e3]
    rw [hmove, getAllHits_move, h5]
    rfl
  · have hz : es.zip (ps.map T.point) = (es.zip ps).map fun p => (p.1, T.point p.2) := by
      rw [List.zip_map_right]
      rfl
    rw [hz]
    have := h7.map fun p : ℝ × V3 ℝ => (p.1, T.point p.2)
    rwa [List.map_map] at this

namespace Examples

/-- Memories: the whole state, and one of two. -/
example : Memory (σ := Account ℝ) id (fun a _ => a) := ⟨fun _ _ => rfl, fun _ _ _ => rfl, fun _ => rfl⟩

example : Memory (σ := Account ℝ × Account ℝ) Prod.snd (fun a w => (w.1, a)) := ⟨fun _ _ => rfl, fun _ _ _ => rfl, fun _ => rfl⟩

/-- The ray of the example to `C86_minidish`, in a collector that was turned before and then put elsewhere. -/
example : ∃ a res es ps, miniDish 2 1 (9 / 10) (121 / 100) (1 / 5) (21 / 100) (1 / 2) 1 id (fun acc _ => acc) (1 : M3 ℝ) = .ok a ∧
    rayTracer (a.turned [rotx 1, roty 2] (translate 1 2 3 * rotx 4)).scene (Account.reset : Account ℝ)
      ([(⟨⟨4 / 5, 0, 2⟩, ⟨0, 0, -1⟩, 10, 0, none, ()⟩ : Ray ℝ Unit)].map (Ray.move (translate 1 2 3 * rotx 4))) 3 1 true = .ok res ∧
    res.world.getAllHits = .ok (es, ps) ∧ es = [9 / 2] ∧ ps = [(translate 1 2 3 * rotx 4).point ⟨0, 0, 121 / 100⟩] := by
  have hcr : crossing (121 / 100) (dishPoint 1 ⟨4 / 5, 0, 2⟩) (dishDir 1 ⟨4 / 5, 0, 2⟩) = ⟨-1 / 5, 0, 121 / 100⟩ := by
    rw [dishPoint_example, dishDir_example, crossing_example]
  have hT : (translate 1 2 3 * rotx 4).Rigid := ((C26_rigid 4 1 2 3).2.2.2.1).mul (C26_rigid 4 0 0 0).1
  obtain ⟨a, res, es, ps, h1, h2, h3, h4, h5⟩ := C103_minidish (get := id) (set := fun acc (_ : Account ℝ) => acc) (diameter := 2) (focal := 1)
    (dishEff := 9 / 10) (receiverPos := 121 / 100) (side := 1 / 5) (depth := 21 / 100) (homogEff := 1 / 2) (aspect := 1) (minE := 1)
    (reps := 3) (w := Account.reset) (b := [(⟨⟨4 / 5, 0, 2⟩, ⟨0, 0, -1⟩, 10, 0, none, ()⟩ : Ray ℝ Unit)])
    (by norm_num) (by norm_num) (by norm_num) (by norm_num) (by norm_num) (by norm_num) (by norm_num) (by norm_num) (by norm_num) (by norm_num)
    ⟨fun _ _ => rfl, fun _ _ _ => rfl, fun _ => rfl⟩ rfl 1 hT [rotx 1, roty 2]
    (by
      intro r hr
      rw [List.mem_singleton] at hr
      subst hr
      have := comesDown_example (S := fun q => q.x ^ 2 + q.y ^ 2 ≤ ((2 : ℝ) / 2) ^ 2) (by norm_num) (H := 21 / 100) (by norm_num) (by norm_num)
      norm_num at this ⊢
      exact this)
    (by
      intro r hr
      rw [List.mem_singleton] at hr
      subst hr
      simp only [hcr, mul_one, fold_example.2]
      norm_num)
  refine ⟨a, res, es, ps, h1, h2, h3, ?_⟩
  simp only [List.map_cons, List.map_nil, hcr, mul_one, fold_example.1, fold_example.2] at h5
  have h6 := List.perm_singleton.1 h5
  have e1 := congrArg (List.map Prod.fst) h6
  have e2 := congrArg (List.map Prod.snd) h6
  rw [List.map_fst_zip h4.le] at e1
  rw [List.map_snd_zip h4.ge] at e2
  refine ⟨?_, ?_⟩
  · rw [e1]; norm_num
  · rw [e2]; rfl

end Examples

end Tracer
