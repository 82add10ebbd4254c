import Verif.Spec.Tower
import Verif.Lemmas.Relay
import Verif.Props.Heliostats
import Verif.Props.Progress
import Verif.Props.Histogram

/-!
# A heliostat field sends the light of the sun to its receiver (C85)

The plant of `examples/tower_gui.py`, from its construction over the trace to what the receiver reports.
-/

set_option linter.unusedSectionVars false

namespace Tracer

open Real

variable {E σ : Type _}

/-! ### What the engine is given -/

/-- A heliostat as the engine sees it. -/
noncomputable def aimedObj (g : Geometry ℝ E) (absorpt az el H : ℝ) (p : V3 ℝ) : Obj σ ℝ E :=
  ⟨[mkSurf g (absorberReflector absorpt) (aimTransform az el H p)], Obj.defaultOwn, Obj.skipNext 1⟩

/-- The receiver as the engine sees it. -/
noncomputable def receiverObj (g : Geometry ℝ E) (F : Tf ℝ) (get : σ → Account ℝ) (set : Account ℝ → σ → σ) : Obj σ ℝ E :=
  ⟨[mkSurf g (reflectiveReceiver 1 get set) F, mkSurf g (reflective 1) (F * ⟨1, ⟨0, 0, -(1 / 10 ^ 10)⟩⟩)],
    Obj.defaultOwn, Obj.skipNext 2⟩

theorem IsHelio.transform {g : Geometry ℝ E} {a : ℝ} {o : SceneObj σ ℝ E} (h : IsHelio g a o) (T : Tf ℝ) :
    IsHelio g a (o.transformChildren T) := by
  obtain ⟨⟨frame, hs⟩, hd⟩ := h
  exact ⟨⟨_, by unfold ObjNode.transformChildren; rw [hs]; rfl⟩, hd⟩

theorem tower_scene {positions : List (V3 ℝ)} {W L a th x y : ℝ} {g g' : Geometry ℝ E} (hg : rectPlateGM W L = .ok g)
    (hg' : rectPlateGM x y = .ok g') (F : Tf ℝ) (get : σ → Account ℝ) (set : Account ℝ → σ → σ) (junk junk' : M3 ℝ)
    (ops : List HelioOp) (az el : ℝ) :
    ∃ t : Tower σ E, Tower.new positions W L a th x y F get set junk junk' = .ok t ∧
      (t.onField (runHelio (ops ++ [.aim az el]))).plant.getObjects =
        positions.map (fun p => (⟨aimTransform az el (heightAfter th ops) p,
          [⟨1, aimTransform az el (heightAfter th ops) p, (g, absorberReflector a)⟩], (Obj.defaultOwn, Obj.skipNext 1)⟩ : SceneObj σ ℝ E)) ++
        [⟨F, [⟨1, F, (g', reflectiveReceiver 1 get set)⟩,
          ⟨⟨1, ⟨0, 0, -(1 / 10 ^ 10)⟩⟩, F * ⟨1, ⟨0, 0, -(1 / 10 ^ 10)⟩⟩, (g', reflective 1)⟩], (Obj.defaultOwn, Obj.skipNext 2)⟩] := by
  obtain ⟨f, h1, h2, h3, _⟩ := new_inv (σ := σ) (a := a) (th := th) hg positions junk
  have hrec : (oneSidedReceiver (E := E) x y 1 get set) = .ok
      (Surface.new g' (reflectiveReceiver 1 get set) 1,
       ObjNode.new [Surface.new g' (reflectiveReceiver 1 get set) 1, Surface.new g' (reflective 1) ⟨1, ⟨0, 0, -(1 / 10 ^ 10)⟩⟩] 1
        (Obj.defaultOwn, Obj.skipNext 2)) := by
    unfold oneSidedReceiver; rw [hg']
  refine ⟨_, by unfold Tower.new; rw [h1, hrec], ?_⟩
  obtain ⟨pos, aimHeight, asm⟩ := f
  obtain ⟨i1, i2, i3, i4, i5⟩ := h2
  cases asm with
  | mk own subs objs =>
    simp only [Asm.own, Asm.subs, Asm.objs] at i1 i2 i3 i4 i5 h3
    subst i1 i2 i3 h3
    have hnew : Asm.new [(ObjNode.new [Surface.new g' (reflectiveReceiver 1 get set) 1,
          Surface.new g' (reflective 1) ⟨1, ⟨0, 0, -(1 / 10 ^ 10)⟩⟩] 1 (Obj.defaultOwn, Obj.skipNext 2) : SceneObj σ ℝ E).set (.transform F)]
        [.mk 1 [] objs] 0 1 junk' =
        .mk 1 [.mk 1 [] (objs.map (·.transformChildren 1))]
          [⟨F, [⟨1, F, (g', reflectiveReceiver 1 get set)⟩,
            ⟨⟨1, ⟨0, 0, -(1 / 10 ^ 10)⟩⟩, F * ⟨1, ⟨0, 0, -(1 / 10 ^ 10)⟩⟩, (g', reflective 1)⟩], (Obj.defaultOwn, Obj.skipNext 2)⟩] := by
      unfold Asm.new Asm.set
      simp only [Asm.transformChildren, Asm.set, Change.apply, Asm.transformAll, List.map_cons, List.map_nil, List.map_map,
        ObjNode.new, ObjNode.set, ObjNode.transformChildren, SurfNode.transformFrame, Surface.new, Function.comp_def]
      have e : (1 : Tf ℝ) * ⟨1, 0⟩ = 1 := Tf.one_mul' _
      have e1 : (⟨1, 0⟩ : Tf ℝ) = 1 := rfl
      simp only [e, e1, Tf.one_mul', Tf.mul_one']
    rw [hnew]
    have hinv : HelioInv g a pos (⟨pos, aimHeight, .mk 1 [] (objs.map (·.transformChildren 1))⟩ : HelioField σ E) := by
      refine ⟨rfl, rfl, rfl, ?_, ?_⟩
      · simpa [Asm.objs] using i4
      · intro o ho
        obtain ⟨o', ho', rfl⟩ := List.mem_map.1 ho
        exact (i5 o' ho').transform 1
    obtain ⟨hinv2, hh⟩ := runHelio_inv ops hinv
    have he : runHelio (ops ++ [.aim az el]) (⟨pos, aimHeight, .mk 1 [] (objs.map (·.transformChildren 1))⟩ : HelioField σ E) =
        (runHelio ops ⟨pos, aimHeight, .mk 1 [] (objs.map (·.transformChildren 1))⟩).aimToSun az el := by
      unfold runHelio; rw [List.foldl_append]; rfl
    unfold Tower.onField
    simp only
    rw [he]
    unfold Asm.getObjects
    simp only [Asm.getObjectsAll, List.append_nil]
    rw [(hinv2.aim az el).getObjects]
    congr 1
    generalize runHelio ops (⟨pos, aimHeight, .mk 1 [] (objs.map (·.transformChildren 1))⟩ : HelioField σ E) = f2 at hinv2 hh
    show List.zipWith _ f2.asm.objs f2.pos = _
    rw [hh, hinv2.pos]
    refine List.ext_getElem ?_ ?_
    · rw [List.length_zipWith, hinv2.length, Nat.min_self, List.length_map]
    · intro i hi1 hi2
      rw [List.getElem_zipWith, List.getElem_map]
      exact ((hinv2.objs _ (List.getElem_mem _)).set _).1

/-! ### Plates -/

theorem single_of_find {g : Geometry ℝ E} {opt : Optics σ ℝ E} {frame : Tf ℝ} {r : Ray ℝ E} {q : WithTop ℝ}
    (h : (g.find frame [r])[0]? = some q) : (mkSurf g opt frame).single r = q := by
  unfold Surf.single mkSurf
  simp only
  cases hl : g.find frame [r] with
  | nil => rw [hl] at h; simp at h
  | cons a l => rw [hl] at h; simpa using h

theorem placed_plane {frame : Tf ℝ} (hf : frame.Rigid) {W L : ℝ} {q : V3 ℝ} (h : Placed frame (rectXY W L) q) :
    V3.dot (q - frame.loc) frame.rot.c3 = 0 := by
  obtain ⟨a, ⟨ha, _⟩, rfl⟩ := h
  have hio := (M3.isRotation_iff _).1 hf
  have h13 := hio.1.2.2.2.2.1
  have h23 := hio.1.2.2.2.2.2
  unfold V3.dot at h13 h23 ⊢
  unfold Tf.point
  simp only [V3.sub_x, V3.sub_y, V3.sub_z, V3.add_x, V3.add_y, V3.add_z, M3.mulVec_x, M3.mulVec_y, M3.mulVec_z, ha]
  linear_combination a.x * h13 + a.y * h23

/-- Where a plate is met, it is. -/
theorem plate_on {W L : ℝ} {g : Geometry ℝ E} (hg : rectPlateGM W L = .ok g) {frame : Tf ℝ} (hf : frame.Rigid)
    {opt : Optics σ ℝ E} {r : Ray ℝ E} {t : ℝ} (h : (mkSurf g opt frame).single r = (t : WithTop ℝ)) :
    0 ≤ t ∧ Placed frame (rectXY W L) (r.vertex + t • r.dir) := by
  obtain ⟨q, h1, h2, h3⟩ := C31_rect_plate hf hg [r] 0 r rfl
  rw [single_of_find h1] at h
  subst h
  rcases lt_or_ge (1 / 10 ^ 10) |V3.dot r.dir frame.rot.c3| with hc | hc
  · obtain ⟨e1, e2, _⟩ := h2 hc
    exact ⟨e1, e2⟩
  · exact absurd (h3 hc) (WithTop.coe_ne_top)

/-- Where a plate is, it is met, unless the ray is nearly parallel to it. -/
theorem plate_met {W L : ℝ} {g : Geometry ℝ E} (hg : rectPlateGM W L = .ok g) {frame : Tf ℝ} (hf : frame.Rigid)
    {opt : Optics σ ℝ E} {r : Ray ℝ E} {t : ℝ} (hc : 1 / 10 ^ 10 < |V3.dot r.dir frame.rot.c3|) (ht : 0 ≤ t)
    (h : Placed frame (rectXY W L) (r.vertex + t • r.dir)) : (mkSurf g opt frame).single r = (t : WithTop ℝ) := by
  obtain ⟨q, h1, h2, _⟩ := C31_rect_plate hf hg [r] 0 r rfl
  rw [single_of_find h1]
  have hfirst := h2 hc
  cases q with
  | top => exact absurd h (hfirst t ht)
  | coe u =>
    obtain ⟨_, hu, _⟩ := hfirst
    congr 1
    have p1 := placed_plane hf hu
    have p2 := placed_plane hf h
    have hz : (u - t) * V3.dot r.dir frame.rot.c3 = 0 := by
      unfold V3.dot at p1 p2 ⊢
      simp only [V3.sub_x, V3.sub_y, V3.sub_z, V3.add_x, V3.add_y, V3.add_z, V3.smul_x, V3.smul_y, V3.smul_z] at p1 p2
      linear_combination p1 - p2
    rcases mul_eq_zero.1 hz with h0 | h0
    · linarith
    · rw [h0, abs_zero] at hc
      norm_num at hc

/-- A plate that does not lie on the way to a point is met, if at all, behind the point. -/
theorem plate_clear {W L : ℝ} {g : Geometry ℝ E} (hg : rectPlateGM W L = .ok g) {frame : Tf ℝ} (hf : frame.Rigid)
    {opt : Optics σ ℝ E} {r : Ray ℝ E} {t t' : ℝ} {p : V3 ℝ} (ht : 0 < t) (hp : r.vertex + t • r.dir = p)
    (hclear : Clear (Placed frame (rectXY W L)) r.vertex p) (h : (mkSurf g opt frame).single r = (t' : WithTop ℝ)) : t < t' := by
  obtain ⟨h0, h1⟩ := plate_on hg hf h
  by_contra hle
  push Not at hle
  refine hclear (t' / t) (by positivity) ((div_le_one ht).2 hle) ?_
  have : r.vertex + (t' / t) • (p - r.vertex) = r.vertex + t' • r.dir := by
    subst hp
    apply V3.ext <;> simp <;> field_simp
  rw [this]
  exact h1

/-! ### The sites of the plant -/

theorem tower_sites {S : V3 ℝ → Surf σ ℝ E} {f b : Surf σ ℝ E} (positions : List (V3 ℝ)) {own next own' next'} :
    sites (positions.map (fun p => (⟨[S p], own, next⟩ : Obj σ ℝ E)) ++ [⟨[f, b], own', next'⟩]) =
      positions.zipIdx.map (fun z => (⟨z.2, 0, S z.1⟩ : Site σ ℝ E)) ++
        [⟨positions.length, 0, f⟩, ⟨positions.length, 1, b⟩] := by
  unfold sites
  rw [List.zipIdx_append, List.flatMap_append, List.zipIdx_map, List.flatMap_map, List.length_map]
  congr 1
  · rw [← List.flatMap_pure_eq_map]
    rfl
  · simp

theorem tower_policy {objs : List (Obj σ ℝ E)} (h : ∀ o ∈ objs, o.next = Obj.skipNext o.surfs.length) {o : Nat} (ho : o < objs.length) :
    plainPolicy objs o = Policy.skip := by
  unfold plainPolicy
  exact if_pos ⟨objs[o], List.getElem?_eq_getElem ho, h _ (List.getElem_mem ho)⟩

theorem alone_of_outgoing {s : Surf σ ℝ E} {w w' : σ} {r out : Ray ℝ E} (h : s.outgoing w [r] [0] = .ok ([out], w')) :
    s.alone w r = [out] := by
  unfold Surf.alone
  rw [h]

section
variable {positions : List (V3 ℝ)} {W L absorpt x y az el H : ℝ} {F : Tf ℝ} {b : Bundle ℝ E} {minE : ℝ}
  {g g' : Geometry ℝ E} {get : σ → Account ℝ} {set : Account ℝ → σ → σ}

/-- The plant as the engine sees it. -/
noncomputable def plantObjs (positions : List (V3 ℝ)) (g g' : Geometry ℝ E) (absorpt az el H : ℝ) (F : Tf ℝ) (get : σ → Account ℝ)
    (set : Account ℝ → σ → σ) : List (Obj σ ℝ E) :=
  positions.map (aimedObj g absorpt az el H) ++ [receiverObj g' F get set]

theorem plant_sites : sites (plantObjs positions g g' absorpt az el H F get set) =
    positions.zipIdx.map (fun z => (⟨z.2, 0, mkSurf g (absorberReflector absorpt) (aimTransform az el H z.1)⟩ : Site σ ℝ E)) ++
      [⟨positions.length, 0, mkSurf g' (reflectiveReceiver 1 get set) F⟩,
       ⟨positions.length, 1, mkSurf g' (reflective 1) (F * ⟨1, ⟨0, 0, -(1 / 10 ^ 10)⟩⟩)⟩] :=
  tower_sites positions

theorem plant_skip : ∀ o ∈ plantObjs positions g g' absorpt az el H F get set, o.next = Obj.skipNext o.surfs.length := by
  intro o ho
  rcases List.mem_append.1 ho with ho | ho
  · obtain ⟨p, _, rfl⟩ := List.mem_map.1 ho
    rfl
  · rw [List.mem_singleton] at ho
    subst ho
    rfl

theorem plant_site {z : Site σ ℝ E} (hz : z ∈ sites (plantObjs positions g g' absorpt az el H F get set)) :
    (∃ (j : Nat) (q : V3 ℝ), positions[j]? = some q ∧ z = ⟨j, 0, mkSurf g (absorberReflector absorpt) (aimTransform az el H q)⟩) ∨
    z = ⟨positions.length, 0, mkSurf g' (reflectiveReceiver 1 get set) F⟩ ∨
    z = ⟨positions.length, 1, mkSurf g' (reflective 1) (F * ⟨1, ⟨0, 0, -(1 / 10 ^ 10)⟩⟩)⟩ := by
  rw [plant_sites] at hz
  rcases List.mem_append.1 hz with hz | hz
  · obtain ⟨u, hu, rfl⟩ := List.mem_map.1 hz
    have := List.mem_zipIdx hu
    left
    refine ⟨u.2, u.1, ?_, rfl⟩
    rw [this.2.2]
    simp
  · simp only [List.mem_cons, List.not_mem_nil, or_false] at hz
    exact Or.inr hz

theorem back_rigid (hF : F.Rigid) : (F * ⟨1, ⟨0, 0, -(1 / 10 ^ 10)⟩⟩ : Tf ℝ).Rigid ∧
    (F * ⟨1, ⟨0, 0, -(1 / 10 ^ 10)⟩⟩ : Tf ℝ).rot.c3 = F.rot.c3 ∧
    (F * ⟨1, ⟨0, 0, -(1 / 10 ^ 10)⟩⟩ : Tf ℝ).loc = F.loc - (1 / 10 ^ 10 : ℝ) • F.rot.c3 := by
  refine ⟨Tf.Rigid.mul hF Tf.Rigid.one, ?_, ?_⟩
  · have : (F * ⟨1, ⟨0, 0, -(1 / 10 ^ 10)⟩⟩ : Tf ℝ).rot = F.rot * 1 := rfl
    rw [this, M3.mul_one']
  · have : (F * ⟨1, ⟨0, 0, -(1 / 10 ^ 10)⟩⟩ : Tf ℝ).loc = F.rot.mulVec ⟨0, 0, -(1 / 10 ^ 10)⟩ + F.loc := rfl
    rw [this]
    apply V3.ext <;> simp <;> ring

/-- The rays of the source meet their heliostats only. -/
theorem source_only (hW : 0 < W) (hL : 0 < L) (hg : rectPlateGM W L = .ok g) (hg' : rectPlateGM x y = .ok g')
    (D : Delivery positions W L absorpt x y az el H F b minE) {i : Nat} {r : Ray ℝ E} {p : V3 ℝ} (hr : b[i]? = some r)
    (hp : positions[i]? = some p) (w : σ) :
    ∃ t out, (⟨r, none⟩ : Going ℝ E).Only Surf.single (plainPolicy (plantObjs positions g g' absorpt az el H F get set))
        (sites (plantObjs positions g g' absorpt az el H F get set))
        ⟨i, 0, mkSurf g (absorberReflector absorpt) (aimTransform az el H p)⟩ t ∧
      (mkSurf g (absorberReflector absorpt) (aimTransform az el H p)).alone w r = [out] ∧ out.vertex = p ∧
        out.dir = toward p ⟨0, 0, H⟩ ∧ out.energy = r.energy * (1 - absorpt) := by
  obtain ⟨⟨hdir, t, ht, hcen⟩, _⟩ := D.arrive i r p hr hp
  obtain ⟨hd, hfar, _⟩ := D.place p (List.mem_of_getElem? hp)
  have ht0 : 0 < t := lt_trans (by norm_num) ht
  have hne : p ≠ ⟨0, 0, H⟩ := by
    rintro rfl
    have : V3.dist2 (⟨0, 0, H⟩ : V3 ℝ) ⟨0, 0, H⟩ = 0 := by unfold V3.dist2 V3.dot; simp
    rw [this] at hd
    norm_num at hd
  obtain ⟨h1, out, h2, h3, h4, h5⟩ := aimed_plate (σ := σ) hW hL hg absorpt az el H p ⟨0, 0, H⟩ (solarVector az el) rfl rfl hne hfar
    [r] 0 r t w rfl hdir ht0.le hcen
  have hdrop : (dropTol : ℝ) < t := by unfold dropTol; exact ht
  refine ⟨t, out, ⟨?_, ?_, single_of_find h1, hdrop, ?_⟩, alone_of_outgoing h2, h3, h4, h5⟩
  · rw [plant_sites]
    refine List.mem_append_left _ (List.mem_map.2 ⟨(p, i), ?_, rfl⟩)
    rw [List.mem_zipIdx_iff_getElem?]
    exact hp
  · intro o j hl
    simp at hl
  · intro z hz hne' _ t' ht' _
    rcases plant_site hz with ⟨j, q, hq, rfl⟩ | rfl | rfl
    · have hij : i ≠ j := by
        rintro rfl
        exact hne' ⟨rfl, rfl⟩
      exact plate_clear hg (aimTransform_rigid az el H q) ht0 hcen (D.clear i j r p q hij hr hp hq).1 ht'
    · exact plate_clear hg' D.rigid ht0 hcen (D.past i r p hr hp).1 ht'
    · exact plate_clear hg' (back_rigid D.rigid).1 ht0 hcen (D.past i r p hr hp).2 ht'

/-- The rays that leave the heliostats meet the receiver only. -/
theorem reflected_only (hx : 0 < x) (hy : 0 < y) (hg : rectPlateGM W L = .ok g) (hg' : rectPlateGM x y = .ok g')
    (D : Delivery positions W L absorpt x y az el H F b minE) {i : Nat} {r : Ray ℝ E} {p : V3 ℝ} (hr : b[i]? = some r)
    (hp : positions[i]? = some p) {q : Ray ℝ E} (hv : q.vertex = p) (hd : q.dir = toward p ⟨0, 0, H⟩) (w : σ) :
    ∃ t out, (⟨q, some (i, 0)⟩ : Going ℝ E).Only Surf.single (plainPolicy (plantObjs positions g g' absorpt az el H F get set))
        (sites (plantObjs positions g g' absorpt az el H F get set))
        ⟨positions.length, 0, mkSurf g' (reflectiveReceiver 1 get set) F⟩ t ∧
      q.vertex + t • q.dir = ⟨0, 0, H⟩ ∧
      (mkSurf g' (reflectiveReceiver 1 get set) F).alone w q = [out] ∧ out.vertex = ⟨0, 0, H⟩ ∧ out.energy = 0 := by
  obtain ⟨hdist, _, hfront⟩ := D.place p (List.mem_of_getElem? hp)
  set d := √(V3.dist2 (⟨0, 0, H⟩ : V3 ℝ) p) with hdd
  have hd6 : 1 / 10 ^ 6 < d := by
    rw [hdd, Real.lt_sqrt (by norm_num)]; exact hdist
  have hd0 : 0 < d := lt_trans (by norm_num) hd6
  have hto : toward p ⟨0, 0, H⟩ = (1 / d) • ((⟨0, 0, H⟩ : V3 ℝ) - p) := rfl
  have hfrom : toward ⟨0, 0, H⟩ p = -toward p ⟨0, 0, H⟩ := by
    have e : V3.dist2 p ⟨0, 0, H⟩ = V3.dist2 ⟨0, 0, H⟩ p := by unfold V3.dist2 V3.dot; simp; ring
    rw [hto]
    unfold toward
    rw [e, ← hdd]
    apply V3.ext <;> simp <;> ring
  have haim : q.vertex + d • q.dir = ⟨0, 0, H⟩ := by
    rw [hv, hd, hto]
    apply V3.ext <;> simp <;> field_simp <;> ring
  have hdot : V3.dot q.dir F.rot.c3 < -(1 / 10 ^ 10) := by
    rw [hfrom] at hfront
    rw [hd]
    have : V3.dot (-toward p ⟨0, 0, H⟩) F.rot.c3 = -V3.dot (toward p ⟨0, 0, H⟩) F.rot.c3 := by
      unfold V3.dot; simp; ring
    rw [this] at hfront
    linarith
  have hneg : V3.dot q.dir F.rot.c3 < 0 := lt_trans hdot (by norm_num)
  have hcentre : Placed F (rectXY x y) (q.vertex + d • q.dir) := by
    rw [haim, ← D.loc]
    refine ⟨0, ⟨rfl, by simp; linarith, by simp; linarith⟩, ?_⟩
    unfold Tf.point
    rw [M3.mulVec_zero]
    apply V3.ext <;> simp
  have hsingle : (mkSurf g' (reflectiveReceiver 1 get set) F).single q = (d : WithTop ℝ) :=
    plate_met hg' D.rigid (by rw [abs_of_neg hneg]; linarith) hd0.le hcentre
  have hlen : (plantObjs positions g g' absorpt az el H F get set).length = positions.length + 1 := by
    unfold plantObjs; simp
  have hil : i < positions.length := (List.getElem?_eq_some_iff.1 hp).1
  have hpol : plainPolicy (plantObjs positions g g' absorpt az el H F get set) i = Policy.skip :=
    tower_policy plant_skip (by rw [hlen]; omega)
  have hrec : hitRecs g' F [q] [0] = .ok [⟨0, q, q.at d, g'.normal F (q.at d) q.dir⟩] := by
    obtain ⟨u, h1, _⟩ := C31_rect_plate D.rigid hg' [q] 0 q rfl
    have := single_of_find (opt := reflectiveReceiver 1 get set) h1
    rw [hsingle] at this
    subst this
    unfold hitRecs
    rw [h1]
    simp only [hitRecs, List.getElem?_cons_zero]
  refine ⟨d, reflectOne 1 ⟨0, q, q.at d, g'.normal F (q.at d) q.dir⟩, ⟨?_, ?_, hsingle, by unfold dropTol; exact hd6, ?_⟩, haim, ?_, haim, ?_⟩
  · rw [plant_sites]
    exact List.mem_append_right _ (by simp)
  · intro o j hl
    simp only [Option.some.injEq, Prod.mk.injEq] at hl
    rw [← hl.1, hpol]
    exact ⟨fun h => absurd h (by simp [Policy.skip]), fun h => absurd h (by simp only; omega)⟩
  · intro z hz hne' hm t' ht' _
    rcases plant_site hz with ⟨j, c, hc, rfl⟩ | rfl | rfl
    · have hij : i ≠ j := by
        rintro rfl
        have := (hm i 0 rfl).2 rfl
        rw [hpol] at this
        simp [Policy.skip] at this
      refine plate_clear hg (aimTransform_rigid az el H c) hd0 haim ?_ ht'
      change Clear _ q.vertex _
      rw [hv]
      exact (D.clear i j r p c hij hr hp hc).2
    · exact absurd ⟨rfl, rfl⟩ hne'
    · obtain ⟨b1, b2, b3⟩ := back_rigid D.rigid
      obtain ⟨_, hon⟩ := plate_on hg' b1 ht'
      have hpl := placed_plane b1 hon
      rw [b2, b3, D.loc, ← haim] at hpl
      have hu : V3.dot F.rot.c3 F.rot.c3 = 1 := ((M3.isRotation_iff _).1 D.rigid).1.2.2.1
      have : (t' - d) * V3.dot q.dir F.rot.c3 + 1 / 10 ^ 10 = 0 := by
        unfold V3.dot at hpl hu ⊢
        simp only [V3.sub_x, V3.sub_y, V3.sub_z, V3.add_x, V3.add_y, V3.add_z, V3.smul_x, V3.smul_y, V3.smul_z] at hpl
        linear_combination hpl - (1 / 10 ^ 10) * hu
      nlinarith
  · refine alone_of_outgoing (w' := set ⟨(get w).absorbed ++ [[q.energy * 1]], (get w).hits ++ [[q.at d]]⟩ w) ?_
    unfold mkSurf
    simp only [hrec]
    rfl
  · change q.energy * (1 - 1) = 0
    ring

/-- The generations of the trace: the rays of the source, those from the heliostats to the receiver, and what the receiver leaves. -/
theorem tower_generations (hW : 0 < W) (hL : 0 < L) (hx : 0 < x) (hy : 0 < y) (hg : rectPlateGM W L = .ok g)
    (hg' : rectPlateGM x y = .ok g') (D : Delivery positions W L absorpt x y az el H F b minE) (hm : 0 ≤ minE) (w : σ) :
    ∃ (R1 R2 : (Ray ℝ E × V3 ℝ) × Nat → Ray ℝ E) (t : (Ray ℝ E × V3 ℝ) × Nat → ℝ),
      (∀ z ∈ (b.zip positions).zipIdx, (R1 z).vertex = z.1.2 ∧ (R1 z).dir = toward z.1.2 ⟨0, 0, H⟩ ∧
        (R1 z).energy = z.1.1.energy * (1 - absorpt) ∧ (R1 z).at (t z) = ⟨0, 0, H⟩ ∧ (R2 z).vertex = ⟨0, 0, H⟩ ∧ (R2 z).energy = 0) ∧
      goingGeneration Surf.single (Surf.alone w) (plainPolicy (plantObjs positions g g' absorpt az el H F get set))
        (sites (plantObjs positions g g' absorpt az el H F get set)) minE b 1 =
          (b.zip positions).zipIdx.map (fun z => ⟨R1 z, some (z.2, 0)⟩) ∧
      goingGeneration Surf.single (Surf.alone w) (plainPolicy (plantObjs positions g g' absorpt az el H F get set))
        (sites (plantObjs positions g g' absorpt az el H F get set)) minE b 2 =
          (b.zip positions).zipIdx.map (fun z => ⟨R2 z, some (positions.length, 0)⟩) ∧
      (∀ k, 2 ≤ k → setOut minE k (goingGeneration Surf.single (Surf.alone w)
        (plainPolicy (plantObjs positions g g' absorpt az el H F get set))
        (sites (plantObjs positions g g' absorpt az el H F get set)) minE b k) = []) ∧
      ∀ reps, 2 ≤ reps → traceHits Surf.single (Surf.alone w) (plainPolicy (plantObjs positions g g' absorpt az el H F get set))
        (sites (plantObjs positions g g' absorpt az el H F get set)) minE b reps
        ⟨positions.length, 0, mkSurf g' (reflectiveReceiver 1 get set) F⟩ = (b.zip positions).zipIdx.map fun z => (R1 z, t z) := by
  classical
  have hmem : ∀ z ∈ (b.zip positions).zipIdx, b[z.2]? = some z.1.1 ∧ positions[z.2]? = some z.1.2 := by
    intro z hz
    rw [List.mem_zipIdx_iff_getElem?] at hz
    exact List.getElem?_zip_eq_some.1 hz
  have h1 : ∀ z : (Ray ℝ E × V3 ℝ) × Nat, ∃ (t : ℝ) (out : Ray ℝ E), z ∈ (b.zip positions).zipIdx →
      (⟨z.1.1, none⟩ : Going ℝ E).Only Surf.single (plainPolicy (plantObjs positions g g' absorpt az el H F get set))
        (sites (plantObjs positions g g' absorpt az el H F get set))
        ⟨z.2, 0, mkSurf g (absorberReflector absorpt) (aimTransform az el H z.1.2)⟩ t ∧
      (mkSurf g (absorberReflector absorpt) (aimTransform az el H z.1.2)).alone w z.1.1 = [out] ∧ out.vertex = z.1.2 ∧
        out.dir = toward z.1.2 ⟨0, 0, H⟩ ∧ out.energy = z.1.1.energy * (1 - absorpt) := by
    intro z
    by_cases hz : z ∈ (b.zip positions).zipIdx
    · obtain ⟨t, out, h⟩ := source_only (get := get) (set := set) hW hL hg hg' D (hmem z hz).1 (hmem z hz).2 w
      exact ⟨t, out, fun _ => h⟩
    · exact ⟨0, z.1.1, fun h => absurd h hz⟩
  choose t1 R1 h1 using h1
  have h2 : ∀ z : (Ray ℝ E × V3 ℝ) × Nat, ∃ (t : ℝ) (out : Ray ℝ E), z ∈ (b.zip positions).zipIdx →
      (⟨R1 z, some (z.2, 0)⟩ : Going ℝ E).Only Surf.single (plainPolicy (plantObjs positions g g' absorpt az el H F get set))
        (sites (plantObjs positions g g' absorpt az el H F get set))
        ⟨positions.length, 0, mkSurf g' (reflectiveReceiver 1 get set) F⟩ t ∧
      (R1 z).vertex + t • (R1 z).dir = ⟨0, 0, H⟩ ∧
      (mkSurf g' (reflectiveReceiver 1 get set) F).alone w (R1 z) = [out] ∧ out.vertex = ⟨0, 0, H⟩ ∧ out.energy = 0 := by
    intro z
    by_cases hz : z ∈ (b.zip positions).zipIdx
    · obtain ⟨_, _, e1, e2, _⟩ := h1 z hz
      obtain ⟨t, out, h⟩ := reflected_only (get := get) (set := set) hx hy hg hg' D (hmem z hz).1 (hmem z hz).2 e1 e2 w
      exact ⟨t, out, fun _ => h⟩
    · exact ⟨0, z.1.1, fun h => absurd h hz⟩
  choose t2 R2 h2 using h2
  have hb : b.map (fun r => (⟨r, none⟩ : Going ℝ E)) = (b.zip positions).zipIdx.map fun z => ⟨z.1.1, none⟩ := by
    have e : b = (b.zip positions).zipIdx.map fun z => z.1.1 := by
      have e1 : (fun z : (Ray ℝ E × V3 ℝ) × Nat => z.1.1) = Prod.fst ∘ Prod.fst := rfl
      rw [e1, ← List.map_map, List.zipIdx_map_fst, List.map_fst_zip D.length.le]
    conv_lhs => rw [e]
    rw [List.map_map]
    rfl
  have hset0 : ∀ l : List (Going ℝ E), setOut minE 0 l = l := fun _ => rfl
  have hg1 : goingGeneration Surf.single (Surf.alone w) (plainPolicy (plantObjs positions g g' absorpt az el H F get set))
        (sites (plantObjs positions g g' absorpt az el H F get set)) minE b 1 =
          (b.zip positions).zipIdx.map (fun z => ⟨R1 z, some (z.2, 0)⟩) := by
    unfold goingGeneration goingGeneration
    rw [hset0, hb, nextGoing_only fun z hz => (h1 z hz).1, ← List.flatMap_pure_eq_map]
    refine List.flatMap_congr fun z hz => ?_
    simp only
    rw [(h1 z hz).2.1]
    rfl
  have hset1 : setOut minE 1 ((b.zip positions).zipIdx.map fun z => (⟨R1 z, some (z.2, 0)⟩ : Going ℝ E)) =
      (b.zip positions).zipIdx.map fun z => ⟨R1 z, some (z.2, 0)⟩ := by
    unfold setOut
    rw [if_neg (by omega), List.filter_eq_self]
    intro q hq
    obtain ⟨z, hz, rfl⟩ := List.mem_map.1 hq
    simp only [decide_eq_true_eq]
    rw [(h1 z hz).2.2.2.2]
    exact (D.arrive _ _ _ (hmem z hz).1 (hmem z hz).2).2
  have hg2 : goingGeneration Surf.single (Surf.alone w) (plainPolicy (plantObjs positions g g' absorpt az el H F get set))
        (sites (plantObjs positions g g' absorpt az el H F get set)) minE b 2 =
          (b.zip positions).zipIdx.map (fun z => ⟨R2 z, some (positions.length, 0)⟩) := by
    rw [goingGeneration, hg1, hset1, nextGoing_only fun z hz => (h2 z hz).1, ← List.flatMap_pure_eq_map]
    refine List.flatMap_congr fun z hz => ?_
    simp only
    rw [(h2 z hz).2.2.1]
    rfl
  have hset2 : setOut minE 2 ((b.zip positions).zipIdx.map fun z => (⟨R2 z, some (positions.length, 0)⟩ : Going ℝ E)) = [] := by
    unfold setOut
    rw [if_neg (by omega), List.filter_eq_nil_iff]
    intro q hq
    obtain ⟨z, hz, rfl⟩ := List.mem_map.1 hq
    simp only [decide_eq_true_eq, not_lt]
    rw [(h2 z hz).2.2.2.2]
    exact hm
  have hlast : ∀ k, 2 ≤ k → setOut minE k (goingGeneration Surf.single (Surf.alone w)
        (plainPolicy (plantObjs positions g g' absorpt az el H F get set))
        (sites (plantObjs positions g g' absorpt az el H F get set)) minE b k) = [] := fun k hk =>
    goingGeneration_empty (k := 2) (by rw [hg2, hset2]) hk
  refine ⟨R1, R2, t2, ?_, hg1, hg2, hlast, ?_⟩
  · intro z hz
    obtain ⟨_, _, a1, a2, a3⟩ := h1 z hz
    obtain ⟨_, b1, _, b2, b3⟩ := h2 z hz
    exact ⟨a1, a2, a3, b1, b2, b3⟩
  · intro reps hreps
    obtain ⟨n, rfl⟩ := Nat.exists_eq_add_of_le hreps
    have hfront : (⟨positions.length, 0, mkSurf g' (reflectiveReceiver 1 get set) F⟩ : Site σ ℝ E) ∈
        sites (plantObjs positions g g' absorpt az el H F get set) := by
      rw [plant_sites]
      exact List.mem_append_right _ (by simp)
    unfold traceHits
    rw [List.range_add, List.flatMap_append]
    have hrest : ((List.range n).map (2 + ·)).flatMap (fun k => goingHits Surf.single
        (plainPolicy (plantObjs positions g g' absorpt az el H F get set)) (sites (plantObjs positions g g' absorpt az el H F get set))
        (setOut minE k (goingGeneration Surf.single (Surf.alone w) (plainPolicy (plantObjs positions g g' absorpt az el H F get set))
          (sites (plantObjs positions g g' absorpt az el H F get set)) minE b k))
        ⟨positions.length, 0, mkSurf g' (reflectiveReceiver 1 get set) F⟩) = [] := by
      rw [List.flatMap_eq_nil_iff]
      intro k hk
      obtain ⟨m, _, rfl⟩ := List.mem_map.1 hk
      rw [hlast _ (by omega)]
      rfl
    rw [hrest, List.append_nil]
    have hr2 : List.range 2 = [0, 1] := rfl
    rw [hr2, List.flatMap_cons, List.flatMap_cons, List.flatMap_nil, List.append_nil, hg1, hset1]
    have e0 : goingGeneration Surf.single (Surf.alone w) (plainPolicy (plantObjs positions g g' absorpt az el H F get set))
        (sites (plantObjs positions g g' absorpt az el H F get set)) minE b 0 = (b.zip positions).zipIdx.map fun z => ⟨z.1.1, none⟩ := hb
    rw [e0, hset0, goingHits_only (fun z hz => (h1 z hz).1) hfront, goingHits_only (fun z hz => (h2 z hz).1) hfront]
    have e1 : ((b.zip positions).zipIdx.flatMap fun z => if positions.length = z.2 ∧ 0 = 0 then
        [((⟨z.1.1, none⟩ : Going ℝ E).ray, t1 z)] else []) = [] := by
      rw [List.flatMap_eq_nil_iff]
      intro z hz
      rw [if_neg]
      rintro ⟨e, _⟩
      have := (List.getElem?_eq_some_iff.1 (hmem z hz).2).1
      omega
    rw [e1, List.nil_append, ← List.flatMap_pure_eq_map]
    refine List.flatMap_congr fun z _ => ?_
    exact if_pos ⟨rfl, rfl⟩

end

/-- `C85_tower`, and what of it does not depend on the receiver's memory. -/
theorem tower_trace {positions : List (V3 ℝ)} {W L absorpt th x y az el : ℝ} {F : Tf ℝ} {b : Bundle ℝ E} {minE : ℝ}
    {get : σ → Account ℝ} {set : Account ℝ → σ → σ} (hW : 0 < W) (hL : 0 < L) (hx : 0 < x) (hy : 0 < y) (junk junk' : M3 ℝ)
    (ops : List HelioOp) (D : Delivery positions W L absorpt x y az el (heightAfter th ops) F b minE) (hm : 0 ≤ minE)
    (w : σ) {reps : Nat} (hreps : 2 ≤ reps) :
    ∃ (t : Tower σ E) (res : TraceResult σ ℝ E),
      Tower.new positions W L absorpt th x y F get set junk junk' = .ok t ∧
      rayTracer (t.onField (runHelio (ops ++ [.aim az el]))).plant.scene w b reps minE true = .ok res ∧
      res.tree[0]? = some b ∧
      (((res.tree[1]?).getD []).map fun r => (r.vertex, r.dir, r.energy)).Perm
        (List.zipWith (fun r p => (p, toward p ⟨0, 0, heightAfter th ops⟩, r.energy * (1 - absorpt))) b positions) ∧
      (((res.tree[2]?).getD []).map fun r => (r.vertex, r.energy)).Perm (b.map fun _ => (⟨0, 0, heightAfter th ops⟩, 0)) ∧
      (∀ k : Nat, 3 ≤ k → (res.tree[k]?).getD [] = []) ∧
      ((∀ acc w, get (set acc w) = acc) → get w = Account.reset → ∃ es ps, (get res.world).getAllHits = .ok (es, ps) ∧ es.Perm (b.map fun r => r.energy * (1 - absorpt)) ∧
        ps = List.replicate b.length ⟨0, 0, heightAfter th ops⟩) := by
  obtain ⟨g, hg⟩ := (C31_constructor (K := ℝ) (E := E) W L).1 ⟨hW, hL⟩
  obtain ⟨g', hg'⟩ := (C31_constructor (K := ℝ) (E := E) x y).1 ⟨hx, hy⟩
  obtain ⟨t, ht, hobjs⟩ := tower_scene (σ := σ) (positions := positions) (a := absorpt) (th := th) hg hg' F get set junk junk' ops az el
  generalize heightAfter th ops = H at D hobjs
  have hscene : (t.onField (runHelio (ops ++ [.aim az el]))).plant.scene = plantObjs positions g g' absorpt az el H F get set := by
    unfold Asm.scene plantObjs
    rw [hobjs, List.map_append, List.map_map]
    rfl
  obtain ⟨R1, R2, tt, hR, hg1, hg2, hlast, hhits⟩ := tower_generations (get := get) (set := set) hW hL hx hy hg hg' D hm w
  have hlib : LibraryScene 1 1 (t.onField (runHelio (ops ++ [.aim az el]))).plant ∧
      (∀ o ∈ (t.onField (runHelio (ops ++ [.aim az el]))).plant.getObjects, ∀ s ∈ o.surfs, PlainGeometry s.data.1 ∧ OpaqueOptics s.data.2) := by
    have hall : ∀ o ∈ (t.onField (runHelio (ops ++ [.aim az el]))).plant.getObjects, ∀ s ∈ o.surfs,
        s.temp.Rigid ∧ PlainGeometry s.data.1 ∧ OpaqueOptics s.data.2 := by
      intro o ho s hs
      rw [hobjs] at ho
      rcases List.mem_append.1 ho with ho | ho
      · obtain ⟨p, _, rfl⟩ := List.mem_map.1 ho
        rw [List.mem_singleton] at hs
        subst hs
        exact ⟨aimTransform_rigid az el H p, .rect _ _ _ hg, .oneSided _⟩
      · rw [List.mem_singleton] at ho
        subst ho
        simp only [List.mem_cons, List.not_mem_nil, or_false] at hs
        rcases hs with rfl | rfl
        · exact ⟨D.rigid, .rect _ _ _ hg', .receiver _ _ _ _ (.mirror _)⟩
        · exact ⟨(back_rigid D.rigid).1, .rect _ _ _ hg', .mirror _⟩
    refine ⟨⟨?_, fun o ho s hs => (hall o ho s hs).1, fun o ho s hs => .plain _ (hall o ho s hs).2.1,
      fun o ho s hs => (hall o ho s hs).2.2.library 1 1, ?_⟩, fun o ho s hs => (hall o ho s hs).2⟩
    · rw [hobjs]
      exact ⟨_, List.mem_append_right _ (List.mem_singleton.2 rfl), by simp⟩
    · intro o ho
      right
      rw [hobjs] at ho
      rcases List.mem_append.1 ho with ho | ho
      · obtain ⟨p, _, rfl⟩ := List.mem_map.1 ho
        rfl
      · rw [List.mem_singleton] at ho
        subst ho
        rfl
  have hunit : ∀ r ∈ b, r.dir.IsUnit := by
    intro r hr
    obtain ⟨i, hi⟩ := List.getElem?_of_mem hr
    have hil : i < positions.length := by rw [← D.length]; exact (List.getElem?_eq_some_iff.1 hi).1
    rw [(D.arrive i r _ hi (List.getElem?_eq_getElem hil)).1.1]
    have := (C59_solar_vector az el).1
    unfold V3.IsUnit V3.dot at this ⊢
    simpa using this
  obtain ⟨res, hres⟩ := C75_opaque hlib.1 (fun o ho s hs => (hlib.2 o ho s hs).1) (fun o ho s hs => (hlib.2 o ho s hs).2) w hunit
    (reps := reps) minE (keepTree := true) (Or.inl rfl)
  refine ⟨t, res, ht, hres, ?_⟩
  rw [hscene] at hres
  have hpl : ∀ o ∈ plantObjs positions g g' absorpt az el H F get set, o.Plain := by
    intro o ho
    refine ⟨?_, Or.inr (plant_skip o ho)⟩
    rcases List.mem_append.1 ho with ho | ho
    · obtain ⟨p, _, rfl⟩ := List.mem_map.1 ho
      rfl
    · rw [List.mem_singleton] at ho
      subst ho
      rfl
  have hfl : AllSurfs FlatMirror (plantObjs positions g g' absorpt az el H F get set) := by
    intro o ho s hs
    rcases List.mem_append.1 ho with ho | ho
    · obtain ⟨p, _, rfl⟩ := List.mem_map.1 ho
      exact ⟨_, _, _, List.mem_singleton.1 hs, .rect _ _ _ hg, .oneSided _, ((M3.isRotation_iff _).1 (aimTransform_rigid az el H p)).1.2.2.1⟩
    · rw [List.mem_singleton] at ho
      subst ho
      simp only [receiverObj, List.mem_cons, List.not_mem_nil, or_false] at hs
      rcases hs with rfl | rfl
      · exact ⟨_, _, _, rfl, .rect _ _ _ hg', .receiver _ _ _ _ (.mirror _), ((M3.isRotation_iff _).1 D.rigid).1.2.2.1⟩
      · exact ⟨_, _, _, rfl, .rect _ _ _ hg', .mirror _, ((M3.isRotation_iff _).1 (back_rigid D.rigid).1).1.2.2.1⟩
  have hk : KeepsMemory get (reflective 1 : Optics σ ℝ E) := (C51_reflective 1 get).1
  have hfront : (⟨positions.length, 0, mkSurf g' (reflectiveReceiver 1 get set) F⟩ : Site σ ℝ E) ∈
      sites (plantObjs positions g g' absorpt az el H F get set) := by
    rw [plant_sites]
    exact List.mem_append_right _ (by simp)
  have hign : ∀ z ∈ sites (plantObjs positions g g' absorpt az el H F get set),
      ¬ (z.obj = positions.length ∧ z.num = 0) → z.surf.Ignores get := by
    intro z hz hne
    rcases plant_site hz with ⟨j, q, _, rfl⟩ | rfl | rfl
    · exact keeps_ignores (mirror_keeps _ _)
    · exact absurd ⟨rfl, rfl⟩ hne
    · exact keeps_ignores hk
  have hshape : ∀ o ∈ plantObjs positions g g' absorpt az el H F get set, o.ShapeOk := by
    intro o ho
    obtain ⟨n, hn⟩ := List.getElem?_of_mem ho
    exact (Obj.Plain.decides hpl n o hn).shapeOk
  have hb : b = (b.zip positions).zipIdx.map fun z => z.1.1 := by
    have e1 : (fun z : (Ray ℝ E × V3 ℝ) × Nat => z.1.1) = Prod.fst ∘ Prod.fst := rfl
    rw [e1, ← List.map_map, List.zipIdx_map_fst, List.map_fst_zip D.length.le]
  have hzip : ∀ {γ : Type _} (f : Ray ℝ E → V3 ℝ → γ), List.zipWith f b positions = (b.zip positions).zipIdx.map fun z => f z.1.1 z.1.2 := by
    intro γ f
    have e1 : (fun z : (Ray ℝ E × V3 ℝ) × Nat => f z.1.1 z.1.2) = (fun y : Ray ℝ E × V3 ℝ => f y.1 y.2) ∘ Prod.fst := rfl
    rw [e1, ← List.map_map, List.zipIdx_map_fst, List.zip_eq_zipWith, List.map_zipWith]
  refine ⟨?_, ?_, ?_, ?_, fun hgs hw => ?_⟩
  · exact tree_zero hshape hres
  · have := (C84_flat hpl hfl hres (by omega : 1 ≤ reps)).map fun r => (r.vertex, r.dir, r.energy)
    rw [List.map_map, hg1, List.map_map, List.map_map] at this
    refine this.trans (List.Perm.of_eq ?_)
    rw [hzip]
    refine List.map_congr_left fun z hz => ?_
    obtain ⟨e1, e2, e3, _⟩ := hR z hz
    change ((R1 z).vertex, (R1 z).dir, (R1 z).energy) = _
    rw [e1, e2, e3]
  · have := (C84_flat hpl hfl hres hreps).map fun r => (r.vertex, r.energy)
    rw [List.map_map, hg2, List.map_map, List.map_map] at this
    refine this.trans (List.Perm.of_eq ?_)
    conv_rhs => rw [hb, List.map_map]
    refine List.map_congr_left fun z hz => ?_
    obtain ⟨_, _, _, _, e1, e2⟩ := hR z hz
    change ((R2 z).vertex, (R2 z).energy) = _
    rw [e1, e2]
    rfl
  · intro k hk3
    rcases Nat.lt_or_ge reps k with hlt | hle
    · rw [tree_beyond hshape hres hlt]
      rfl
    · have := C84_flat hpl hfl hres hle
      obtain ⟨m, rfl⟩ : ∃ m, k = m + 1 := ⟨k - 1, by omega⟩
      rw [goingGeneration, hlast m (by omega)] at this
      have hnil : (((res.tree[m + 1]?).getD []).map Ray.strip) = [] := by
        have e : nextGoing Surf.single (Surf.alone w) (plainPolicy (plantObjs positions g g' absorpt az el H F get set))
            (sites (plantObjs positions g g' absorpt az el H F get set)) [] = [] := rfl
        rw [e] at this
        exact this.eq_nil
      simpa using hnil
  · obtain ⟨es, ps, hes, hlen, hperm⟩ := C67_flat hpl hfl hgs hk hfront rfl hign hres hw
    rw [hhits reps hreps] at hperm
    refine ⟨es, ps, hes, ?_, ?_⟩
    · have := hperm.map Prod.fst
      rw [List.map_fst_zip hlen.le, List.map_map, List.map_map] at this
      refine this.trans (List.Perm.of_eq ?_)
      conv_rhs => rw [hb, List.map_map]
      refine List.map_congr_left fun z hz => ?_
      change (R1 z).energy * 1 = z.1.1.energy * (1 - absorpt)
      rw [(hR z hz).2.2.1, mul_one]
    · have := hperm.map Prod.snd
      rw [List.map_snd_zip hlen.ge, List.map_map, List.map_map] at this
      rw [List.eq_replicate_iff]
      refine ⟨?_, ?_⟩
      · rw [this.length_eq, List.length_map, List.length_zipIdx, List.length_zip, D.length, Nat.min_self]
      · intro p hp
        obtain ⟨z, hz, rfl⟩ := List.mem_map.1 (this.subset hp)
        exact (hR z hz).2.2.2.1

/-- C85: the plant of a heliostat field, after any history of calls on the field that ends with `aim_to_sun`, is traced without an
exception from rays of the sun on the centres of the heliostats.  The tree has the rays of the source, one ray from each
heliostat's centre towards the aim point with the part `1 - absorpt` of the energy, and one ray without energy from the aim point for each of
those.  The receiver reports a hit at the aim point for each heliostat, and what the heliostats did not absorb. -/
theorem C85_tower {positions : List (V3 ℝ)} {W L absorpt th x y az el : ℝ} {F : Tf ℝ} {b : Bundle ℝ E} {minE : ℝ}
    {get : σ → Account ℝ} {set : Account ℝ → σ → σ} (hW : 0 < W) (hL : 0 < L) (hx : 0 < x) (hy : 0 < y) (junk junk' : M3 ℝ)
    (ops : List HelioOp) (D : Delivery positions W L absorpt x y az el (heightAfter th ops) F b minE) (hm : 0 ≤ minE)
    (hgs : ∀ acc w, get (set acc w) = acc) {w : σ} (hw : get w = Account.reset) {reps : Nat} (hreps : 2 ≤ reps) :
    ∃ (t : Tower σ E) (res : TraceResult σ ℝ E),
      Tower.new positions W L absorpt th x y F get set junk junk' = .ok t ∧
      rayTracer (t.onField (runHelio (ops ++ [.aim az el]))).plant.scene w b reps minE true = .ok res ∧
      res.tree[0]? = some b ∧
      (((res.tree[1]?).getD []).map fun r => (r.vertex, r.dir, r.energy)).Perm
        (List.zipWith (fun r p => (p, toward p ⟨0, 0, heightAfter th ops⟩, r.energy * (1 - absorpt))) b positions) ∧
      (((res.tree[2]?).getD []).map fun r => (r.vertex, r.energy)).Perm (b.map fun _ => (⟨0, 0, heightAfter th ops⟩, 0)) ∧
      (∀ k : Nat, 3 ≤ k → (res.tree[k]?).getD [] = []) ∧
      ∃ es ps, (get res.world).getAllHits = .ok (es, ps) ∧ es.Perm (b.map fun r => r.energy * (1 - absorpt)) ∧
        ps = List.replicate b.length ⟨0, 0, heightAfter th ops⟩ := by
  obtain ⟨t, res, h1, h2, h3, h4, h5, h6, h7⟩ := tower_trace (get := get) (set := set) hW hL hx hy junk junk' ops D hm w hreps
  exact ⟨t, res, h1, h2, h3, h4, h5, h6, h7 hgs hw⟩

end Tracer
