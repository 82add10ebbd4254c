import Verif.Lemmas.Mirrors
import Verif.Spec.Heliostats
import Verif.Props.Spatial

/-!
# Heliostat fields (C59)
-/

set_option linter.unusedSectionVars false

namespace Tracer

open Real

variable {σ E : Type _}

theorem normalizeRow_eq (v : V3 ℝ) : normalizeRow v = (1 / √(V3.dot v v)) • v := by
  unfold normalizeRow
  have : v.x ^ 2 + v.y ^ 2 + v.z ^ 2 = V3.dot v v := by unfold V3.dot; ring
  rw [this]
  apply V3.ext <;> simp <;> ring

theorem dot_self_nonneg (v : V3 ℝ) : 0 ≤ V3.dot v v := by
  unfold V3.dot; nlinarith [mul_self_nonneg v.x, mul_self_nonneg v.y, mul_self_nonneg v.z]

theorem dot_self_pos {v : V3 ℝ} (h : v ≠ 0) : 0 < V3.dot v v := by
  rcases lt_or_eq_of_le (dot_self_nonneg v) with h0 | h0
  · exact h0
  · exfalso
    apply h
    unfold V3.dot at h0
    have h1 := mul_self_nonneg v.x
    have h2 := mul_self_nonneg v.y
    have h3 := mul_self_nonneg v.z
    apply V3.ext
    · exact mul_self_eq_zero.1 (by linarith)
    · exact mul_self_eq_zero.1 (by linarith)
    · exact mul_self_eq_zero.1 (by linarith)

theorem normalizeRow_unit {v : V3 ℝ} (h : v ≠ 0) : (normalizeRow v).IsUnit := by
  have hp := dot_self_pos h
  have hs : √(V3.dot v v) * √(V3.dot v v) = V3.dot v v := mul_self_sqrt hp.le
  rw [normalizeRow_eq]
  unfold V3.IsUnit
  have : V3.dot ((1 / √(V3.dot v v)) • v) ((1 / √(V3.dot v v)) • v) =
      (1 / (√(V3.dot v v) * √(V3.dot v v))) * V3.dot v v := by
    generalize √(V3.dot v v) = n
    unfold V3.dot
    simp only [V3.smul_x, V3.smul_y, V3.smul_z]
    ring
  rw [this, hs]
  field_simp

/-- C59: the solar vector is a unit vector at angle `elevation` from the Z axis; its horizontal part points
along (-sin azimuth, -cos azimuth). -/
theorem C59_solar_vector (azimuth elevation : ℝ) :
    (solarVector azimuth elevation).IsUnit ∧
    (0 ≤ elevation → elevation ≤ π →
      arccos (V3.dot (solarVector azimuth elevation) ⟨0, 0, 1⟩) = elevation ∧
      solarVector azimuth elevation = ⟨-sin azimuth * sin elevation, -cos azimuth * sin elevation, cos elevation⟩) := by
  have hs : √(1 - cos elevation ^ 2) ^ 2 = 1 - cos elevation ^ 2 := sq_sqrt (by
    have := sin_sq_add_cos_sq elevation; have := sq_nonneg (sin elevation); linarith)
  have h1 := sin_sq_add_cos_sq azimuth
  constructor
  · unfold solarVector V3.IsUnit V3.dot
    simp only
    linear_combination (sin azimuth ^ 2 + cos azimuth ^ 2) * hs + (1 - cos elevation ^ 2) * h1
  · intro h0 hpi
    constructor
    · unfold solarVector V3.dot
      simp only [mul_zero, zero_add, mul_one]
      exact arccos_cos h0 hpi
    · unfold solarVector
      have : 1 - cos elevation ^ 2 = sin elevation ^ 2 := by have := sin_sq_add_cos_sq elevation; linarith
      simp only [this, sqrt_sq (sin_nonneg_of_nonneg_of_le_pi h0 hpi)]

/-- The rotations by azimuth and polar angle take the Z axis to the given direction. -/
theorem rotz_roty_c3 {h : V3 ℝ} (hu : h.IsUnit) : (rotz (arctan2 h.y h.x) * roty (arccos h.z)).rot.c3 = h := by
  unfold V3.IsUnit V3.dot at hu
  have hz1 : -1 ≤ h.z := by nlinarith [mul_self_nonneg h.x, mul_self_nonneg h.y]
  have hz2 : h.z ≤ 1 := by nlinarith [mul_self_nonneg h.x, mul_self_nonneg h.y]
  have hsin : sin (arccos h.z) = ‖(⟨h.x, h.y⟩ : ℂ)‖ := by
    rw [sin_arccos, Complex.norm_def, Complex.normSq_mk]
    congr 1; linear_combination -hu
  have hc := Complex.norm_mul_cos_arg (⟨h.x, h.y⟩ : ℂ)
  have hs := Complex.norm_mul_sin_arg (⟨h.x, h.y⟩ : ℂ)
  unfold rotz roty arctan2
  simp only [Tf.mul_rot, M3.mul_c3]
  apply V3.ext
  · simp only [M3.mulVec_x]; rw [hsin]; linear_combination hc
  · simp only [M3.mulVec_y]; rw [hsin]; linear_combination hs
  · simp [M3.mulVec_z, cos_arccos hz1 hz2]

theorem aimTransform_rigid (az el th : ℝ) (p : V3 ℝ) : (aimTransform az el th p).Rigid :=
  Tf.Rigid.mul (C26_rigid _ 0 0 0).2.2.1 (C26_rigid _ 0 0 0).2.1

theorem aimTransform_c3 (az el th : ℝ) (p : V3 ℝ) (hne : solarVector az el + toward p ⟨0, 0, th⟩ ≠ 0) :
    (aimTransform az el th p).rot.c3 = normalizeRow (solarVector az el + toward p ⟨0, 0, th⟩) := by
  have e : normalizeRow (⟨(-p).x, (-p).y, (-p).z + th⟩ : V3 ℝ) = toward p ⟨0, 0, th⟩ := by
    rw [normalizeRow_eq]
    unfold toward V3.dist2
    have : (⟨(-p).x, (-p).y, (-p).z + th⟩ : V3 ℝ) = (⟨0, 0, th⟩ : V3 ℝ) - p := by
      apply V3.ext <;> simp
      ring
    rw [this]
  unfold aimTransform
  simp only
  rw [e]
  exact rotz_roty_c3 (normalizeRow_unit hne)

theorem toward_unit {p q : V3 ℝ} (h : p ≠ q) : (toward p q).IsUnit := by
  have hne : q - p ≠ 0 := by
    intro hc
    apply h
    have h1 := congrArg V3.x hc
    have h2 := congrArg V3.y hc
    have h3 := congrArg V3.z hc
    simp at h1 h2 h3
    apply V3.ext <;> linarith
  have := normalizeRow_unit hne
  rw [normalizeRow_eq] at this
  exact this

/-- The heliostats of a field keep their surface and their behaviour, whatever is called. -/
structure IsHelio (g : Geometry ℝ E) (absorpt : ℝ) (o : SceneObj σ ℝ E) : Prop where
  surfs : ∃ frame, o.surfs = [⟨1, frame, (g, absorberReflector absorpt)⟩]
  data : o.data = (Obj.defaultOwn, Obj.skipNext 1)

theorem IsHelio.set {g : Geometry ℝ E} {a : ℝ} {o : SceneObj σ ℝ E} (h : IsHelio g a o) (T : Tf ℝ) :
    o.set (.transform T) = ⟨T, [⟨1, T, (g, absorberReflector a)⟩], (Obj.defaultOwn, Obj.skipNext 1)⟩ ∧
    IsHelio g a (o.set (.transform T)) := by
  obtain ⟨⟨frame, hs⟩, hd⟩ := h
  have e : o.set (.transform T) = ⟨T, [⟨1, T, (g, absorberReflector a)⟩], (Obj.defaultOwn, Obj.skipNext 1)⟩ := by
    unfold ObjNode.set ObjNode.transformChildren
    simp only [Change.apply, hs, hd, List.map_cons, List.map_nil, SurfNode.transformFrame, Tf.one_mul', Tf.mul_one']
  exact ⟨e, by rw [e]; exact ⟨⟨_, rfl⟩, rfl⟩⟩

/-- What stays true of a field. -/
structure HelioInv (g : Geometry ℝ E) (absorpt : ℝ) (positions : List (V3 ℝ)) (f : HelioField σ E) : Prop where
  pos : f.pos = positions
  own : f.asm.own = 1
  subs : f.asm.subs = []
  length : f.asm.objs.length = positions.length
  objs : ∀ o ∈ f.asm.objs, IsHelio g absorpt o

theorem HelioInv.aim {g : Geometry ℝ E} {a : ℝ} {positions : List (V3 ℝ)} {f : HelioField σ E}
    (h : HelioInv g a positions f) (az el : ℝ) : HelioInv g a positions (f.aimToSun az el) := by
  refine ⟨h.pos, h.own, h.subs, ?_, ?_⟩
  · show (List.zipWith _ f.asm.objs f.pos).length = _
    rw [List.length_zipWith, h.length, h.pos, Nat.min_self]
  · intro o ho
    obtain ⟨i, hi, rfl⟩ := List.getElem_of_mem (show o ∈ List.zipWith _ f.asm.objs f.pos from ho)
    rw [List.getElem_zipWith]
    exact ((h.objs _ (List.getElem_mem _)).set _).2

theorem runHelio_inv {g : Geometry ℝ E} {a : ℝ} {positions : List (V3 ℝ)} (ops : List HelioOp) :
    ∀ {f : HelioField σ E}, HelioInv g a positions f →
      HelioInv g a positions (runHelio ops f) ∧ (runHelio ops f).aimHeight = heightAfter f.aimHeight ops := by
  induction ops with
  | nil => intro f h; exact ⟨h, rfl⟩
  | cons op ops ih =>
    intro f h
    cases op with
    | aim az el => exact ih (h.aim az el)
    | height x => exact ih (f := f.setAimHeight x) ⟨h.pos, h.own, h.subs, h.length, h.objs⟩

theorem initial_ok {W L a : ℝ} {g : Geometry ℝ E} (hg : rectPlateGM W L = .ok g) (ps : List (V3 ℝ)) :
    ∃ ms : List (SceneObj σ ℝ E), initialHeliostats W L a ps = .ok ms ∧
      List.Forall₂ (fun o p => o = ⟨⟨(rotx π).rot, p⟩, [⟨1, ⟨(rotx π).rot, p⟩, (g, absorberReflector a)⟩],
        (Obj.defaultOwn, Obj.skipNext 1)⟩) ms ps := by
  have hm : (rectOneSidedMirror W L a : Except Err (SceneObj σ ℝ E)) =
      .ok (ObjNode.new [Surface.new g (absorberReflector a) 1] 1 (Obj.defaultOwn, Obj.skipNext 1)) := by
    unfold rectOneSidedMirror; rw [hg]
  have hh : IsHelio g a (ObjNode.new [Surface.new g (absorberReflector a) 1] 1 (Obj.defaultOwn, Obj.skipNext 1) :
      SceneObj σ ℝ E) := ⟨⟨_, rfl⟩, rfl⟩
  induction ps with
  | nil => exact ⟨[], rfl, .nil⟩
  | cons p ps ih =>
    obtain ⟨ms, h1, h2⟩ := ih
    refine ⟨_, by unfold initialHeliostats; rw [hm, h1], .cons ?_ h2⟩
    exact (hh.set _).1

theorem new_inv {W L a th : ℝ} {g : Geometry ℝ E} (hg : rectPlateGM W L = .ok g) (ps : List (V3 ℝ)) (junk : M3 ℝ) :
    ∃ f : HelioField σ E, HelioField.new ps W L a th junk = .ok f ∧ HelioInv g a ps f ∧ f.aimHeight = th ∧
      List.Forall₂ (fun o p => o = ⟨⟨(rotx π).rot, p⟩, [⟨1, ⟨(rotx π).rot, p⟩, (g, absorberReflector a)⟩],
        (Obj.defaultOwn, Obj.skipNext 1)⟩) f.asm.objs ps := by
  obtain ⟨ms, h1, h2⟩ := initial_ok (σ := σ) (a := a) hg ps
  have hobjs : (Asm.new ms [] 0 1 junk).objs = ms := by
    have e := new_getObjects ms junk
    have e2 : (Asm.new ms [] 0 1 junk).getObjects = (Asm.new ms [] 0 1 junk).objs := by
      unfold Asm.new Asm.set
      simp only [Asm.transformChildren, Asm.set, Asm.transformAll, Asm.getObjects, Asm.getObjectsAll,
        List.nil_append, Asm.objs]
    rw [← e2, e]
    clear h1 e e2
    induction h2 with
    | nil => rfl
    | cons h _ ih =>
      rw [List.map_cons, ih, h]
      congr 1
      unfold ObjNode.transformChildren
      simp only [List.map_cons, List.map_nil, SurfNode.transformFrame, Tf.one_mul', Tf.mul_one']
  refine ⟨_, by unfold HelioField.new; rw [h1], ⟨rfl, rfl, rfl, ?_, ?_⟩, rfl, ?_⟩
  · show (Asm.new ms [] 0 1 junk).objs.length = _
    rw [hobjs]; exact h2.length_eq
  · show ∀ o ∈ (Asm.new ms [] 0 1 junk).objs, _
    rw [hobjs]
    intro o ho
    obtain ⟨i, hi, rfl⟩ := List.getElem_of_mem ho
    have := (List.forall₂_iff_get.1 h2).2 i hi (by rw [← h2.length_eq]; exact hi)
    simp only [List.get_eq_getElem] at this
    rw [this]
    exact ⟨⟨_, rfl⟩, rfl⟩
  · show List.Forall₂ _ (Asm.new ms [] 0 1 junk).objs ps
    rw [hobjs]; exact h2

theorem HelioInv.getObjects {g : Geometry ℝ E} {a : ℝ} {positions : List (V3 ℝ)} {f : HelioField σ E}
    (h : HelioInv g a positions f) : f.asm.getObjects = f.asm.objs := by
  have h2 := h.subs
  cases hf : f.asm with
  | mk own subs objs =>
    rw [hf] at h2
    simp only [Asm.subs] at h2
    subst h2
    simp [Asm.getObjects, Asm.getObjectsAll, Asm.objs]

/-- C59: a new field of heliostats, at any positions: one-sided mirrors centred at the positions, facing down. -/
theorem C59_initial (positions : List (V3 ℝ)) {W L : ℝ} (hW : 0 < W) (hL : 0 < L) (absorpt th : ℝ) (junk : M3 ℝ) :
    ∃ f : HelioField σ E, HelioField.new positions W L absorpt th junk = .ok f ∧
      List.Forall₂ (fun o p => ObjNode.IsMirror o
        (fun q => q.z = p.z ∧ |q.x - p.x| ≤ W / 2 ∧ |q.y - p.y| ≤ L / 2) ⟨0, 0, -1⟩ absorpt)
        f.asm.getObjects positions := by
  obtain ⟨g, hg⟩ := (C31_constructor (K := ℝ) (E := E) W L).1 ⟨hW, hL⟩
  obtain ⟨f, h1, h2, _, h4⟩ := new_inv (σ := σ) (a := absorpt) (th := th) hg positions junk
  refine ⟨f, h1, ?_⟩
  rw [h2.getObjects]
  refine h4.imp ?_
  rintro o p rfl
  have hr : (⟨(rotx π).rot, p⟩ : Tf ℝ).Rigid := (C26_rigid π 0 0 0).1
  have := plate_isMirror (σ := σ) (a := absorpt) hg hr (⟨(rotx π).rot, p⟩ : Tf ℝ) 1
  have hc : (⟨(rotx π).rot, p⟩ : Tf ℝ).rot.c3 = ⟨0, 0, -1⟩ := by
    unfold rotx; simp [cos_pi, sin_pi]
  rw [hc] at this
  have e : Placed (⟨(rotx π).rot, p⟩ : Tf ℝ) (rectXY W L) =
      fun q => q.z = p.z ∧ |q.x - p.x| ≤ W / 2 ∧ |q.y - p.y| ≤ L / 2 := by
    have hp : ∀ q, (⟨(rotx π).rot, p⟩ : Tf ℝ).point q = ⟨q.x + p.x, -q.y + p.y, -q.z + p.z⟩ := by
      intro q
      unfold Tf.point rotx
      rw [cos_pi, sin_pi]
      apply V3.ext <;> simp
    funext q
    apply propext
    unfold Placed rectXY
    simp only [hp]
    constructor
    · rintro ⟨u, ⟨h0, h1, h2⟩, rfl⟩
      exact ⟨by simp [h0], by simpa using h1, by simpa using h2⟩
    · rintro ⟨h0, h1, h2⟩
      refine ⟨⟨q.x - p.x, p.y - q.y, 0⟩, ⟨rfl, h1, ?_⟩, ?_⟩
      · rw [abs_sub_comm] at h2; exact h2
      · apply V3.ext <;> simp [h0]
  rw [e] at this
  exact this

/-- A plate that is aimed: light that comes from the sun to its centre leaves it towards the aim point. -/
theorem aimed_plate {W L : ℝ} (hW : 0 < W) (hL : 0 < L) {g : Geometry ℝ E} (hg : rectPlateGM W L = .ok g) (absorpt az el H : ℝ) (p : V3 ℝ) :
    ∀ (aim sun : V3 ℝ), aim = ⟨0, 0, H⟩ → sun = solarVector az el →
      p ≠ aim → (2 / 10 ^ 10) ^ 2 < V3.dist2 (toward p aim) (-sun) →
      ∀ (rays : Bundle ℝ E) (i : Nat) (r : Ray ℝ E) (t : ℝ) (w : σ), rays[i]? = some r →
        r.dir = -sun → 0 ≤ t → r.vertex + t • r.dir = p →
        ((mkSurf g (absorberReflector absorpt : Optics σ ℝ E) (aimTransform az el H p)).register rays)[i]? = some (t : WithTop ℝ) ∧
        ∃ out, (mkSurf g (absorberReflector absorpt) (aimTransform az el H p)).outgoing w rays [i] = .ok ([out], w) ∧
          out.vertex = p ∧ out.dir = toward p aim ∧ out.energy = r.energy * (1 - absorpt) := by
  intro aim sun haim hsun hp hfar
  subst haim
  have hrig := aimTransform_rigid az el H p
  have hun := toward_unit hp
  have hus : sun.IsUnit := hsun ▸ (C59_solar_vector az el).1
  set v := toward p ⟨0, 0, H⟩ with hv
  have hd2 : V3.dist2 v (-sun) = V3.dot (sun + v) (sun + v) := by
    unfold V3.dist2 V3.dot; simp; ring
  rw [hd2] at hfar
  have hq : 0 < V3.dot (sun + v) (sun + v) := lt_trans (by norm_num) hfar
  have hne : sun + v ≠ 0 := by
    intro hc; rw [hc] at hq; simp [V3.dot] at hq
  have hc3 : (aimTransform az el H p).rot.c3 = normalizeRow (sun + v) := by
    have := aimTransform_c3 az el H p (by rw [← hsun]; exact hne)
    rw [← hsun] at this
    exact this
  have hm := plate_isMirror (σ := σ) (a := absorpt) hg hrig (aimTransform az el H p) 1
  rw [hc3, normalizeRow_eq] at hm
  obtain ⟨s, hs, hsurf⟩ := hm.surface
  obtain rfl : _ = s := (List.cons.inj hs).1
  have hnu := hm.unit
  set n := √(V3.dot (sun + v) (sun + v)) with hn
  have hn0 : 0 < n := sqrt_pos.2 hq
  have hnn : n * n = V3.dot (sun + v) (sun + v) := mul_self_sqrt hq.le
  have hn2 : 2 / 10 ^ 10 < n := by
    rw [hn, lt_sqrt (by norm_num)]; exact hfar
  intro rays j r t w hr hdir ht hcen
  obtain ⟨q, hq1, hq2, hq3, hq4⟩ := hsurf rays j r hr
  unfold V3.IsUnit at hun hus
  have hdot : V3.dot r.dir ((1 / n) • (sun + v)) = -(n / 2) := by
    have e1 : V3.dot (-sun) ((1 / n) • (sun + v)) = -(1 / n) * (V3.dot sun sun + V3.dot sun v) := by
      unfold V3.dot; simp; ring
    have e2 : V3.dot sun sun + V3.dot sun v = n * n / 2 := by
      rw [hnn]
      have : V3.dot (sun + v) (sun + v) = V3.dot sun sun + 2 * V3.dot sun v + V3.dot v v := by
        unfold V3.dot; simp; ring
      rw [this, hun, hus]; ring
    rw [hdir, e1, e2]; field_simp
  have habs : 1 / 10 ^ 10 < |V3.dot r.dir ((1 / n) • (sun + v))| := by
    rw [hdot, abs_neg, abs_of_pos (by linarith)]; linarith
  have hfirst := hq2 habs
  have hcentre : Placed (aimTransform az el H p) (rectXY W L) (r.vertex + t • r.dir) := by
    rw [hcen]
    refine ⟨0, ⟨rfl, by simp; linarith, by simp; linarith⟩, ?_⟩
    unfold Tf.point
    rw [M3.mulVec_zero]
    apply V3.ext <;> simp [aimTransform]
  have hqt : q = (t : WithTop ℝ) := by
    cases q with
    | top => exact absurd hcentre (hfirst t ht)
    | coe u =>
      obtain ⟨_, hu2, _⟩ := hfirst
      congr 1
      obtain ⟨a1, ⟨b1, _⟩, c1⟩ := hu2
      obtain ⟨a2, ⟨b2, _⟩, c2⟩ := hcentre
      have plane : ∀ a : V3 ℝ, a.z = 0 →
          V3.dot ((aimTransform az el H p).point a - (aimTransform az el H p).loc) (aimTransform az el H p).rot.c3 = 0 := by
        intro a ha
        have hio := (M3.isRotation_iff _).1 hrig
        have h13 := hio.1.2.2.2.2.1
        have h23 := hio.1.2.2.2.2.2
        unfold V3.dot at h13 h23 ⊢
        unfold Tf.point
        simp only [V3.sub_x, V3.sub_y, V3.sub_z, V3.add_x, V3.add_y, V3.add_z, M3.mulVec_x, M3.mulVec_y, M3.mulVec_z, ha]
        linear_combination a.x * h13 + a.y * h23
      have p1 := plane a1 b1
      have p2 := plane a2 b2
      rw [← c1, hc3, normalizeRow_eq, ← hn] at p1
      rw [← c2, hc3, normalizeRow_eq, ← hn] at p2
      have hz : (u - t) * V3.dot r.dir ((1 / n) • (sun + v)) = 0 := by
        unfold V3.dot at p1 p2 ⊢
        simp only [V3.sub_x, V3.sub_y, V3.sub_z, V3.add_x, V3.add_y, V3.add_z, V3.smul_x, V3.smul_y, V3.smul_z] at p1 p2 ⊢
        linear_combination p1 - p2
      rcases mul_eq_zero.1 hz with h0 | h0
      · linarith
      · rw [hdot] at h0; linarith
  subst hqt
  refine ⟨hq1, ?_⟩
  obtain ⟨out, o1, o2, o3, _, o5, _⟩ := hq4 t w rfl
  refine ⟨out, o1, by rw [o2, hcen], ?_, o5 (by rw [hdot]; linarith)⟩
  refine C44_unique hnu o3 ⟨?_, ?_⟩
  · rw [hdir]
    have : V3.dot v v = V3.dot sun sun := by rw [hun, hus]
    unfold V3.dot at this ⊢
    simp
    linear_combination (1 / n) * this
  · rw [hdir]
    unfold V3.cross
    apply V3.ext <;> simp <;> ring

/-- C59: after any history of calls that ends with `aim_to_sun`, for a field that was not moved, every heliostat
sends light that arrives from the sun at its centre to the point at the aim height on the tower, with the part
`1 - absorpt` of its energy.  The sun must not be (nearly) opposite to the tower, as seen from the heliostat, and
the heliostat not at the aim point. -/
theorem C59_aims (positions : List (V3 ℝ)) {W L : ℝ} (hW : 0 < W) (hL : 0 < L) (absorpt th : ℝ) (junk : M3 ℝ)
    {f : HelioField σ E} (hf : HelioField.new positions W L absorpt th junk = .ok f) (ops : List HelioOp) (az el : ℝ) :
    List.Forall₂ (fun o p => ∀ (aim sun : V3 ℝ), aim = ⟨0, 0, heightAfter th ops⟩ → sun = solarVector az el →
        p ≠ aim → (2 / 10 ^ 10) ^ 2 < V3.dist2 (toward p aim) (-sun) →
        ∃ s, o.surfs = [s] ∧ ∀ (rays : Bundle ℝ E) (i : Nat) (r : Ray ℝ E) (t : ℝ) (w : σ), rays[i]? = some r →
          r.dir = -sun → 0 ≤ t → r.vertex + t • r.dir = p →
          (s.surf.register rays)[i]? = some (t : WithTop ℝ) ∧
          ∃ out, s.surf.outgoing w rays [i] = .ok ([out], w) ∧ out.vertex = p ∧ out.dir = toward p aim ∧
            out.energy = r.energy * (1 - absorpt))
      (runHelio (ops ++ [.aim az el]) f).asm.getObjects positions := by
  obtain ⟨g, hg⟩ := (C31_constructor (K := ℝ) (E := E) W L).1 ⟨hW, hL⟩
  obtain ⟨f', h1, h2, h3, _⟩ := new_inv (σ := σ) (a := absorpt) (th := th) hg positions junk
  rw [hf] at h1
  cases h1
  obtain ⟨hinv, hh⟩ := runHelio_inv ops h2
  rw [h3] at hh
  have he : runHelio (ops ++ [.aim az el]) f = (runHelio ops f).aimToSun az el := by
    unfold runHelio; rw [List.foldl_append]; rfl
  rw [he, (hinv.aim az el).getObjects]
  show List.Forall₂ _ (List.zipWith _ (runHelio ops f).asm.objs (runHelio ops f).pos) positions
  rw [hh, List.forall₂_iff_get]
  refine ⟨by rw [List.length_zipWith, hinv.length, hinv.pos, Nat.min_self], ?_⟩
  intro i hi1 hi2
  simp only [List.get_eq_getElem, List.getElem_zipWith]
  have hpe : (runHelio ops f).pos[i]'(by rw [hinv.pos]; exact hi2) = positions[i] := by
    simp only [hinv.pos]
  rw [hpe]
  have hio : IsHelio g absorpt ((runHelio ops f).asm.objs[i]'(by rw [hinv.length]; exact hi2)) :=
    hinv.objs _ (List.getElem_mem _)
  rw [(hio.set (aimTransform az el (heightAfter th ops) positions[i])).1]
  intro aim sun haim hsun hp hfar
  exact ⟨_, rfl, aimed_plate hW hL hg absorpt az el _ _ aim sun haim hsun hp hfar⟩

/-- The hypotheses of `C59_aims` are met at noon for a heliostat north of the tower, re-aimed after the aim height
was changed. -/
example : ∃ f : HelioField Unit Unit, HelioField.new [⟨40, 0, 0⟩] 4 3 (1 / 10) 30 1 = .ok f ∧
    heightAfter 30 [.aim 0 0, .height 40, .aim 0 1] = 40 ∧
    (⟨40, 0, 0⟩ : V3 ℝ) ≠ ⟨0, 0, 40⟩ ∧
    (2 / 10 ^ 10) ^ 2 < V3.dist2 (toward ⟨40, 0, 0⟩ ⟨0, 0, 40⟩) (-solarVector 0 0) := by
  obtain ⟨f, hf, _⟩ := C59_initial (σ := Unit) (E := Unit) [⟨40, 0, 0⟩] (W := 4) (L := 3) (by norm_num) (by norm_num) (1 / 10) 30 1
  refine ⟨f, hf, rfl, by intro h; have := congrArg V3.x h; norm_num at this, ?_⟩
  have hz : 0 < (toward ⟨40, 0, 0⟩ ⟨0, 0, 40⟩).z := by
    unfold toward V3.dist2 V3.dot
    simp only [V3.smul_z, V3.sub_x, V3.sub_y, V3.sub_z]
    apply mul_pos _ (by norm_num)
    apply one_div_pos.2
    apply sqrt_pos.2
    norm_num
  generalize toward ⟨40, 0, 0⟩ ⟨0, 0, 40⟩ = v at hz
  have : (v.z + 1) * (v.z + 1) ≤ V3.dist2 v (-solarVector 0 0) := by
    unfold V3.dist2 V3.dot solarVector
    simp
    nlinarith [mul_self_nonneg v.x, mul_self_nonneg v.y]
  nlinarith

end Tracer
