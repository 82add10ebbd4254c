import Verif.Spec.Media
import Verif.Props.Raises

/-!
# Scenes with any number of media (C72, C74, C75)

`LibraryScene` knows two media.  Here every refracting surface may have its own pair.
-/

set_option linter.unusedSectionVars false

namespace Tracer

variable {E σ : Type _}

theorem idxOut_cases (a b : ℝ) (q : HitRec ℝ E) :
    (idxIn q = a ∧ idxOut a b q = b) ∨ (idxIn q ≠ a ∧ idxOut a b q = a) := by
  unfold idxOut toggleRefIdx
  by_cases h : idxIn q = a
  · exact Or.inl ⟨h, if_pos h⟩
  · exact Or.inr ⟨h, if_neg h⟩

/-- C74: the law of a refracting surface, for rays in any medium. -/
theorem C74_border {a b : ℝ} (ha : 0 < a) (hb : 0 < b) :
    Optics.Obeys (refractiveHomogenous a b : Optics σ ℝ E) (BorderLaw a b) := by
  intro w up hits out w' h r hr
  obtain ⟨_, href, _, _, hout⟩ := refractive_ok h
  rw [hout] at hr
  rcases List.mem_append.1 hr with hr | hr
  · obtain ⟨q, hq, rfl⟩ := List.mem_map.1 hr
    exact ⟨q, hq, rfl, rfl, fun hn _ n hq _ => Or.inl ⟨C44_mirrored hn _, hq⟩, rfl⟩
  · obtain ⟨q, hq', rfl⟩ := List.mem_map.1 hr
    obtain ⟨hq, hrefr⟩ := List.mem_filter.1 hq'
    refine ⟨q, hq, rfl, rfl, fun hn hd n hm hpos => Or.inr ?_, rfl⟩
    have hin : idxIn q = n := by unfold idxIn; rw [hm]; rfl
    have hs := fun p2 => C45_snell (n1 := idxIn q) (n2 := idxOut a b q) (by rw [hin]; exact hpos) p2 hd hn hrefr
    rcases idxOut_cases a b q with ⟨e1, e2⟩ | ⟨e1, e2⟩
    · left
      refine ⟨by rw [← hin, e1], ?_, ?_⟩
      · show some (idxOut a b q) = some b
        rw [e2]
      · show Snell a b q.ray.dir q.normal (refractOne (idxIn q) (idxOut a b q) q.ray.dir q.normal)
        have := hs (by rw [e2]; exact hb)
        rw [e1, e2] at this ⊢
        exact this
    · right
      refine ⟨by rw [← hin]; exact e1, ?_, ?_⟩
      · show some (idxOut a b q) = some a
        rw [e2]
      · show Snell n a q.ray.dir q.normal (refractOne (idxIn q) (idxOut a b q) q.ray.dir q.normal)
        have := hs (by rw [e2]; exact ha)
        rw [hin, e2] at this ⊢
        exact this

variable {M : ℝ → Prop}

theorem mediaOptics_obeys (hM : ∀ n, M n → 0 < n) {opt : Optics σ ℝ E} (h : MediaOptics M opt) :
    Optics.Obeys opt (MediaLaw M opt) := by
  induction h with
  | mirror c =>
    intro w up hits out w' ho r hr
    obtain ⟨q, hq, e1, e2, e3⟩ := C74_reflective c w up hits out w' ho r hr
    exact ⟨q, hq, e1, e2, .mirror c up q r e3⟩
  | oneSided c =>
    intro w up hits out w' ho r hr
    obtain ⟨q, hq, e1, e2, e3⟩ := C74_one_sided c w up hits out w' ho r hr
    exact ⟨q, hq, e1, e2, .oneSided c up q r e3⟩
  | refractive a b ha hb _ =>
    intro w up hits out w' ho r hr
    obtain ⟨q, hq, e1, e2, e3⟩ := C74_border (hM a ha) (hM b hb) w up hits out w' ho r hr
    exact ⟨q, hq, e1, e2, .refractive a b up q r ha hb e3⟩
  | diffuse c draw hd =>
    intro w up hits out w' ho r hr
    obtain ⟨q, hq, e1, e2, e3⟩ := C74_lambertian hd w up hits out w' ho r hr
    exact ⟨q, hq, e1, e2, .diffuse c draw up q r e3⟩
  | receiver c get set opt hopt ih =>
    intro w up hits out w' ho r hr
    obtain ⟨q, hq, e1, e2, e3⟩ := C74_receiver ih c get set w up hits out w' ho r hr
    exact ⟨q, hq, e1, e2, .receiver c get set opt up q r e3⟩

theorem mediaLaw_numberFree (M : ℝ → Prop) (opt : Optics σ ℝ E) : NumberFree (MediaLaw M opt) := by
  intro up h r i j hl
  induction hl with
  | mirror c up h r hl => exact .mirror c up _ _ (mirrorLaw_numberFree c _ _ _ _ _ hl)
  | oneSided c up h r hl => exact .oneSided c up _ _ (oneSidedLaw_numberFree c _ _ _ _ _ hl)
  | refractive a b up h r ha hb hl => exact .refractive a b up _ _ ha hb ⟨hl.dir, hl.extra⟩
  | diffuse c draw up h r hl => exact .diffuse c draw up _ _ (diffuseLaw_numberFree c _ _ _ _ _ hl)
  | receiver c get set opt up h r _ ih => exact .receiver c get set opt up _ _ ih

theorem mediaLaw_carries (hM : ∀ n, M n → 0 < n) (opt : Optics σ ℝ E) : Carries (MediaLaw M opt) (MediaRay M) := by
  intro up h r hl
  induction hl with
  | mirror c up h r hl => exact fun hn hq => ⟨mirrored_unit hn hq.1 (hl.dir hn), by rw [hl.ref]; exact hq.2⟩
  | oneSided c up h r hl => exact fun hn hq => ⟨mirrored_unit hn hq.1 (hl.dir hn), by rw [hl.ref]; exact hq.2⟩
  | refractive a b up h r ha hb hl =>
    rintro hn ⟨hu, n, hn', hq⟩
    rcases hl.dir hn hu n hq (hM n hn') with ⟨e1, e2⟩ | ⟨_, e2, e3⟩ | ⟨_, e2, e3⟩
    · exact ⟨mirrored_unit hn hu e1, n, hn', e2⟩
    · exact ⟨e3.unit, b, hb, e2⟩
    · exact ⟨e3.unit, a, ha, e2⟩
  | diffuse c draw up h r hl => exact fun hn hq => ⟨(hl.dir hn).1, by rw [hl.ref]; exact hq.2⟩
  | receiver c get set opt up h r _ ih => exact ih

theorem mediaLaw_extra {opt : Optics σ ℝ E} {up : V3 ℝ} {h : HitRec ℝ E} {r : Ray ℝ E}
    (hl : MediaLaw M opt up h r) : r.extra = h.ray.extra := by
  induction hl with
  | mirror c up h r hl => exact hl.extra
  | oneSided c up h r hl => exact hl.extra
  | refractive a b up h r _ _ hl => exact hl.extra
  | diffuse c draw up h r hl => exact hl.extra
  | receiver c get set opt up h r _ ih => exact ih

/-- C75: a refracting surface between two different media answers for rays of unit direction in any medium. -/
theorem C75_border (hM : ∀ n, M n → 0 < n) {a b : ℝ} (ha : M a) (hb : M b) (hab : a ≠ b) :
    Optics.Safe (refractiveHomogenous a b : Optics σ ℝ E) (MediaRay M) := by
  intro w up hits hne hq
  rw [refractive_eq a b w up hits hne (fun q h => by
    obtain ⟨n, _, e⟩ := (hq q h).1.2
    rw [e]; simp)]
  split
  · split
    · rename_i hany
      obtain ⟨q, hqm, hq'⟩ := List.any_eq_true.1 hany
      rw [Bool.and_eq_true] at hq'
      obtain ⟨n, hn, e⟩ := (hq q hqm).1.2
      have hin : idxIn q = n := by unfold idxIn; rw [e]; rfl
      have p1 : 0 < idxIn q := by rw [hin]; exact hM n hn
      obtain ⟨p2, hne⟩ : 0 < idxOut a b q ∧ idxIn q ≠ idxOut a b q := by
        rcases idxOut_cases a b q with ⟨e1, e2⟩ | ⟨e1, e2⟩
        · rw [e2, e1]; exact ⟨hM b hb, hab⟩
        · rw [e2]; exact ⟨hM a ha, e1⟩
      have := fresnelDefined_of p1 p2 hne (hq q hqm).1.1 (hq q hqm).2 hq'.1
      rw [this] at hq'
      simp at hq'
    · exact ⟨_, _, rfl⟩
  · exact ⟨_, _, rfl⟩

theorem mediaOptics_safe (hM : ∀ n, M n → 0 < n) {opt : Optics σ ℝ E} (h : MediaOptics M opt) :
    Optics.Safe opt (MediaRay M) := by
  induction h with
  | mirror c => exact (C75_mirrors c _).1
  | oneSided c => exact (C75_mirrors c _).2.1
  | refractive a b ha hb hab => exact C75_border hM ha hb hab
  | diffuse c draw hd => exact C75_lambertian c draw _
  | receiver c get set opt hopt ih => exact (C75_mirrors c _).2.2 opt get set ih

theorem MediaScene.shapeOk {a : SceneAsm σ ℝ E} (h : MediaScene M a) : ∀ o ∈ a.scene, o.ShapeOk := by
  intro o ho
  obtain ⟨q, hq, rfl⟩ := List.mem_map.1 ho
  rcases h.policies q hq with e | e
  · refine ⟨fun rays k => ?_, fun rays k => ⟨?_, fun row hr => ?_⟩⟩
    · simp only [e, Obj.defaultOwn, List.length_replicate]
    · simp only [e, Obj.defaultNext, List.length_replicate, List.length_map]
    · simp only [e, Obj.defaultNext] at hr
      rw [List.eq_of_mem_replicate hr, List.length_replicate]
  · refine ⟨fun rays k => ?_, fun rays k => ⟨?_, fun row hr => ?_⟩⟩
    · simp only [e, Obj.defaultOwn, List.length_replicate]
    · simp only [e, Obj.skipNext, List.length_replicate, List.length_map]
    · simp only [e, Obj.skipNext] at hr
      rw [List.eq_of_mem_replicate hr, List.length_replicate]

/-- C74 for scenes with any number of media: every recorded ray starts where its parent, in the previous bundle, meets a surface, follows
from its parent by the law of that surface, and is of unit direction and in one of the media if the source rays are. -/
theorem C74_media {a : SceneAsm σ ℝ E} (ha : MediaScene M a)
    {w : σ} {b : Bundle ℝ E} {reps : Nat} {minE : ℝ} {res : TraceResult σ ℝ E}
    (h : rayTracer a.scene w b reps minE true = .ok res) :
    (∀ (k : Nat) (lvl : Bundle ℝ E), res.tree[k + 1]? = some lvl → ∀ r ∈ lvl,
      ∃ prev p, res.tree[k]? = some prev ∧ prev[r.parent]? = some p ∧
      ∃ o ∈ a.getObjects, ∃ s ∈ o.surfs, ∃ t : ℝ, 0 < t ∧
        (∃ (rays : Bundle ℝ E) (i : Nat), rays[i]? = some p ∧ (s.data.1.find s.temp rays)[i]? = some (t : WithTop ℝ)) ∧
        r.vertex = p.at t ∧
        MediaLaw M s.data.2 s.temp.rot.c3 ⟨r.parent, p, p.at t, s.data.1.normal s.temp (p.at t) p.dir⟩ r) ∧
    ((∀ r ∈ b, MediaRay M r) → ∀ lvl ∈ res.tree, ∀ r ∈ lvl, MediaRay M r) := by
  have hlen : ∀ o ∈ a.getObjects, ∀ s ∈ o.surfs, s.data.1.LengthOk := fun o ho s hs => (ha.geometry o ho s hs).lengthOk
  have hlaw : ∀ o ∈ a.getObjects, ∀ s ∈ o.surfs, Optics.Obeys s.data.2 (MediaLaw M s.data.2) :=
    fun o ho s hs => mediaOptics_obeys ha.media (ha.optics o ho s hs)
  refine ⟨fun k lvl hk r hr => C74_law (fun s => MediaLaw M s.data.2) ha.shapeOk hlen hlaw
    (fun s => mediaLaw_numberFree M _) h hk hr, fun hb => ?_⟩
  exact C74_invariant (fun s => MediaLaw M s.data.2) ha.shapeOk hlen hlaw (fun s => mediaLaw_numberFree M _)
    (fun r hr => hr.1) (fun o ho s hs => C74_normals (ha.geometry o ho s hs) (ha.rigid o ho s hs))
    (fun o ho s hs => mediaLaw_carries ha.media _) hb h

/-- C72 for scenes with any number of media: a recorded ray has the user-defined properties of its parent. -/
theorem C72_media {a : SceneAsm σ ℝ E} (ha : MediaScene M a)
    {w : σ} {b : Bundle ℝ E} {reps : Nat} {minE : ℝ} {res : TraceResult σ ℝ E}
    (h : rayTracer a.scene w b reps minE true = .ok res) {k : Nat} {lvl : Bundle ℝ E} (hk : res.tree[k + 1]? = some lvl)
    {r : Ray ℝ E} (hr : r ∈ lvl) :
    ∃ prev p, res.tree[k]? = some prev ∧ prev[r.parent]? = some p ∧ r.extra = p.extra := by
  obtain ⟨prev, p, e1, e2, _, _, _, _, _, _, _, _, hl⟩ := (C74_media ha h).1 k lvl hk r hr
  exact ⟨prev, p, e1, e2, mediaLaw_extra hl⟩

/-- C75 for scenes with any number of media, on any geometries except hemispheres and cut spheres: the trace returns. -/
theorem C75_media {a : SceneAsm σ ℝ E} (ha : MediaScene M a)
    (hplain : ∀ o ∈ a.getObjects, ∀ s ∈ o.surfs, PlainGeometry s.data.1)
    (w : σ) {b : Bundle ℝ E} (hb : ∀ r ∈ b, MediaRay M r) {reps : Nat} (minE : ℝ) {keepTree : Bool}
    (hk : keepTree = true ∨ 0 < reps) :
    ∃ res, rayTracer a.scene w b reps minE keepTree = .ok res :=
  C75_progress (fun s => MediaLaw M s.data.2) ha.shapeOk ha.nonempty
    (fun o ho s hs => (ha.geometry o ho s hs).lengthOk) (fun o ho s hs => mediaOptics_obeys ha.media (ha.optics o ho s hs))
    (fun s => mediaLaw_numberFree M _) (Q := MediaRay M) (fun r hr => hr.1)
    (fun o ho s hs => C74_normals (ha.geometry o ho s hs) (ha.rigid o ho s hs)) (fun o ho s hs => mediaLaw_carries ha.media _)
    (fun o ho s hs => C75_forward (hplain o ho s hs) s.temp) (fun o ho s hs => mediaOptics_safe ha.media (ha.optics o ho s hs))
    w hb minE hk

/-- C75, exactly, for scenes with any number of media: see `C75_iff`. -/
theorem C75_media_iff {a : SceneAsm σ ℝ E} (ha : MediaScene M a)
    (hdef : ∀ o ∈ a.getObjects, o.data = (Obj.defaultOwn, Obj.defaultNext o.surfs.length))
    (w : σ) {b : Bundle ℝ E} (hb : ∀ r ∈ b, MediaRay M r) {reps : Nat} (minE : ℝ) {keepTree : Bool}
    (hk : keepTree = true ∨ 0 < reps) :
    ((∃ res, rayTracer a.scene w b reps minE keepTree = .ok res) ∨
      rayTracer a.scene w b reps minE keepTree = .error .value) ∧
    (rayTracer a.scene w b reps minE keepTree = .error .value ↔
      ∃ k res lvl, k < reps ∧ rayTracer a.scene w b k minE true = .ok res ∧ res.tree[k]? = some lvl ∧
        ∃ o ∈ a.getObjects, ∃ s ∈ o.surfs, SphereCrossed s.data.1 s.temp (propagated minE k lvl)) :=
  library_raises ha.nonempty ha.geometry ha.rigid hdef (fun s => MediaLaw M s.data.2)
    (fun o ho s hs => mediaOptics_obeys ha.media (ha.optics o ho s hs))
    (fun s => mediaLaw_numberFree M _) (Q := MediaRay M) (fun r hr => hr.1)
    (fun o ho s hs => mediaLaw_carries ha.media _) (fun o ho s hs => mediaOptics_safe ha.media (ha.optics o ho s hs)) w hb minE hk

/-! ## Oil on glass over a mirror -/

/-- Three media: air above a layer of oil, on glass, on a mirror. -/
noncomputable def oilOnGlass : SceneAsm Unit ℝ Unit :=
  .mk 1 [] [⟨1, [⟨1, 1, (flatGM, reflective (1 / 4))⟩, ⟨1, ⟨1, ⟨0, 0, 1⟩⟩, (flatGM, refractiveHomogenous (4 / 3) (3 / 2))⟩,
    ⟨1, ⟨1, ⟨0, 0, 2⟩⟩, (flatGM, refractiveHomogenous 1 (4 / 3))⟩], (Obj.defaultOwn, Obj.defaultNext 3)⟩]

theorem oilOnGlass_media : MediaScene (fun n => n = 1 ∨ n = 4 / 3 ∨ n = 3 / 2) oilOnGlass := by
  have hR : ∀ v : V3 ℝ, (⟨1, v⟩ : Tf ℝ).Rigid := fun _ => Tf.Rigid.one
  refine ⟨?_, ⟨_, List.mem_cons_self, fun h => by cases h⟩, ?_, ?_, ?_, ?_⟩
  · rintro n (rfl | rfl | rfl) <;> norm_num
  · exact List.forall_mem_cons.2 ⟨List.forall_mem_cons.2 ⟨.one, List.forall_mem_cons.2 ⟨hR _, List.forall_mem_cons.2 ⟨hR _,
      List.forall_mem_nil _⟩⟩⟩, List.forall_mem_nil _⟩
  · exact List.forall_mem_cons.2 ⟨List.forall_mem_cons.2 ⟨.plain _ .flat, List.forall_mem_cons.2 ⟨.plain _ .flat,
      List.forall_mem_cons.2 ⟨.plain _ .flat, List.forall_mem_nil _⟩⟩⟩, List.forall_mem_nil _⟩
  · exact List.forall_mem_cons.2 ⟨List.forall_mem_cons.2 ⟨.mirror _, List.forall_mem_cons.2
      ⟨.refractive _ _ (by norm_num) (by norm_num) (by norm_num),
        List.forall_mem_cons.2 ⟨.refractive _ _ (by norm_num) (by norm_num) (by norm_num), List.forall_mem_nil _⟩⟩⟩, List.forall_mem_nil _⟩
  · exact List.forall_mem_cons.2 ⟨.inl rfl, List.forall_mem_nil _⟩

/-- A slanting ray into the oil: its trace returns for every number of iterations, and all its rays are in one of the three media. -/
example (reps : Nat) (minE : ℝ) :
    ∃ res : TraceResult Unit ℝ Unit,
      rayTracer oilOnGlass.scene () [⟨⟨0, 0, 3⟩, ⟨0, 3 / 5, -4 / 5⟩, 1, 0, some 1, ()⟩] reps minE true = .ok res ∧
      ∀ lvl ∈ res.tree, ∀ r ∈ lvl, MediaRay (fun n => n = 1 ∨ n = 4 / 3 ∨ n = 3 / 2) r := by
  have hb : ∀ r ∈ ([⟨⟨0, 0, 3⟩, ⟨0, 3 / 5, -4 / 5⟩, 1, 0, some 1, ()⟩] : Bundle ℝ Unit),
      MediaRay (fun n => n = 1 ∨ n = 4 / 3 ∨ n = 3 / 2) r := by
    intro r hr
    rw [List.mem_singleton] at hr
    subst hr
    exact ⟨by norm_num [V3.IsUnit, V3.dot], 1, Or.inl rfl, rfl⟩
  obtain ⟨res, h⟩ := C75_media oilOnGlass_media
    (List.forall_mem_cons.2 ⟨List.forall_mem_cons.2 ⟨.flat, List.forall_mem_cons.2 ⟨.flat,
      List.forall_mem_cons.2 ⟨.flat, List.forall_mem_nil _⟩⟩⟩, List.forall_mem_nil _⟩) () hb minE (Or.inl rfl)
  exact ⟨res, h, (C74_media oilOnGlass_media h).2 hb⟩

end Tracer
