import Verif.Props.LensFocus

/-! # Lenses and bundles of more than one ray -/

set_option linter.unusedSectionVars false

namespace Tracer

open Real Filter Topology

variable {E σ : Type _}

/-- The surface answers where the rays meet `S`, if all rays but the last one do not meet it. -/
def SurfNode.AnswersLast (s : SceneSurf σ ℝ E) (S : V3 ℝ → Prop) : Prop :=
  ∀ rays : Bundle ℝ E, (∀ r ∈ rays, r.dir.IsUnit) →
    (∀ (i j : Nat) r, i < j → j < rays.length → rays[i]? = some r → ∀ t : ℝ, 0 < t → ¬ S (r.vertex + t • r.dir)) →
    ∀ (i : Nat) r, rays[i]? = some r → ∃ p, (s.surf.register rays)[i]? = some p ∧ FirstAmong (0 < ·) S r.vertex r.dir p

theorem face_set {T : Tf ℝ} (h : T.Rigid) {diameter R : ℝ} (loc : ℝ) (hd : 0 ≤ diameter) (hR : R ≠ 0) (hdR : diameter ^ 2 / 4 ≤ R ^ 2) :
    (fun p => Placed (T * ⟨1, ⟨0, 0, loc⟩⟩) (sphereSet |R|) p ∧
      lensBound diameter R (T * ⟨1, ⟨0, 0, loc⟩⟩) p = true) = Placed T (lensFaceSet diameter (loc + R) R) := by
  funext p
  apply propext
  constructor
  · rintro ⟨⟨q, hq, rfl⟩, hb⟩
    rw [lensBound_iff (lift_rigid h loc)] at hb
    exact ⟨_, (face_shape hd hR hdR loc q).1 ⟨hq, hb⟩, lift_point T loc q⟩
  · rintro ⟨q, hq, rfl⟩
    have e : T.point q = (T * (⟨1, ⟨0, 0, loc⟩⟩ : Tf ℝ)).point ⟨q.x, q.y, q.z - loc⟩ := by
      rw [lift_point]; congr 1; apply V3.ext <;> simp
    have := (face_shape hd hR hdR loc ⟨q.x, q.y, q.z - loc⟩).2 (by simpa using hq)
    refine ⟨⟨_, this.1, e⟩, ?_⟩
    rw [e, lensBound_iff (lift_rigid h loc)]
    exact this.2

theorem face_batch {T : Tf ℝ} (h : T.Rigid) {diameter R n loc : ℝ} (hd : 0 ≤ diameter) (hR : R ≠ 0)
    (hdR : diameter ^ 2 / 4 ≤ R ^ 2) {g : Geometry ℝ E} (hg : cutSphereGM |R| (some (lensBound diameter R)) = .ok g) (own : Tf ℝ) :
    SurfNode.AnswersLast (σ := σ) ⟨own, T * ⟨1, ⟨0, 0, loc⟩⟩, (g, refractiveHomogenous 1 n)⟩ (Placed T (lensFaceSet diameter (loc + R) R)) := by
  intro rays hu hmiss i r hr
  obtain ⟨p, hp, hf⟩ := C39_cut_sphere_partial (lift_rigid h loc) hg hu (fun i j a b hij ha hb => by
    rintro ⟨⟨t0, t1, _, _, _, _, ht1, hS⟩, _⟩
    have hj := (List.getElem?_eq_some_iff.1 hb).1
    refine hmiss i j a hij hj ha t1 ht1 ?_
    rw [← face_set h loc hd hR hdR]
    exact hS) i r hr
  refine ⟨p, hp, ?_⟩
  rw [← face_set h loc hd hR hdR]
  exact hf

theorem cut_lengthOk {R : ℝ} {b : Tf ℝ → V3 ℝ → Bool} {g : Geometry ℝ E} (hg : cutSphereGM R (some b) = .ok g) : g.LengthOk := by
  unfold cutSphereGM at hg
  split at hg
  · simp at hg
  · cases hg
    intro frame rays
    simp [quadricFind]

/-- Where the side of a lens answers, in the frame of the lens. -/
theorem wall_answer {T : Tf ℝ} (h : T.Rigid) {diameter height mid : ℝ} {rays : Bundle ℝ E} {i : Nat} {r : Ray ℝ E}
    (hr : rays[i]? = some r) {v d : V3 ℝ} (hv : r.vertex = T.point v) (hrd : r.dir = T.dir d) {p : WithTop ℝ}
    (hp : ((finiteCylinderGM diameter height : Geometry ℝ E).find (T * ⟨1, ⟨0, 0, mid⟩⟩) rays)[i]? = some p) {t : ℝ} (ht : p = (t : WithTop ℝ)) :
    0 < t ∧ |v.z + t * d.z - mid| ≤ height / 2 ∧
      ((d.x ^ 2 + d.y ^ 2) * t ^ 2 + 2 * (d.x * v.x + d.y * v.y) * t + (v.x ^ 2 + v.y ^ 2 - (diameter / 2) ^ 2) = 0 ∨
        2 * (d.x * v.x + d.y * v.y) * t + (v.x ^ 2 + v.y ^ 2 - (diameter / 2) ^ 2) = 0) := by
  have hl := lift_rigid h mid
  have hdet := M3.IsRotation.det_ne hl
  have hfind := (congrArg (·[i]?) (quadricFind_map (cylinderABC (diameter / 2) (T * ⟨1, ⟨0, 0, mid⟩⟩))
    (cylinderSelect_eq (height / 2) (T * ⟨1, ⟨0, 0, mid⟩⟩)) rays)).trans (getElem?_map' _ hr)
  have hp' := hp.symm.trans hfind
  rw [Option.some.injEq, ht] at hp'
  have eloc : (T * (⟨1, ⟨0, 0, mid⟩⟩ : Tf ℝ)).inv.point r.vertex = ⟨v.x, v.y, v.z - mid⟩ := by
    rw [hv]
    have : T.point v = (T * (⟨1, ⟨0, 0, mid⟩⟩ : Tf ℝ)).point ⟨v.x, v.y, v.z - mid⟩ := by
      rw [lift_point]; congr 1; apply V3.ext <;> simp
    rw [this, Tf.inv_point_point hdet]
  have edir : localDir (T * (⟨1, ⟨0, 0, mid⟩⟩ : Tf ℝ)) r.dir = d := by
    rw [localDir_eq hl, hrd]
    have hrot : (T * (⟨1, ⟨0, 0, mid⟩⟩ : Tf ℝ)).rot = T.rot := M3.mul_one' _
    show (T * (⟨1, ⟨0, 0, mid⟩⟩ : Tf ℝ)).rot.inv.mulVec (T.rot.mulVec d) = d
    rw [hrot]
    exact M3.inv_mulVec_mulVec (M3.IsRotation.det_ne h) _
  have eabc : cylinderABC (diameter / 2) (T * ⟨1, ⟨0, 0, mid⟩⟩) r.vertex r.dir =
      (d.x ^ 2 + d.y ^ 2, 2 * (d.x * v.x + d.y * v.y), (v.x ^ 2 + v.y ^ 2) - (diameter / 2) ^ 2) := by
    unfold cylinderABC
    simp only [eloc, edir]
  have etest : ∀ s : ℝ, ((T * (⟨1, ⟨0, 0, mid⟩⟩ : Tf ℝ)).inv.point (r.vertex + s • r.dir)).z = v.z + s * d.z - mid := by
    intro s
    rw [local_at hl, eloc, edir]
    simp only [V3.add_z, V3.smul_z]
    ring
  rw [eabc] at hp'
  by_cases hA : d.x ^ 2 + d.y ^ 2 ≤ planarTol
  · obtain ⟨h1, h2, h3⟩ := band_answer_abc hA hp'.symm
    rw [decide_eq_true_iff, etest] at h3
    exact ⟨h1, h3, Or.inr h2⟩
  · have := first_of_abc (abc := (d.x ^ 2 + d.y ^ 2, 2 * (d.x * v.x + d.y * v.y), (v.x ^ 2 + v.y ^ 2) - (diameter / 2) ^ 2))
      (S := fun q => (∃ s : ℝ, q = r.vertex + s • r.dir ∧
        (d.x ^ 2 + d.y ^ 2) * s ^ 2 + 2 * (d.x * v.x + d.y * v.y) * s + ((v.x ^ 2 + v.y ^ 2) - (diameter / 2) ^ 2) = 0) ∧
        decide (|((T * (⟨1, ⟨0, 0, mid⟩⟩ : Tf ℝ)).inv.point q).z| ≤ height / 2) = true)
      (test := fun p => decide (|((T * (⟨1, ⟨0, 0, mid⟩⟩ : Tf ℝ)).inv.point p).z| ≤ height / 2)) (v := r.vertex) (d := r.dir)
      (fun s => by
        refine and_congr ⟨?_, fun h => ⟨s, rfl, h⟩⟩ Iff.rfl
        rintro ⟨s', hs', hq⟩
        have hl1 := congrArg (T * (⟨1, ⟨0, 0, mid⟩⟩ : Tf ℝ)).inv.point hs'
        rw [local_at hl, local_at hl, eloc, edir, V3.ext_iff] at hl1
        simp only [V3.add_x, V3.add_y, V3.smul_x, V3.smul_y] at hl1
        have hss : s = s' := by
          by_contra hne
          have hne' : s - s' ≠ 0 := sub_ne_zero.2 hne
          have hx : d.x = 0 := (mul_eq_zero.1 (show (s - s') * d.x = 0 by linear_combination hl1.1)).resolve_left hne'
          have hy : d.y = 0 := (mul_eq_zero.1 (show (s - s') * d.y = 0 by linear_combination hl1.2.1)).resolve_left hne'
          apply hA
          rw [hx, hy]
          have := planarTol_pos
          simpa using this.le
        subst hss
        exact hq) (not_le.1 hA)
    have h2 : FirstAmong (0 < ·) _ r.vertex r.dir (t : WithTop ℝ) := hp' ▸ this
    obtain ⟨h1, ⟨⟨s', hs', hq⟩, h3⟩, _⟩ := h2
    rw [decide_eq_true_iff, etest] at h3
    refine ⟨h1, h3, Or.inl ?_⟩
    have hl1 := congrArg (T * (⟨1, ⟨0, 0, mid⟩⟩ : Tf ℝ)).inv.point hs'
    rw [local_at hl, local_at hl, eloc, edir, V3.ext_iff] at hl1
    simp only [V3.add_x, V3.add_y, V3.smul_x, V3.smul_y] at hl1
    have hss : t = s' := by
      by_contra hne
      have hne' : t - s' ≠ 0 := sub_ne_zero.2 hne
      have hx : d.x = 0 := (mul_eq_zero.1 (show (t - s') * d.x = 0 by linear_combination hl1.1)).resolve_left hne'
      have hy : d.y = 0 := (mul_eq_zero.1 (show (t - s') * d.y = 0 by linear_combination hl1.2.1)).resolve_left hne'
      apply hA
      rw [hx, hy]
      have := planarTol_pos
      simpa using this.le
    subst hss
    exact hq

/-- The lens, surface by surface. -/
theorem lens_built {T : Tf ℝ} (hT : T.Rigid) {diameter depth R1 R2 n : ℝ} (hd : 0 < diameter) (hR1 : R1 ≠ 0) (hR2 : R2 ≠ 0)
    (h1 : diameter ≤ 2 * |R1|) (h2 : diameter ≤ 2 * |R2|) (hn : n ≠ 0)
    (hpow : (n - 1) * (1 / R1 - 1 / R2 + (n - 1) * depth / (n * R1 * R2)) ≠ 0) :
    ∃ (o : SceneObj σ ℝ E) (f apex : ℝ) (front back : SceneSurf σ ℝ E) (wall : List (SceneSurf σ ℝ E)),
      sphericalLens diameter depth (some R1) (some R2) n T = .ok (o, f) ∧
      (f = 1 / ((n - 1) * (1 / R1 - 1 / R2 + (n - 1) * depth / (n * R1 * R2))) ∧ apex = f * depth * (n - 1) / (n * R1)) ∧
      o.surfs = front :: back :: wall ∧ o.data = (Obj.defaultOwn, Obj.defaultNext o.surfs.length) ∧
      o.transformChildren 1 = o ∧
      (front.IsLensFace T diameter n (apex + depth) R1 ∧ front.AnswersLast (Placed T (lensFaceSet diameter (apex + depth) R1)) ∧
        front.surf.LengthOk) ∧
      (back.IsLensFace T diameter n apex R2 ∧ back.AnswersLast (Placed T (lensFaceSet diameter apex R2)) ∧ back.surf.LengthOk) ∧
      ∃ mid height, ∀ s ∈ wall, s.surf.LengthOk ∧
        s.surf.register = (finiteCylinderGM diameter height : Geometry ℝ E).find (T * ⟨1, ⟨0, 0, mid⟩⟩) := by
  have h1' := sq_of_abs hd h1
  have h2' := sq_of_abs hd h2
  obtain ⟨g1, hg1, hf1⟩ := lensFace_ok (E := E) (σ := σ) (n := n) hR1 h1'
  obtain ⟨g2, hg2, hf2⟩ := lensFace_ok (E := E) (σ := σ) (n := n) hR2 h2'
  have hp : lensPower depth n R1 (some R2) = (n - 1) * (1 / R1 - 1 / R2 + (n - 1) * depth / (n * R1 * R2)) := by
    unfold lensPower; field_simp
  rw [← hp] at hpow
  have c1 : curvedRadius (some R1) = some R1 := if_neg hR1
  have c2 : curvedRadius (some R2) = some R2 := if_neg hR2
  have hz : ¬ (n = 0 ∨ lensPower depth n R1 (some R2) = 0) := by simp [hn, hpow]
  generalize hpd : 1 / lensPower depth n R1 (some R2) * depth * (n - 1) / n / R1 = pd
  have hs1 := section_height diameter R1 (pd + depth)
  have hs2 := section_height diameter R2 pd
  generalize hlo : faceHeight pd R2 ((diameter / 2) ^ 2) = lo at hs2
  generalize hhi : faceHeight (pd + depth) R1 ((diameter / 2) ^ 2) = hi at hs1
  obtain ⟨wall, hok, hw⟩ : ∃ wall : List (SceneSurf σ ℝ E), sphericalLens (σ := σ) (E := E) diameter depth (some R1) (some R2) n T = .ok
      (let surfs : List (SceneSurf σ ℝ E) := ⟨⟨1, ⟨0, 0, pd + depth - R1⟩⟩, ⟨1, ⟨0, 0, pd + depth - R1⟩⟩, (g1, refractiveHomogenous 1 n)⟩ ::
        ⟨⟨1, ⟨0, 0, pd - R2⟩⟩, ⟨1, ⟨0, 0, pd - R2⟩⟩, (g2, refractiveHomogenous 1 n)⟩ :: wall
       (ObjNode.new surfs T (Obj.defaultOwn, Obj.defaultNext surfs.length), 1 / lensPower depth n R1 (some R2))) ∧
      ∀ s ∈ wall, s = Surface.new (finiteCylinderGM diameter (0 - lo + hi)) (refractiveHomogenous n 1) ⟨1, ⟨0, 0, 0 + lo / 2 + hi / 2⟩⟩ := by
    unfold sphericalLens lensFront lensBack
    simp only [c1, c2, hf1, hf2, Option.map_some, if_neg hz, hpd, hs1, hs2]
    by_cases hgap : 0 < 0 - lo + hi
    · rw [if_pos hgap]
      exact ⟨[_], rfl, by simp⟩
    · rw [if_neg hgap]
      exact ⟨[], rfl, by simp⟩
  simp only at hok
  have ef : pd + depth - R1 + R1 = pd + depth := by ring
  have eb : pd - R2 + R2 = pd := by ring
  have F := face_isLensFace (σ := σ) hT (n := n) (loc := pd + depth - R1) hd hR1 h1' hg1 ⟨1, ⟨0, 0, pd + depth - R1⟩⟩
  have B := face_isLensFace (σ := σ) hT (n := n) (loc := pd - R2) hd hR2 h2' hg2 ⟨1, ⟨0, 0, pd - R2⟩⟩
  have F' := face_batch (σ := σ) hT (n := n) (loc := pd + depth - R1) hd.le hR1 h1' hg1 ⟨1, ⟨0, 0, pd + depth - R1⟩⟩
  have B' := face_batch (σ := σ) hT (n := n) (loc := pd - R2) hd.le hR2 h2' hg2 ⟨1, ⟨0, 0, pd - R2⟩⟩
  rw [ef] at F F'
  rw [eb] at B B'
  refine ⟨_, _, pd, _, _, _, hok, ⟨by rw [hp], by rw [← hpd, div_div]⟩, lens_surfs _ _ _, ?_, ?_, ⟨F, F', ?_⟩, ⟨B, B', ?_⟩,
    0 + lo / 2 + hi / 2, 0 - lo + hi, ?_⟩
  · rw [lens_surfs, List.length_map]
    rfl
  · unfold ObjNode.new ObjNode.transformChildren SurfNode.transformFrame
    simp only [Tf.one_mul', List.map_map, Function.comp_def]
  · exact mkSurf_lengthOk (cut_lengthOk hg1) _ _
  · exact mkSurf_lengthOk (cut_lengthOk hg2) _ _
  · intro s hs
    obtain ⟨s', hs', rfl⟩ := List.mem_map.1 hs
    rw [hw s' hs']
    refine ⟨mkSurf_lengthOk ?_ _ _, rfl⟩
    intro frame rays
    unfold Surface.new
    simp [finiteCylinderGM, quadricFind]

/-- The scene of a lens that stands alone in an assembly. -/
theorem alone_scene {o : SceneObj σ ℝ E} (h : o.transformChildren 1 = o) (junk : M3 ℝ) :
    (Asm.new [o] [] 0 1 junk).scene = [⟨o.surfs.map SurfNode.surf, o.data.1, o.data.2⟩] := by
  have : (Asm.new [o] [] 0 1 junk).getObjects = [o] := by
    unfold Asm.new Asm.set
    simp only [Asm.transformChildren, Asm.set, Change.apply, Asm.transformAll, List.map_cons, List.map_nil, Asm.getObjects, Asm.getObjectsAll,
      List.nil_append, List.append_nil]
    have e1 : (⟨1, 0⟩ : Tf ℝ) = 1 := rfl
    have hh : ∀ A B : Tf ℝ, (o.transformChildren B).transformChildren A = o.transformChildren A := fun A B => by
      unfold ObjNode.transformChildren SurfNode.transformFrame
      simp only [List.map_map, Function.comp_def]
    simp only [e1, hh, Tf.one_mul', h]
  unfold Asm.scene
  rw [this]
  rfl

end Tracer
