import Verif.Lemmas.Reversal

/-!
# Light paths can be reversed (C88)

In a scene of flat mirrors and flat refracting surfaces, light sent back along the last leg of a path returns the whole way: through the
same surfaces in the opposite order, to the point it came from.  The fraction of the energy that goes along the path is the same both
ways, and a trace in either direction records the path.
-/

namespace Tracer

variable {E σ : Type _}

section
variable {n1 n2 : ℝ} {surfs : List (Surf σ ℝ E)} {w : σ} {p r : Ray ℝ E} {path : List (Surf σ ℝ E)} {l : ℝ}

/-- C88: a path of light can be reversed, and the same fraction `φ` of the energy goes along it both ways. -/
theorem C88_reversible (h1 : 0 < n1) (h2 : 0 < n2) (hne : n1 ≠ n2) (hs : ∀ s ∈ surfs, FlatFace n1 n2 s) (hp : LegalRay n1 n2 p)
    (h : LightPath surfs w none p path r l none) :
    ∃ φ : ℝ, 0 ≤ φ ∧ φ ≤ 1 ∧ r.energy = φ * p.energy ∧
      ∀ (w' : σ) (back : Ray ℝ E), back.vertex = r.at l → back.dir = -r.dir → back.ref = r.ref →
        ∃ p' l', LightPath surfs w' none back path.reverse p' l' none ∧
          p'.dir = -p.dir ∧ p'.at l' = p.vertex ∧ p'.ref = p.ref ∧ p'.energy = φ * back.energy :=
  (h.back h1 h2 hne hs hp).2

end

section
variable {n1 n2 : ℝ} {objs : List (Obj σ ℝ E)} {w : σ} {p r : Ray ℝ E} {path : List (Surf σ ℝ E)} {l : ℝ}

/-- C88: a trace records the path of light, if what is left of the light at its end is above the threshold. -/
theorem C88_recorded (h1 : 0 < n1) (h2 : 0 < n2) (hne : n1 ≠ n2) (hdef : ∀ o ∈ objs, o.Default) (hs : AllSurfs (FlatFace n1 n2) objs)
    (hp : LegalRay n1 n2 p) (h : LightPath (objs.flatMap Obj.surfs) w none p path r l none) {b : Bundle ℝ E} (hb : p ∈ b)
    {reps : Nat} (hreps : path.length ≤ reps) {minE : ℝ} (h0 : 0 ≤ minE) (he : minE < r.energy) {res : TraceResult σ ℝ E}
    (hres : rayTracer objs w b reps minE true = .ok res) :
    ∃ r' ∈ (res.tree[path.length]?).getD [], r'.strip = r.strip := by
  have hm : AllSurfs SpecularSurf objs := fun o ho s hso => (hs o ho s hso).specular
  have hall : ∀ s ∈ objs.flatMap Obj.surfs, FlatFace n1 n2 s := by
    intro s hmem
    obtain ⟨o, ho, hso⟩ := List.mem_flatMap.1 hmem
    exact hs o ho s hso
  have hgen := h.generations h1 h2 hne hall h0 hp he (b := b) (k := 0) hb
  rw [Nat.zero_add] at hgen
  have hperm := C14_exact hdef (fun o ho s hso => ((hm o ho s hso).spec w).1) (fun o ho s hso => ((hm o ho s hso).spec w).2.1)
    (fun o ho s hso => ((hm o ho s hso).spec w).2.2.1) (hm.specular_blind w) hres hreps
  obtain ⟨r', hr', e⟩ := List.mem_map.1 (hperm.mem_iff.2 (List.mem_map.2 ⟨r, hgen, rfl⟩))
  exact ⟨r', hr', e⟩

/-- C88: source and target can be exchanged.  If light goes from the point where `p` starts to the point at `l` on `r`, then light sent
from there against `r` arrives at the point where `p` starts, against `p`.  Traces in either direction record it, after as many
reflections and refractions.  What arrives is the same fraction of what was sent: `r.energy / p.energy`. -/
theorem C88_reciprocity (h1 : 0 < n1) (h2 : 0 < n2) (hne : n1 ≠ n2) (hdef : ∀ o ∈ objs, o.Default) (hs : AllSurfs (FlatFace n1 n2) objs)
    (hp : LegalRay n1 n2 p) (hpos : 0 < p.energy) (h : LightPath (objs.flatMap Obj.surfs) w none p path r l none)
    {back : Ray ℝ E} (hv : back.vertex = r.at l) (hd : back.dir = -r.dir) (href : back.ref = r.ref)
    {b b' : Bundle ℝ E} (hb : p ∈ b) (hb' : back ∈ b') {reps reps' : Nat} (hreps : path.length ≤ reps) (hreps' : path.length ≤ reps')
    {minE minE' : ℝ} (h0 : 0 ≤ minE) (h0' : 0 ≤ minE') (he : minE < r.energy) (he' : minE' < back.energy * (r.energy / p.energy))
    (hsome : ∃ o ∈ objs, o.surfs ≠ []) (hbl : ∀ r ∈ b, LegalRay n1 n2 r) (hbl' : ∀ r ∈ b', LegalRay n1 n2 r) (w' : σ) :
    ∃ res res', rayTracer objs w b reps minE true = .ok res ∧ rayTracer objs w' b' reps' minE' true = .ok res' ∧
      (∃ q ∈ (res.tree[path.length]?).getD [],
        q.energy = p.energy * (r.energy / p.energy) ∧ q.at l = back.vertex ∧ q.dir = -back.dir ∧ q.ref = back.ref) ∧
      ∃ q ∈ (res'.tree[path.length]?).getD [],
        q.energy = back.energy * (r.energy / p.energy) ∧ (∃ l', 0 < l' ∧ q.at l' = p.vertex) ∧ q.dir = -p.dir ∧ q.ref = p.ref := by
  obtain ⟨res, hres⟩ := flatFaces_trace h1 h2 hne hdef hs hsome w hbl reps minE
  obtain ⟨res', hres'⟩ := flatFaces_trace h1 h2 hne hdef hs hsome w' hbl' reps' minE'
  refine ⟨res, res', hres, hres', ?_⟩
  have hall : ∀ s ∈ objs.flatMap Obj.surfs, FlatFace n1 n2 s := by
    intro s hmem
    obtain ⟨o, ho, hso⟩ := List.mem_flatMap.1 hmem
    exact hs o ho s hso
  obtain ⟨hleg, φ, f0, f1, hφ, hback⟩ := h.back h1 h2 hne hall hp
  obtain ⟨p', l', hpath, e1, e2, e3, e4⟩ := hback w' back hv hd href
  have hfrac : r.energy / p.energy = φ := by rw [hφ]; field_simp
  have hlegb : LegalRay n1 n2 back := ⟨by rw [hd]; exact isUnit_neg hleg.1, by rw [href]; exact hleg.2⟩
  have hE' : p'.energy = back.energy * (r.energy / p.energy) := by rw [e4, hfrac, mul_comm]
  have fields : ∀ q r : Ray ℝ E, q.strip = r.strip → q.vertex = r.vertex ∧ q.dir = r.dir ∧ q.energy = r.energy ∧ q.ref = r.ref := by
    intro q r e
    unfold Ray.strip at e
    simp only [Ray.mk.injEq] at e
    exact ⟨e.1, e.2.1, e.2.2.1, e.2.2.2.2.1⟩
  constructor
  · obtain ⟨q, hq, e⟩ := C88_recorded h1 h2 hne hdef hs hp h hb hreps h0 he hres
    obtain ⟨ev, ed, ee, er⟩ := fields _ _ e
    refine ⟨q, hq, ?_, ?_, ?_, er.trans href.symm⟩
    · rw [ee, mul_div_cancel₀ _ hpos.ne']
    · rw [hv]; unfold Ray.at; rw [ev, ed]
    · rw [hd, ed]; apply V3.ext <;> simp
  · obtain ⟨q, hq, e⟩ := C88_recorded h1 h2 hne hdef hs hlegb hpath hb' (by rw [List.length_reverse]; exact hreps') h0'
      (by rw [hE']; exact he') hres'
    rw [List.length_reverse] at hq
    obtain ⟨ev, ed, ee, er⟩ := fields _ _ e
    obtain ⟨_, hlast⟩ := hpath.last
    have hl' : 0 < l' := lt_trans (by norm_num) hlast.long
    refine ⟨q, hq, ee.trans hE', ⟨l', hl', ?_⟩, ed.trans e1, er.trans e3⟩
    rw [← e2]; unfold Ray.at; rw [ev, ed]

end

/-! ### A concrete case -/

namespace Examples

/-- Glass under a flat face. -/
noncomputable def glassFace : Surf Unit ℝ Unit := mkSurf flatGM (refractiveHomogenous 1 (3 / 2)) ⟨1, ⟨0, 0, 0⟩⟩

/-- The frame of a tilted mirror in the glass. -/
noncomputable def tiltFrame : Tf ℝ := ⟨⟨⟨4 / 5, 0, -3 / 5⟩, ⟨0, 1, 0⟩, ⟨3 / 5, 0, 4 / 5⟩⟩, ⟨0, 0, -1⟩⟩

/-- A tilted mirror in the glass, that absorbs a tenth. -/
noncomputable def tiltMirror : Surf Unit ℝ Unit := mkSurf (finiteFlatGM (rectOutside 1 1)) (reflective (1 / 10)) tiltFrame

theorem tiltFrame_rigid : tiltFrame.Rigid := by
  refine (M3.isRotation_iff _).2 ⟨⟨?_, ?_, ?_, ?_, ?_, ?_⟩, ?_⟩ <;>
    simp [tiltFrame, V3.dot, V3.cross, M3.det] <;> norm_num

theorem glassFace_single (r : Ray ℝ Unit) (t : ℝ) :
    glassFace.single r = (t : WithTop ℝ) ↔ 1 / 10 ^ 10 < |r.dir.z| ∧ t * r.dir.z = -r.vertex.z ∧ 0 ≤ t := by
  unfold glassFace
  rw [single_of_perRay flatGM_perRay, flatParam_eq_finite, finiteParam_iff]
  simp [V3.dot, M3.one_c3]

theorem tiltMirror_single (r : Ray ℝ Unit) (t : ℝ) :
    tiltMirror.single r = (t : WithTop ℝ) ↔ 1 / 10 ^ 10 < |3 / 5 * r.dir.x + 4 / 5 * r.dir.z| ∧
      t * (3 / 5 * r.dir.x + 4 / 5 * r.dir.z) = -(3 / 5 * r.vertex.x + 4 / 5 * (r.vertex.z + 1)) ∧ 0 ≤ t ∧
        OverPlate tiltFrame 1 1 (r.at t) := by
  unfold tiltMirror
  rw [plate_single tiltFrame_rigid]
  have e1 : V3.dot r.dir tiltFrame.rot.c3 = 3 / 5 * r.dir.x + 4 / 5 * r.dir.z := by simp [tiltFrame, V3.dot]; ring
  have e2 : V3.dot (r.vertex - tiltFrame.loc) tiltFrame.rot.c3 = 3 / 5 * r.vertex.x + 4 / 5 * (r.vertex.z + 1) := by
    simp [tiltFrame, V3.dot]; ring
  rw [e1, e2]

/-- A ray that comes straight down on the glass. -/
noncomputable def downRay : Ray ℝ Unit := ⟨⟨0, 0, 1⟩, ⟨0, 0, -1⟩, 1, 0, some 1, ()⟩

theorem downRay_enters : ∃ x : ℝ, (⟨⟨0, 0, 0⟩, ⟨0, 0, -1⟩, 24 / 25, 0, some x, ()⟩ : Ray ℝ Unit) ∈ glassFace.alone () downRay ∧ x = 3 / 2 := by
  have hs : Snell 1 (3 / 2) downRay.dir (⟨1, ⟨0, 0, 0⟩⟩ : Tf ℝ).rot.c3 ⟨0, 0, -1⟩ := by
    refine ⟨by simp [V3.IsUnit, V3.dot], ?_, ?_⟩
    · simp [downRay, V3.cross, V3.ext_iff]
    · simp [downRay, V3.dot]
  have hit := (glassFace_single downRay 1).2 (by simp [downRay]; norm_num)
  have hfind : (flatGM : Geometry ℝ Unit).find ⟨1, ⟨0, 0, 0⟩⟩ [downRay] = [((1 : ℝ) : WithTop ℝ)] := by
    unfold glassFace at hit
    rw [single_of_perRay flatGM_perRay] at hit
    rw [← hit]
    rfl
  refine ⟨3 / 2, ?_, rfl⟩
  unfold glassFace
  rw [face_alone (a := 1) (b := 3 / 2) (by norm_num) (by norm_num) (by norm_num) (by simp [toggleRefIdx]) (by simp [V3.IsUnit, V3.dot]) rfl ()
    hfind (by simp [downRay, V3.IsUnit, V3.dot]) rfl hs (by simp [downRay, V3.dot])]
  refine List.mem_cons_of_mem _ (List.mem_singleton.2 ?_)
  simp only [downRay, Ray.at, fresnelMean, V3.dot]
  refine Ray.mk.injEq .. ▸ ⟨?_, rfl, ?_, rfl, rfl, rfl⟩
  · apply V3.ext <;> simp
  · simp; norm_num

/-- Down through the face of the glass, from the mirror up to the face, and totally reflected there. -/
theorem downRay_path : ∃ r : Ray ℝ Unit, LightPath [glassFace, tiltMirror] () none downRay [glassFace, tiltMirror, glassFace] r 1 none ∧
    r.dir = ⟨24 / 25, 0, -7 / 25⟩ ∧ r.vertex = ⟨24 / 7, 0, 0⟩ ∧ r.energy = 108 / 125 ∧ r.ref = some (3 / 2) := by
  obtain ⟨x, henter, rfl⟩ := downRay_enters
  have hover : OverPlate tiltFrame 1 1 ⟨0, 0, -1⟩ := by
    simp [OverPlate, tiltFrame, V3.dot]
  have hmirror : (⟨⟨0, 0, -1⟩, ⟨24 / 25, 0, 7 / 25⟩, 108 / 125, 0, some (3 / 2), ()⟩ : Ray ℝ Unit) ∈
      tiltMirror.alone () ⟨⟨0, 0, 0⟩, ⟨0, 0, -1⟩, 24 / 25, 0, some (3 / 2), ()⟩ := by
    have hit := (tiltMirror_single ⟨⟨0, 0, 0⟩, ⟨0, 0, -1⟩, 24 / 25, 0, some (3 / 2), ()⟩ 1).2
      ⟨by norm_num [abs_of_neg], by norm_num, by norm_num, by convert hover using 1; unfold Ray.at; apply V3.ext <;> simp⟩
    unfold tiltMirror at hit ⊢
    rw [alone_reflective (finiteFlatGM_perRay _) () hit]
    refine List.mem_singleton.2 ?_
    have hN : ∀ v : V3 ℝ, (finiteFlatGM (rectOutside 1 1) : Geometry ℝ Unit).normal tiltFrame v ⟨0, 0, -1⟩ = ⟨3 / 5, 0, 4 / 5⟩ := by
      intro v
      change flatNormal tiltFrame v ⟨0, 0, -1⟩ = _
      unfold flatNormal
      rw [if_neg (by simp [tiltFrame, V3.dot]; norm_num)]
      rfl
    simp only [hN, reflectOne, reflection, Ray.at, V3.dot]
    refine Ray.mk.injEq .. ▸ ⟨?_, ?_, ?_, rfl, rfl, rfl⟩
    · apply V3.ext <;> simp
    · apply V3.ext <;> simp <;> norm_num
    · norm_num
  have htotal : (⟨⟨24 / 7, 0, 0⟩, ⟨24 / 25, 0, -7 / 25⟩, 108 / 125, 0, some (3 / 2), ()⟩ : Ray ℝ Unit) ∈
      glassFace.alone () ⟨⟨0, 0, -1⟩, ⟨24 / 25, 0, 7 / 25⟩, 108 / 125, 0, some (3 / 2), ()⟩ := by
    have hit := (glassFace_single ⟨⟨0, 0, -1⟩, ⟨24 / 25, 0, 7 / 25⟩, 108 / 125, 0, some (3 / 2), ()⟩ (25 / 7)).2
      ⟨by norm_num [abs_of_pos], by norm_num, by norm_num⟩
    unfold glassFace at hit ⊢
    have hrec := hitRecs_single flatGM_perRay hit
    have hN : ∀ v : V3 ℝ, (flatGM : Geometry ℝ Unit).normal ⟨1, ⟨0, 0, 0⟩⟩ v ⟨24 / 25, 0, 7 / 25⟩ = ⟨0, 0, -1⟩ := by
      intro v
      change flatNormal ⟨1, ⟨0, 0, 0⟩⟩ v ⟨24 / 25, 0, 7 / 25⟩ = _
      unfold flatNormal
      rw [if_pos (by simp [V3.dot])]
      apply V3.ext <;> simp
    rw [hN] at hrec
    unfold Surf.alone mkSurf
    simp only [hrec]
    rw [refractive_call (by norm_num) (by norm_num) (by norm_num) _ _ (by simp [V3.IsUnit, V3.dot]) (by simp [V3.IsUnit, V3.dot]; norm_num)
      (Or.inr rfl)]
    refine List.mem_cons.2 (Or.inl ?_)
    have hR : ∀ (v : V3 ℝ), hitR 1 (3 / 2) (⟨0, ⟨⟨0, 0, -1⟩, ⟨24 / 25, 0, 7 / 25⟩, 108 / 125, 0, some (3 / 2), ()⟩, v, ⟨0, 0, -1⟩⟩ : HitRec ℝ Unit) = 1 := by
      intro v
      unfold hitR
      rw [if_neg]
      simp [hitRefr, idxIn, idxOut, toggleRefIdx, refractedOne, V3.dot]
      norm_num
    simp only [hitReflected, reflectedRay, hR, reflection, Ray.at, V3.dot]
    refine Ray.mk.injEq .. ▸ ⟨?_, ?_, ?_, rfl, rfl, rfl⟩
    · apply V3.ext <;> simp <;> norm_num
    · apply V3.ext <;> simp <;> norm_num
    · norm_num
  refine ⟨_, .turn (t := 1) ?_ henter (.turn (t := 1) ?_ hmirror (.turn (t := 25 / 7) ?_ htotal (.straight ?_))), rfl, rfl, rfl, rfl⟩
  · refine ⟨by norm_num, by simp, ?_, ?_⟩
    · rintro s ⟨⟩
      exact ⟨by simp, (glassFace_single _ _).2 (by simp [downRay]; norm_num)⟩
    · intro s hs t ht htl
      rcases List.mem_cons.1 hs with rfl | hs
      · rw [glassFace_single] at ht
        simp only [downRay] at ht
        exact Or.inr ⟨rfl, by linarith [ht.2.1]⟩
      · obtain rfl := List.mem_singleton.1 hs
        rw [tiltMirror_single] at ht
        simp only [downRay] at ht
        linarith [ht.2.1]
  · refine ⟨by norm_num, ?_, ?_, ?_⟩
    · rintro s ⟨⟩
      exact ⟨by simp, (glassFace_single _ _).2 (by norm_num)⟩
    · rintro s ⟨⟩
      exact ⟨by simp, (tiltMirror_single _ _).2
        ⟨by norm_num [abs_of_neg], by norm_num, by norm_num, by convert hover using 1; unfold Ray.at; apply V3.ext <;> simp⟩⟩
    · intro s hs t ht htl
      rcases List.mem_cons.1 hs with rfl | hs
      · rw [glassFace_single] at ht
        exact Or.inl ⟨rfl, by linarith [ht.2.1]⟩
      · obtain rfl := List.mem_singleton.1 hs
        rw [tiltMirror_single] at ht
        exact Or.inr ⟨rfl, by linarith [ht.2.1]⟩
  · refine ⟨by norm_num, ?_, ?_, ?_⟩
    · rintro s ⟨⟩
      exact ⟨by simp, (tiltMirror_single _ _).2
        ⟨by norm_num [abs_of_pos], by norm_num, le_rfl, by convert hover using 1; unfold Ray.at; apply V3.ext <;> simp⟩⟩
    · rintro s ⟨⟩
      exact ⟨by simp, (glassFace_single _ _).2 ⟨by norm_num [abs_of_pos], by norm_num, by norm_num⟩⟩
    · intro s hs t ht htl
      rcases List.mem_cons.1 hs with rfl | hs
      · rw [glassFace_single] at ht
        exact Or.inr ⟨rfl, by linarith [ht.2.1]⟩
      · obtain rfl := List.mem_singleton.1 hs
        rw [tiltMirror_single] at ht
        exact Or.inl ⟨rfl, by linarith [ht.2.1]⟩
  · refine ⟨by norm_num, ?_, by simp, ?_⟩
    · rintro s ⟨⟩
      exact ⟨by simp, (glassFace_single _ _).2 ⟨by norm_num [abs_of_neg], by norm_num, le_rfl⟩⟩
    · intro s hs t ht htl
      rcases List.mem_cons.1 hs with rfl | hs
      · rw [glassFace_single] at ht
        exact Or.inl ⟨rfl, by linarith [ht.2.1]⟩
      · obtain rfl := List.mem_singleton.1 hs
        rw [tiltMirror_single] at ht
        simp only at ht
        linarith [ht.2.1]

/-- Both surfaces are flat faces of the package. -/
theorem tilt_faces : ∀ s ∈ [glassFace, tiltMirror], FlatFace 1 (3 / 2) s := by
  intro s hs
  rcases List.mem_cons.1 hs with rfl | hs
  · exact ⟨_, _, _, rfl, .flat, .refractive, Tf.Rigid.one⟩
  · obtain rfl := List.mem_singleton.1 hs
    refine ⟨_, _, _, rfl, .rect 1 1 _ ?_, .mirror _ (by norm_num) (by norm_num), tiltFrame_rigid⟩
    unfold rectPlateGM
    rw [if_neg (by norm_num), if_neg (by norm_num)]

/-- The hypotheses of C88 are met: this path can be reversed, and 108/125 of the light goes along it either way. -/
example : ∃ p' l', LightPath [glassFace, tiltMirror] () none ⟨⟨24 / 7 + 24 / 25, 0, -7 / 25⟩, ⟨-24 / 25, 0, 7 / 25⟩, 5, 0, some (3 / 2), ()⟩
    [glassFace, tiltMirror, glassFace] p' l' none ∧ p'.dir = ⟨0, 0, 1⟩ ∧ p'.at l' = ⟨0, 0, 1⟩ ∧ p'.ref = some 1 ∧ p'.energy = 5 * (108 / 125) := by
  obtain ⟨r, hpath, hd, hv, he, hr⟩ := downRay_path
  obtain ⟨φ, -, -, hφ, hback⟩ := C88_reversible (by norm_num) (by norm_num) (by norm_num) tilt_faces
    ⟨by simp [downRay, V3.IsUnit, V3.dot], Or.inl rfl⟩ hpath
  obtain ⟨p', l', h, e1, e2, e3, e4⟩ := hback ()
    ⟨⟨24 / 7 + 24 / 25, 0, -7 / 25⟩, ⟨-24 / 25, 0, 7 / 25⟩, 5, 0, some (3 / 2), ()⟩
    (by unfold Ray.at; rw [hv, hd]; apply V3.ext <;> simp) (by rw [hd]; apply V3.ext <;> simp <;> norm_num) hr.symm
  have hval : φ = 108 / 125 := by rw [he] at hφ; simpa [downRay] using hφ.symm
  refine ⟨p', l', h, ?_, e2, e3, ?_⟩
  · rw [e1]; apply V3.ext <;> simp [downRay]
  · rw [e4, hval]; norm_num

/-- The hypotheses of the theorem about traces are met. -/
example : ∃ res res', rayTracer [⟨[glassFace, tiltMirror], Obj.defaultOwn, Obj.defaultNext 2⟩] () [downRay] 4 (1 / 2) true = .ok res ∧
    rayTracer [⟨[glassFace, tiltMirror], Obj.defaultOwn, Obj.defaultNext 2⟩] ()
      [(⟨⟨24 / 7 + 24 / 25, 0, -7 / 25⟩, ⟨-24 / 25, 0, 7 / 25⟩, 5, 0, some (3 / 2), ()⟩ : Ray ℝ Unit)] 3 1 true = .ok res' ∧
    (∃ q ∈ (res.tree[3]?).getD [], q.energy = 108 / 125) ∧
    ∃ q ∈ (res'.tree[3]?).getD [], q.energy = 5 * (108 / 125) ∧ q.dir = ⟨0, 0, 1⟩ := by
  obtain ⟨r, hpath, hd, hv, he, hr⟩ := downRay_path
  have hleg : LegalRay 1 (3 / 2) downRay := ⟨by simp [downRay, V3.IsUnit, V3.dot], Or.inl rfl⟩
  have he' : downRay.energy = 1 := rfl
  obtain ⟨res, res', h1, h2, ⟨q, hq, eq, -⟩, q', hq', eq', -, ed', -⟩ :=
    C88_reciprocity (objs := [⟨[glassFace, tiltMirror], Obj.defaultOwn, Obj.defaultNext 2⟩]) (w := ()) (p := downRay) (r := r) (l := 1)
      (path := [glassFace, tiltMirror, glassFace])
      (back := ⟨⟨24 / 7 + 24 / 25, 0, -7 / 25⟩, ⟨-24 / 25, 0, 7 / 25⟩, 5, 0, some (3 / 2), ()⟩) (b := [downRay])
      (b' := [⟨⟨24 / 7 + 24 / 25, 0, -7 / 25⟩, ⟨-24 / 25, 0, 7 / 25⟩, 5, 0, some (3 / 2), ()⟩]) (reps := 4) (reps' := 3) (minE := 1 / 2) (minE' := 1)
      (n1 := 1) (n2 := 3 / 2) (by norm_num) (by norm_num) (by norm_num) (fun o ho => by obtain rfl := List.mem_singleton.1 ho; exact ⟨rfl, rfl⟩)
      (fun o ho => by obtain rfl := List.mem_singleton.1 ho; exact tilt_faces) hleg (by rw [he']; norm_num) hpath
      (by unfold Ray.at; rw [hv, hd]; apply V3.ext <;> simp) (by rw [hd]; apply V3.ext <;> simp <;> norm_num) hr.symm
      (by simp) (by simp) (by simp) (by simp) (by norm_num) (by norm_num) (by rw [he]; norm_num) (by rw [he, he']; norm_num)
      ⟨_, List.mem_singleton.2 rfl, by simp⟩ (fun r h => by obtain rfl := List.mem_singleton.1 h; exact hleg)
      (fun r h => by
        obtain rfl := List.mem_singleton.1 h
        exact ⟨by simp [V3.IsUnit, V3.dot]; norm_num, Or.inr rfl⟩) ()
  refine ⟨res, res', h1, h2, ⟨q, hq, ?_⟩, q', hq', ?_, ?_⟩
  · rw [eq, he', he]; norm_num
  · rw [eq', he', he]; norm_num
  · rw [ed']; apply V3.ext <;> simp [downRay]

end Examples

end Tracer
