import Verif.Lemmas.TubeCourse
import Verif.Props.Collectors
import Verif.Props.CurvedMirrors

/-! The scene of a homogenized receiver. -/

set_option linter.unusedSectionVars false

namespace Tracer

open Real

variable {E σ : Type _}

/-- A wall of the homogenizer, as it is in the assembly. -/
noncomputable def wallNode (own : Tf ℝ) (g : Geometry ℝ E) (F : Tf ℝ) (eff : ℝ) : SceneObj σ ℝ E :=
  ⟨own, [⟨1, F, (g, absorberReflector (1 - eff))⟩], (Obj.defaultOwn, Obj.skipNext 1)⟩

/-- The receiver. -/
noncomputable def receiverNode (g : Geometry ℝ E) (F : Tf ℝ) (get : σ → Account ℝ) (set : Account ℝ → σ → σ) : SceneObj σ ℝ E :=
  ⟨F, [⟨1, F, (g, reflectiveReceiver 1 get set)⟩,
    ⟨⟨1, ⟨0, 0, -(1 / 10 ^ 10)⟩⟩, F * ⟨1, ⟨0, 0, -(1 / 10 ^ 10)⟩⟩, (g, reflective 1)⟩], (Obj.defaultOwn, Obj.skipNext 2)⟩

/-- The reflector. -/
noncomputable def reflectorNode (reflector : SceneSurf σ ℝ E) : SceneObj σ ℝ E :=
  ⟨1, [⟨reflector.own, reflector.own, reflector.data⟩], (Obj.defaultOwn, Obj.defaultNext 1)⟩

theorem tube_of_hanging {x y lo hi : ℝ} (hx : 0 < x) (hy : 0 < y) :
    hangingSides x y lo hi = [(tubeSet x y lo hi 0, tubeNormal 0), (tubeSet x y lo hi 1, tubeNormal 1), (tubeSet x y lo hi 2, tubeNormal 2),
      (tubeSet x y lo hi 3, tubeNormal 3)] := by
  have all : ∀ p : V3 ℝ, (∀ j < 4, -tubeHalf x y j ≤ V3.dot p (tubeNormal j)) ↔ |p.x| ≤ x / 2 ∧ |p.y| ≤ y / 2 := by
    intro p
    constructor
    · intro h
      have h0 := h 0 (by omega)
      have h1 := h 1 (by omega)
      have h2 := h 2 (by omega)
      have h3 := h 3 (by omega)
      simp only [tubeHalf, tubeNormal, V3.dot] at h0 h1 h2 h3
      exact ⟨abs_le.2 ⟨by linarith, by linarith⟩, abs_le.2 ⟨by linarith, by linarith⟩⟩
    · rintro ⟨h1, h2⟩
      exact tube_all h1 h2
  have ax : ∀ u : ℝ, u = x / 2 ∨ u = -(x / 2) → |u| ≤ x / 2 := by
    rintro u (rfl | rfl)
    · rw [abs_of_pos (by linarith)]
    · rw [abs_neg, abs_of_pos (by linarith)]
  have ay : ∀ u : ℝ, u = y / 2 ∨ u = -(y / 2) → |u| ≤ y / 2 := by
    rintro u (rfl | rfl)
    · rw [abs_of_pos (by linarith)]
    · rw [abs_neg, abs_of_pos (by linarith)]
  have e0 : (fun p : V3 ℝ => p.x = x / 2 ∧ |p.y| ≤ y / 2 ∧ lo ≤ p.z ∧ p.z ≤ hi) = tubeSet x y lo hi 0 := by
    funext p
    apply propext
    unfold tubeSet
    rw [all p]
    simp only [tubeHalf, tubeNormal, V3.dot]
    constructor
    · rintro ⟨h1, h2, h3⟩
      exact ⟨by linarith, ⟨ax _ (Or.inl h1), h2⟩, h3⟩
    · rintro ⟨h1, ⟨_, h2⟩, h3⟩
      exact ⟨by linarith, h2, h3⟩
  have e1 : (fun p : V3 ℝ => p.x = -(x / 2) ∧ |p.y| ≤ y / 2 ∧ lo ≤ p.z ∧ p.z ≤ hi) = tubeSet x y lo hi 1 := by
    funext p
    apply propext
    unfold tubeSet
    rw [all p]
    simp only [tubeHalf, tubeNormal, V3.dot]
    constructor
    · rintro ⟨h1, h2, h3⟩
      exact ⟨by linarith, ⟨ax _ (Or.inr h1), h2⟩, h3⟩
    · rintro ⟨h1, ⟨_, h2⟩, h3⟩
      exact ⟨by linarith, h2, h3⟩
  have e2 : (fun p : V3 ℝ => p.y = -(y / 2) ∧ |p.x| ≤ x / 2 ∧ lo ≤ p.z ∧ p.z ≤ hi) = tubeSet x y lo hi 2 := by
    funext p
    apply propext
    unfold tubeSet
    rw [all p]
    simp only [tubeHalf, tubeNormal, V3.dot]
    constructor
    · rintro ⟨h1, h2, h3⟩
      exact ⟨by linarith, ⟨h2, ay _ (Or.inr h1)⟩, h3⟩
    · rintro ⟨h1, ⟨h2, _⟩, h3⟩
      exact ⟨by linarith, h2, h3⟩
  have e3 : (fun p : V3 ℝ => p.y = y / 2 ∧ |p.x| ≤ x / 2 ∧ lo ≤ p.z ∧ p.z ≤ hi) = tubeSet x y lo hi 3 := by
    funext p
    apply propext
    unfold tubeSet
    rw [all p]
    simp only [tubeHalf, tubeNormal, V3.dot]
    constructor
    · rintro ⟨h1, h2, h3⟩
      exact ⟨by linarith, ⟨h2, ay _ (Or.inl h1)⟩, h3⟩
    · rintro ⟨h1, ⟨h2, _⟩, h3⟩
      exact ⟨by linarith, h2, h3⟩
  unfold hangingSides
  rw [e0, e1, e2, e3]
  rfl

theorem collector_scene (reflector : SceneSurf σ ℝ E) (pos : ℝ) {x y depth : ℝ} (hx : 0 < x) (hy : 0 < y) (hd : 0 < depth)
    (eff : ℝ) (get : σ → Account ℝ) (set : Account ℝ → σ → σ) (junk : M3 ℝ) :
    ∃ (a : SceneAsm σ ℝ E) (own fw : Nat → Tf ℝ) (gw : Nat → Geometry ℝ E) (g : Geometry ℝ E),
      homogenizedLocalReceiver reflector pos (x, y) depth eff get set junk = .ok a ∧ rectPlateGM x y = .ok g ∧
      (∀ k, ∃ W L, rectPlateGM W L = .ok (gw k)) ∧ (∀ k, (fw k).Rigid) ∧
      a.getObjects = [wallNode (own 0) (gw 0) (fw 0) eff, wallNode (own 1) (gw 1) (fw 1) eff, wallNode (own 2) (gw 2) (fw 2) eff,
        wallNode (own 3) (gw 3) (fw 3) eff, receiverNode g (translate 0 0 pos * rotx π) get set, reflectorNode reflector] ∧
      ∀ k < 4, (wallNode (own k) (gw k) (fw k) eff : SceneObj σ ℝ E).IsMirror (tubeSet x y (pos - depth) pos k) (tubeNormal k) (1 - eff) := by
  obtain ⟨a, walls, receiver, refl, ha, ho, hw, hr, hs⟩ := C68_layout (σ := σ) (E := E) reflector pos hx hy hd eff get set junk
  obtain ⟨g, hg⟩ := (C31_constructor (K := ℝ) (E := E) x y).1 ⟨hx, hy⟩
  obtain ⟨g1, hg1⟩ := (C31_constructor (K := ℝ) (E := E) depth y).1 ⟨hd, hy⟩
  obtain ⟨g2, hg2⟩ := (C31_constructor (K := ℝ) (E := E) x depth).1 ⟨hx, hd⟩
  have rx := fun θ => (C26_rigid θ 0 0 0).1
  have ry := fun θ => (C26_rigid θ 0 0 0).2.1
  have rt := fun a b c => (C26_rigid 0 a b c).2.2.2.1
  let own : Nat → Tf ℝ
    | 0 => translate (x / 2) 0 (depth / 2) * roty (-π / 2)
    | 1 => translate (-x / 2) 0 (depth / 2) * roty (π / 2)
    | 2 => translate 0 (y / 2) (depth / 2) * rotx (π / 2)
    | _ => translate 0 (-y / 2) (depth / 2) * rotx (-π / 2)
  let gw : Nat → Geometry ℝ E
    | 0 => g1
    | 1 => g1
    | _ => g2
  have hown : ∀ k, (own k).Rigid := by
    intro k
    match k with
    | 0 => exact (rt _ _ _).mul (ry _)
    | 1 => exact (rt _ _ _).mul (ry _)
    | 2 => exact (rt _ _ _).mul (rx _)
    | k + 3 => exact (rt _ _ _).mul (rx _)
  have hobjs : a.getObjects = [wallNode (own 0) (gw 0) (translate 0 0 pos * rotx π * own 0) eff,
      wallNode (own 1) (gw 1) (translate 0 0 pos * rotx π * own 1) eff, wallNode (own 2) (gw 2) (translate 0 0 pos * rotx π * own 2) eff,
        wallNode (own 3) (gw 3) (translate 0 0 pos * rotx π * own 3) eff, receiverNode g (translate 0 0 pos * rotx π) get set,
        reflectorNode reflector] := by
    unfold homogenizedLocalReceiver oneSidedReceiver rectHomogenizer rectOneSidedMirror at ha
    simp only [hg, hg1, hg2] at ha
    cases ha
    rw [new_sub_getObjects, set_transform_twice, new_set_getObjects]
    simp only [List.map_cons, List.map_nil, List.cons_append, List.nil_append]
    have e1 : ∀ (o : Tf ℝ) (g : Geometry ℝ E) (T : Tf ℝ), ((ObjNode.new [Surface.new g (absorberReflector (1 - eff)) 1] 1
        (Obj.defaultOwn, Obj.skipNext 1) : SceneObj σ ℝ E).set (.transform o)).transformChildren T = wallNode o g (T * o) eff := by
      intro o g T
      have e : ((ObjNode.new [Surface.new g (absorberReflector (1 - eff)) 1] 1
        (Obj.defaultOwn, Obj.skipNext 1) : SceneObj σ ℝ E).set (.transform o)).transformChildren T =
          ⟨o, [⟨1, T * o * 1, (g, absorberReflector (1 - eff))⟩], (Obj.defaultOwn, Obj.skipNext 1)⟩ := rfl
      rw [e, Tf.mul_one']
      rfl
    have e2 : ((ObjNode.new [Surface.new g (reflectiveReceiver 1 get set) 1, Surface.new g (reflective 1) ⟨1, ⟨0, 0, -(1 / 10 ^ 10)⟩⟩] 1
        (Obj.defaultOwn, Obj.skipNext 2) : SceneObj σ ℝ E).set (.transform (translate 0 0 pos * rotx π))).transformChildren 1 =
          receiverNode g (translate 0 0 pos * rotx π) get set := by
      generalize translate 0 0 pos * rotx π = F
      have e : ((ObjNode.new [Surface.new g (reflectiveReceiver 1 get set) 1, Surface.new g (reflective 1) ⟨1, ⟨0, 0, -(1 / 10 ^ 10)⟩⟩] 1
        (Obj.defaultOwn, Obj.skipNext 2) : SceneObj σ ℝ E).set (.transform F)).transformChildren 1 =
          ⟨F, [⟨1, 1 * F * 1, (g, reflectiveReceiver 1 get set)⟩,
            ⟨⟨1, ⟨0, 0, -(1 / 10 ^ 10)⟩⟩, 1 * F * ⟨1, ⟨0, 0, -(1 / 10 ^ 10)⟩⟩, (g, reflective 1)⟩], (Obj.defaultOwn, Obj.skipNext 2)⟩ := rfl
      rw [e, Tf.mul_one', Tf.one_mul']
      rfl
    have e3 : (ObjNode.new [reflector] 1 (Obj.defaultOwn, Obj.defaultNext 1) : SceneObj σ ℝ E).transformChildren 1 = reflectorNode reflector := by
      have e : (ObjNode.new [reflector] 1 (Obj.defaultOwn, Obj.defaultNext 1) : SceneObj σ ℝ E).transformChildren 1 =
        ⟨1, [⟨reflector.own, 1 * 1 * reflector.own, reflector.data⟩], (Obj.defaultOwn, Obj.defaultNext 1)⟩ := rfl
      rw [e, Tf.one_mul', Tf.one_mul']
      rfl
    rw [e1, e1, e1, e1, e2, e3]
    rfl
  refine ⟨a, own, fun k => translate 0 0 pos * rotx π * own k, gw, g, ha, hg, ?_, fun k => (receiverFrame_rigid pos).mul (hown k), hobjs, ?_⟩
  · intro k
    match k with
    | 0 => exact ⟨_, _, hg1⟩
    | 1 => exact ⟨_, _, hg1⟩
    | k + 2 => exact ⟨_, _, hg2⟩
  · rw [ho] at hobjs
    rw [tube_of_hanging hx hy] at hw
    have hwe : walls = [wallNode (own 0) (gw 0) (translate 0 0 pos * rotx π * own 0) eff,
      wallNode (own 1) (gw 1) (translate 0 0 pos * rotx π * own 1) eff, wallNode (own 2) (gw 2) (translate 0 0 pos * rotx π * own 2) eff,
        wallNode (own 3) (gw 3) (translate 0 0 pos * rotx π * own 3) eff] := by
      exact (List.append_inj (t₁ := [receiver, refl]) (t₂ := [receiverNode g (translate 0 0 pos * rotx π) get set, reflectorNode reflector])
        (hobjs.trans rfl) (by rw [hw.length_eq]; rfl)).1
    rw [hwe] at hw
    cases hw with
    | cons h1 hw =>
    cases hw with
    | cons h2 hw =>
    cases hw with
    | cons h3 hw =>
    cases hw with
    | cons h4 hw =>
    intro k hk
    obtain rfl | rfl | rfl | rfl : k = 0 ∨ k = 1 ∨ k = 2 ∨ k = 3 := by omega
    · exact h1
    · exact h2
    · exact h3
    · exact h4

/-- A hit as the optics callable is given it. -/
theorem hitRecs_single {g : Geometry ℝ E} {f} (hg : g.PerRay f) {opt : Optics σ ℝ E} {frame : Tf ℝ} {r : Ray ℝ E} {t : ℝ}
    (h : (mkSurf g opt frame).single r = (t : WithTop ℝ)) :
    hitRecs g frame [r] [0] = .ok [⟨0, r, r.at t, g.normal frame (r.at t) r.dir⟩] := by
  have h1 : g.find frame [r] = [f frame r.vertex r.dir] := hg frame [r]
  have h2 : (g.find frame [r])[0]? = some (t : WithTop ℝ) := by
    unfold Surf.single mkSurf at h
    simp only [h1, List.headD_cons] at h
    rw [h1, h]
    rfl
  unfold hitRecs
  rw [h2]
  simp only [hitRecs, List.getElem?_cons_zero]

/-- What becomes of a ray at a mirror. -/
theorem alone_reflective {g : Geometry ℝ E} {f} (hg : g.PerRay f) {c : ℝ} {frame : Tf ℝ} {r : Ray ℝ E} {t : ℝ} (w : σ)
    (h : (mkSurf g (reflective c) frame : Surf σ ℝ E).single r = (t : WithTop ℝ)) :
    (mkSurf g (reflective c) frame).alone w r = [reflectOne c ⟨0, r, r.at t, g.normal frame (r.at t) r.dir⟩] := by
  refine alone_of_outgoing (w' := w) ?_
  unfold mkSurf
  simp only [hitRecs_single hg h]
  rfl

/-- What becomes of a ray at a receiver. -/
theorem alone_receiver {g : Geometry ℝ E} {f} (hg : g.PerRay f) {c : ℝ} {frame : Tf ℝ} {r : Ray ℝ E} {t : ℝ} (w : σ)
    {get : σ → Account ℝ} {set : Account ℝ → σ → σ}
    (h : (mkSurf g (reflectiveReceiver c get set) frame).single r = (t : WithTop ℝ)) :
    (mkSurf g (reflectiveReceiver c get set) frame).alone w r = [reflectOne c ⟨0, r, r.at t, g.normal frame (r.at t) r.dir⟩] := by
  refine alone_of_outgoing (w' := set ⟨(get w).absorbed ++ [[r.energy * c]], (get w).hits ++ [[r.at t]]⟩ w) ?_
  unfold mkSurf
  simp only [hitRecs_single hg h]
  rfl

/-- The scene of a homogenized receiver, as the engine sees it. -/
noncomputable def tubeObjs (gw : Nat → Geometry ℝ E) (fw : Nat → Tf ℝ) (eff : ℝ) (g : Geometry ℝ E) (F : Tf ℝ) (get : σ → Account ℝ)
    (set : Account ℝ → σ → σ) (refl : Surf σ ℝ E) : List (Obj σ ℝ E) :=
  [⟨[mkSurf (gw 0) (absorberReflector (1 - eff)) (fw 0)], Obj.defaultOwn, Obj.skipNext 1⟩,
   ⟨[mkSurf (gw 1) (absorberReflector (1 - eff)) (fw 1)], Obj.defaultOwn, Obj.skipNext 1⟩,
   ⟨[mkSurf (gw 2) (absorberReflector (1 - eff)) (fw 2)], Obj.defaultOwn, Obj.skipNext 1⟩,
   ⟨[mkSurf (gw 3) (absorberReflector (1 - eff)) (fw 3)], Obj.defaultOwn, Obj.skipNext 1⟩,
   receiverObj g F get set, ⟨[refl], Obj.defaultOwn, Obj.defaultNext 1⟩]

section
variable {gw : Nat → Geometry ℝ E} {fw own : Nat → Tf ℝ} {eff x y lo pos : ℝ} {g : Geometry ℝ E} {get : σ → Account ℝ}
  {set : Account ℝ → σ → σ} {refl : Surf σ ℝ E}

theorem tubeObjs_sites {F : Tf ℝ} (z : Site σ ℝ E) : z ∈ sites (tubeObjs gw fw eff g F get set refl) ↔
    (∃ k < 4, z = ⟨k, 0, mkSurf (gw k) (absorberReflector (1 - eff)) (fw k)⟩) ∨ z = ⟨4, 0, mkSurf g (reflectiveReceiver 1 get set) F⟩ ∨
      z = ⟨4, 1, mkSurf g (reflective 1) (F * ⟨1, ⟨0, 0, -(1 / 10 ^ 10)⟩⟩)⟩ ∨ z = ⟨5, 0, refl⟩ := by
  have e : sites (tubeObjs gw fw eff g F get set refl) =
      [⟨0, 0, mkSurf (gw 0) (absorberReflector (1 - eff)) (fw 0)⟩, ⟨1, 0, mkSurf (gw 1) (absorberReflector (1 - eff)) (fw 1)⟩,
       ⟨2, 0, mkSurf (gw 2) (absorberReflector (1 - eff)) (fw 2)⟩, ⟨3, 0, mkSurf (gw 3) (absorberReflector (1 - eff)) (fw 3)⟩,
       ⟨4, 0, mkSurf g (reflectiveReceiver 1 get set) F⟩, ⟨4, 1, mkSurf g (reflective 1) (F * ⟨1, ⟨0, 0, -(1 / 10 ^ 10)⟩⟩)⟩,
       ⟨5, 0, refl⟩] := rfl
  rw [e]
  simp only [List.mem_cons, List.not_mem_nil, or_false]
  constructor
  · rintro (h | h | h | h | h)
    · exact Or.inl ⟨0, by omega, h⟩
    · exact Or.inl ⟨1, by omega, h⟩
    · exact Or.inl ⟨2, by omega, h⟩
    · exact Or.inl ⟨3, by omega, h⟩
    · exact Or.inr h
  · rintro (⟨k, hk, rfl⟩ | h)
    · obtain rfl | rfl | rfl | rfl : k = 0 ∨ k = 1 ∨ k = 2 ∨ k = 3 := by omega
      all_goals simp
    · exact Or.inr (Or.inr (Or.inr (Or.inr h)))

theorem collector_tube (hg : rectPlateGM x y = .ok g)
    (hw : ∀ k < 4, (wallNode (own k) (gw k) (fw k) eff : SceneObj σ ℝ E).IsMirror (tubeSet x y lo pos k) (tubeNormal k) (1 - eff))
    (w : σ) (r0 : Ray ℝ E) :
    IsTube (tubeObjs gw fw eff g (translate 0 0 pos * rotx π) get set refl)
      (plainPolicy (tubeObjs gw fw eff g (translate 0 0 pos * rotx π) get set refl)) w x y lo pos eff
      (fun k => mkSurf (gw k) (absorberReflector (1 - eff)) (fw k)) (mkSurf g (reflectiveReceiver 1 get set) (translate 0 0 pos * rotx π))
      (mkSurf g (reflective 1) (translate 0 0 pos * rotx π * ⟨1, ⟨0, 0, -(1 / 10 ^ 10)⟩⟩)) refl := by
  have hF := receiverFrame_rigid pos
  have hFp := receiverFrame_point pos
  have hFc : (translate 0 0 pos * rotx π).rot.c3 = ⟨0, 0, -1⟩ := by
    have := receiverFrame_dir pos ⟨0, 0, 1⟩
    rw [show (translate 0 0 pos * rotx π).rot.c3 = (translate 0 0 pos * rotx π).dir ⟨0, 0, 1⟩ by unfold Tf.dir; apply V3.ext <;> simp, this]
    simp
  generalize translate 0 0 pos * rotx π = F at hF hFp hFc
  have hplate : ∀ p : V3 ℝ, Placed F (rectXY x y) p ↔ p.z = pos ∧ |p.x| ≤ x / 2 ∧ |p.y| ≤ y / 2 := by
    intro p
    unfold Placed rectXY
    simp only [hFp]
    constructor
    · rintro ⟨q, ⟨h0, h1, h2⟩, rfl⟩
      exact ⟨by simp [h0], h1, by simpa using h2⟩
    · rintro ⟨h0, h1, h2⟩
      exact ⟨⟨p.x, -p.y, 0⟩, ⟨rfl, h1, by simpa using h2⟩, by apply V3.ext <;> simp [h0]⟩
  have hback : ∀ p : V3 ℝ, Placed (F * ⟨1, ⟨0, 0, -(1 / 10 ^ 10)⟩⟩) (rectXY x y) p → p.z = pos + 1 / 10 ^ 10 ∧ |p.x| ≤ x / 2 ∧ |p.y| ≤ y / 2 := by
    intro p
    unfold Placed rectXY
    simp only [Tf.mul_point, hFp]
    have e : ∀ q : V3 ℝ, (⟨1, ⟨0, 0, -(1 / 10 ^ 10)⟩⟩ : Tf ℝ).point q = ⟨q.x, q.y, q.z - 1 / 10 ^ 10⟩ := by
      intro q
      unfold Tf.point
      rw [M3.one_mulVec]
      apply V3.ext <;> simp
      ring
    simp only [e]
    rintro ⟨q, ⟨h0, h1, h2⟩, rfl⟩
    exact ⟨by simp [h0], h1, by simpa using h2⟩
  have hper : (g : Geometry ℝ E).PerRay (finiteParam (rectOutside x y)) := by rw [rect_eq hg]; exact finiteFlatGM_perRay _
  refine ⟨tubeObjs_sites, ?_, ?_, ?_, ?_, ?_, ?_, ?_⟩
  · intro k hk
    obtain rfl | rfl | rfl | rfl | rfl : k = 0 ∨ k = 1 ∨ k = 2 ∨ k = 3 ∨ k = 4 := by omega
    all_goals exact if_pos ⟨_, rfl, rfl⟩
  · refine if_neg ?_
    rintro ⟨o, ho, hn⟩
    have : (⟨[refl], Obj.defaultOwn, Obj.defaultNext 1⟩ : Obj σ ℝ E) = o := by
      have : some (⟨[refl], Obj.defaultOwn, Obj.defaultNext 1⟩ : Obj σ ℝ E) = some o := ho
      exact Option.some.inj this
    rw [← this] at hn
    have := congrFun (congrFun hn [r0]) 0
    simp [Obj.defaultNext, Obj.skipNext] at this
  · intro k hk
    refine (hw k hk).wall (c := -tubeHalf x y k) (fun p hp => hp.1) rfl w
  · intro r t ht
    exact (hplate _).1 (plate_on hg hF ht).2
  · intro r t ht
    exact hback _ (plate_on hg (back_rigid hF).1 ht).2
  · intro r t hd ht h1 h2 h3
    refine plate_met hg hF ?_ ht ((hplate _).2 ⟨h1, h2, h3⟩)
    rw [hFc]
    simpa [V3.dot] using hd
  · intro r t ht
    refine ⟨_, alone_receiver hper w ht, rfl, ?_⟩
    change r.energy * (1 - 1) = 0
    ring

end
end Tracer
