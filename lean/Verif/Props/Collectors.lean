import Verif.Props.Homogenizer
import Verif.Props.Quadric
import Verif.Props.Callables

/-!
# Collectors with a homogenized receiver (C63, C68)
-/

set_option linter.unusedSectionVars false

namespace Tracer

open Real

variable {E σ : Type _}

/-! ## C63 -/

theorem sqrt_two_sub_one_pos : 0 < √2 - 1 := by
  have : (1 : ℝ) < √2 := by rw [lt_sqrt (by norm_num)]; norm_num
  linarith

/-- C63: for a positive diameter, a positive concentration and a number `n` of sources (the real one
included) which stays below diameter/W, the measures are defined and positive.
* The rim of the dish -- the circle of the given diameter on the paraboloid with focus (0, 0, f) -- is seen
  from the focus 45 degrees off the axis.
* The receiver's area is the dish aperture area divided by the concentration.
* The straight line from the edge of the dish's aperture disk, in the plane of the dish's vertex, to the centre of the
  receiver at height `f + H` crosses the entrance plane of the homogenizer, at height `f`, `n` half widths off the axis. -/
theorem C63_measures {diameter concentration virtSources : ℝ} (hd : 0 < diameter) (hc : 0 < concentration)
    (hv : 0 ≤ virtSources)
    (hn : (virtSources + 1) * (diameter / 2 * √(π / concentration)) < diameter) :
    ∃ f W H, standardMinidishMeasures diameter concentration virtSources = .ok (f, W, H) ∧
      0 < f ∧ 0 < W ∧ 0 < H ∧
      (∀ rim : V3 ℝ, dishSet f rim → rim.x ^ 2 + rim.y ^ 2 = (diameter / 2) ^ 2 →
        rim.z < f ∧ √(rim.x ^ 2 + rim.y ^ 2) = tan (π / 4) * (f - rim.z)) ∧
      W ^ 2 = π * (diameter / 2) ^ 2 / concentration ∧
      ∃ s : ℝ, (⟨diameter / 2, 0, 0⟩ : V3 ℝ) + s • ((⟨0, 0, f + H⟩ : V3 ℝ) - ⟨diameter / 2, 0, 0⟩) =
        ⟨(virtSources + 1) * (W / 2), 0, f⟩ := by
  have hs := sqrt_two_sub_one_pos
  have h2 : √2 * √2 = (2 : ℝ) := mul_self_sqrt (by norm_num)
  have hpc : 0 < π / concentration := div_pos pi_pos hc
  have hW : 0 < diameter / 2 * √(π / concentration) := mul_pos (by linarith) (sqrt_pos.2 hpc)
  have hf : 0 < diameter / 4 / (√2 - 1) := div_pos (by linarith) hs
  have hfe : diameter / 4 / (√2 - 1) = diameter * (√2 + 1) / 4 := by
    rw [div_eq_iff hs.ne']; linear_combination (-(diameter / 4)) * h2
  have hsq : √(π / concentration) ^ 2 = π / concentration := sq_sqrt hpc.le
  unfold standardMinidishMeasures
  simp only
  rw [if_neg hc.ne', if_neg (not_lt.2 hpc.le), if_neg (by linarith)]
  generalize hWd : diameter / 2 * √(π / concentration) = W at *
  generalize hfd : diameter / 4 / (√2 - 1) = f at *
  have hden : 0 < diameter - (virtSources + 1) * W := by linarith
  have hnum : 0 < (virtSources + 1) * W * f := by positivity
  refine ⟨f, W, _, rfl, hf, hW, div_pos hnum hden, ?_, ?_, ?_⟩
  · intro rim hr hrim
    unfold dishSet at hr
    have hz : rim.z = diameter * (√2 - 1) / 4 := by
      rw [hr, hrim, div_eq_iff (by positivity), hfe]
      linear_combination (-(diameter ^ 2 / 4)) * h2
    rw [hrim, sqrt_sq (by linarith), tan_pi_div_four, hz, hfe]
    constructor
    · linarith
    · ring
  · rw [← hWd, mul_pow, hsq]; ring
  · generalize hH : (virtSources + 1) * W * f / (diameter - (virtSources + 1) * W) = H
    have hHpos : 0 < H := by rw [← hH]; exact div_pos hnum hden
    have hHe : H * (diameter - (virtSources + 1) * W) = (virtSources + 1) * W * f := by
      rw [← hH]; field_simp
    have hfH : f + H ≠ 0 := by positivity
    refine ⟨f / (f + H), ?_⟩
    apply V3.ext
    · simp only [V3.add_x, V3.smul_x, V3.sub_x]
      field_simp
      linear_combination hHe
    · simp
    · simp only [V3.add_z, V3.smul_z, V3.sub_z]
      field_simp
      ring

/-- C63: at the limit of the documented range the function divides by zero. -/
theorem C63_limit {diameter concentration virtSources : ℝ} (hc : 0 < concentration)
    (hn : (virtSources + 1) * (diameter / 2 * √(π / concentration)) = diameter) :
    standardMinidishMeasures diameter concentration virtSources = .error .zerodiv := by
  have hpc : 0 < π / concentration := div_pos pi_pos hc
  unfold standardMinidishMeasures
  simp only
  rw [if_neg hc.ne', if_neg (not_lt.2 hpc.le), if_pos (by linarith)]

/-- At concentration π and one virtual source the receiver is as wide as the dish. -/
example : standardMinidishMeasures 1 π 1 = .error .zerodiv :=
  C63_limit pi_pos (by rw [div_self pi_pos.ne', sqrt_one]; norm_num)

/-- The hypotheses of `C63_measures` are met for a dish of 1 m, concentration 400, and four virtual sources. -/
example : (0 : ℝ) < 1 ∧ (0 : ℝ) < 400 ∧ (0 : ℝ) ≤ 4 ∧ ((4 : ℝ) + 1) * (1 / 2 * √(π / 400)) < 1 := by
  refine ⟨by norm_num, by norm_num, by norm_num, ?_⟩
  have : √(π / 400) ≤ √((1 / 10) ^ 2) := sqrt_le_sqrt (by have := pi_le_four; linarith)
  rw [sqrt_sq (by norm_num)] at this
  linarith

/-! ## C68 -/

theorem receiverFrame_point (z : ℝ) (q : V3 ℝ) : (translate 0 0 z * rotx π).point q = ⟨q.x, -q.y, z - q.z⟩ := by
  unfold Tf.point translate rotx
  rw [cos_pi, sin_pi]
  apply V3.ext <;> simp [M3.one_mulVec]
  ring

theorem receiverFrame_dir (z : ℝ) (q : V3 ℝ) : (translate 0 0 z * rotx π).dir q = ⟨q.x, -q.y, -q.z⟩ := by
  unfold Tf.dir translate rotx
  rw [cos_pi, sin_pi]
  apply V3.ext <;> simp [M3.mul_mulVec, M3.one_mulVec]

theorem receiverFrame_rigid (z : ℝ) : (translate 0 0 z * rotx π).Rigid :=
  Tf.Rigid.mul (C26_rigid 0 0 0 z).2.2.2.1 (C26_rigid π 0 0 0).1

theorem hanging_of_sides {a : List (SceneObj σ ℝ E)} {x y depth eff z : ℝ}
    (h : List.Forall₂ (fun o side => ObjNode.IsMirror o (Placed (translate 0 0 z * rotx π) side.1)
      ((translate 0 0 z * rotx π).dir side.2) (1 - eff)) a (boxSides x y depth)) :
    List.Forall₂ (fun o side => ObjNode.IsMirror o side.1 side.2 (1 - eff)) a (hangingSides x y (z - depth) z) := by
  have key : ∀ (o : SceneObj σ ℝ E) (S S' : V3 ℝ → Prop) (n n' : V3 ℝ),
      (∀ p, S' p ↔ S ⟨p.x, -p.y, z - p.z⟩) → n' = ⟨n.x, -n.y, -n.z⟩ →
      o.IsMirror (Placed (translate 0 0 z * rotx π) S) ((translate 0 0 z * rotx π).dir n) (1 - eff) →
      o.IsMirror S' n' (1 - eff) := by
    intro o S S' n n' hS hn ho
    rw [receiverFrame_dir, ← hn] at ho
    have e : Placed (translate 0 0 z * rotx π) S = S' := by
      funext p
      apply propext
      rw [hS]
      unfold Placed
      constructor
      · rintro ⟨q, hq, rfl⟩
        rw [receiverFrame_point]
        simpa using hq
      · intro hp
        refine ⟨_, hp, ?_⟩
        rw [receiverFrame_point]
        apply V3.ext <;> simp
    rwa [e] at ho
  unfold boxSides at h
  unfold hangingSides
  cases h with
  | cons h1 h =>
  cases h with
  | cons h2 h =>
  cases h with
  | cons h3 h =>
  cases h with
  | cons h4 h =>
  cases h
  refine .cons (key _ _ _ _ _ ?_ ?_ h1) (.cons (key _ _ _ _ _ ?_ ?_ h2)
    (.cons (key _ _ _ _ _ ?_ ?_ h3) (.cons (key _ _ _ _ _ ?_ ?_ h4) .nil)))
  · intro p; simp only [abs_neg]
    exact ⟨fun h => ⟨h.1, h.2.1, by linarith [h.2.2.2], by linarith [h.2.2.1]⟩,
      fun h => ⟨h.1, h.2.1, by linarith [h.2.2.2], by linarith [h.2.2.1]⟩⟩
  · simp
  · intro p; simp only [abs_neg]
    exact ⟨fun h => ⟨h.1, h.2.1, by linarith [h.2.2.2], by linarith [h.2.2.1]⟩,
      fun h => ⟨h.1, h.2.1, by linarith [h.2.2.2], by linarith [h.2.2.1]⟩⟩
  · simp
  · intro p
    exact ⟨fun h => ⟨by simp only; linarith [h.1], h.2.1, by linarith [h.2.2.2], by linarith [h.2.2.1]⟩,
      fun h => ⟨by have := h.1; simp only at this; linarith, h.2.1, by linarith [h.2.2.2], by linarith [h.2.2.1]⟩⟩
  · simp
  · intro p
    exact ⟨fun h => ⟨by simp only; linarith [h.1], h.2.1, by linarith [h.2.2.2], by linarith [h.2.2.1]⟩,
      fun h => ⟨by have := h.1; simp only at this; linarith, h.2.1, by linarith [h.2.2.2], by linarith [h.2.2.1]⟩⟩
  · simp

/-- C68: the objects of a collector with a homogenized receiver are, in this order, the walls of a homogenizer
that hangs down from the receiver by its depth, facing inwards, the receiver, facing the reflector, and the
reflector where its own frame puts it. -/
theorem C68_layout (reflector : SceneSurf σ ℝ E) (pos : ℝ) {x y depth : ℝ} (hx : 0 < x) (hy : 0 < y) (hd : 0 < depth)
    (eff : ℝ) (get : σ → Account ℝ) (set : Account ℝ → σ → σ) (junk : M3 ℝ) :
    ∃ a walls receiver refl, homogenizedLocalReceiver reflector pos (x, y) depth eff get set junk = .ok a ∧
      a.getObjects = walls ++ [receiver, refl] ∧
      List.Forall₂ (fun o side => ObjNode.IsMirror o side.1 side.2 (1 - eff)) walls
        (hangingSides x y (pos - depth) pos) ∧
      receiver.IsReceiver x y pos get set ∧
      refl.surfs = [⟨reflector.own, reflector.own, reflector.data⟩] := by
  obtain ⟨hom, hh, _, hw⟩ := C58_walls (σ := σ) (E := E) hx hy hd eff junk
  have hw := hanging_of_sides (hw _ (receiverFrame_rigid pos))
  obtain ⟨g, hg⟩ := (C31_constructor (K := ℝ) (E := E) x y).1 ⟨hx, hy⟩
  have hrec : (oneSidedReceiver (σ := σ) (E := E) x y 1 get set) = .ok
      (Surface.new g (reflectiveReceiver 1 get set) 1,
        ObjNode.new [Surface.new g (reflectiveReceiver 1 get set) 1,
          Surface.new g (reflective 1) ⟨1, ⟨0, 0, -(1 / 10 ^ 10)⟩⟩] 1 (Obj.defaultOwn, Obj.skipNext 2)) := by
    unfold oneSidedReceiver; rw [hg]
  have hok : homogenizedLocalReceiver reflector pos (x, y) depth eff get set junk = .ok (Asm.new
      [((ObjNode.new [Surface.new g (reflectiveReceiver 1 get set) 1,
          Surface.new g (reflective 1) ⟨1, ⟨0, 0, -(1 / 10 ^ 10)⟩⟩] 1 (Obj.defaultOwn, Obj.skipNext 2) :
            SceneObj σ ℝ E).set (.transform (translate 0 0 pos * rotx π))),
        ObjNode.new [reflector] 1 (Obj.defaultOwn, Obj.defaultNext 1)]
      [hom.set (.transform (translate 0 0 pos * rotx π))] 0 1 junk) := by
    unfold homogenizedLocalReceiver
    rw [hrec, hh]
  refine ⟨_, _, _, _, hok, by rw [new_sub_getObjects, set_transform_twice]; rfl, hw, ?_, ?_⟩
  · have hF := receiverFrame_rigid pos
    generalize hFd : translate 0 0 pos * rotx π = F at hF
    have hFp : ∀ q, F.point q = ⟨q.x, -q.y, pos - q.z⟩ := fun q => by rw [← hFd]; exact receiverFrame_point pos q
    have hFc : F.rot.c3 = ⟨0, 0, -1⟩ := by
      have := receiverFrame_dir pos ⟨0, 0, 1⟩
      rw [hFd] at this
      rw [show F.rot.c3 = F.dir ⟨0, 0, 1⟩ by unfold Tf.dir; apply V3.ext <;> simp, this]
      simp
    refine ⟨⟨1, 1 * F * 1, (g, reflectiveReceiver 1 get set)⟩,
      ⟨⟨1, ⟨0, 0, -(1 / 10 ^ 10)⟩⟩, 1 * F * ⟨1, ⟨0, 0, -(1 / 10 ^ 10)⟩⟩, (g, reflective 1)⟩, rfl, ?_, rfl, ?_, rfl⟩
    · refine ⟨?_, ?_, x, y, hg, ?_⟩
      · rw [Tf.one_mul', Tf.mul_one']; exact hF
      · rw [Tf.one_mul', Tf.mul_one']; exact hFc
      · intro p
        simp only [Tf.one_mul', Tf.mul_one']
        unfold Placed rectXY
        simp only [hFp]
        constructor
        · rintro ⟨q, ⟨h0, h1, h2⟩, rfl⟩
          exact ⟨by simp [h0], h1, by simpa using h2⟩
        · rintro ⟨h0, h1, h2⟩
          exact ⟨⟨p.x, -p.y, 0⟩, ⟨rfl, h1, by simpa using h2⟩, by apply V3.ext <;> simp [h0]⟩
    · refine ⟨?_, ?_, x, y, hg, ?_⟩
      · rw [Tf.one_mul']
        exact hF.mul M3.IsRotation.one
      · rw [Tf.one_mul', Tf.mul_rot, M3.mul_one']; exact hFc
      · intro p
        simp only [Tf.one_mul']
        unfold Placed rectXY
        simp only [Tf.mul_point, hFp]
        have e : ∀ q : V3 ℝ, (⟨1, ⟨0, 0, -(1 / 10 ^ 10)⟩⟩ : Tf ℝ).point q = ⟨q.x, q.y, q.z - 1 / 10 ^ 10⟩ := by
          intro q
          unfold Tf.point
          rw [M3.one_mulVec]
          apply V3.ext <;> simp
          ring
        simp only [e]
        constructor
        · rintro ⟨q, ⟨h0, h1, h2⟩, rfl⟩
          exact ⟨by simp [h0], h1, by simpa using h2⟩
        · rintro ⟨h0, h1, h2⟩
          exact ⟨⟨p.x, -p.y, 0⟩, ⟨rfl, h1, by simpa using h2⟩, by apply V3.ext <;> simp [h0]⟩
  · show [(⟨reflector.own, 1 * 1 * reflector.own, reflector.data⟩ : SceneSurf σ ℝ E)] = _
    rw [Tf.one_mul', Tf.one_mul']

example (reflector : SceneSurf (Account ℝ) ℝ Unit) : ∃ a walls receiver refl,
    homogenizedLocalReceiver reflector 14 (1, 2) (1 / 2) (9 / 10) id (fun a _ => a) 1 = .ok a ∧
    a.getObjects = walls ++ [receiver, refl] ∧
    List.Forall₂ (fun o side => ObjNode.IsMirror o side.1 side.2 (1 - 9 / 10)) walls (hangingSides 1 2 (14 - 1 / 2) 14) := by
  obtain ⟨a, walls, receiver, refl, h1, h2, h3, _⟩ := C68_layout reflector 14 one_pos two_pos (depth := 1 / 2) (by norm_num) (9 / 10)
    id (fun a _ => a) 1
  exact ⟨a, walls, receiver, refl, h1, h2, h3⟩

/-- C68: in a standard minidish the homogenizer spans from the focal plane of the dish up to the receiver, and
light coming down along the axis is sent by the dish through the centre of the homogenizer's entrance. -/
theorem C68_standard_minidish {diameter concentration virtSources : ℝ} (hd : 0 < diameter) (hc : 0 < concentration)
    (hv : 0 ≤ virtSources) (hn : (virtSources + 1) * (diameter / 2 * √(π / concentration)) < diameter)
    (dishEff homogEff : ℝ) (get : σ → Account ℝ) (set : Account ℝ → σ → σ) (junk : M3 ℝ) :
    ∃ a f W H walls receiver refl dish,
      standardMinidish diameter concentration virtSources dishEff homogEff get set junk = .ok (a, f, W, H) ∧
      standardMinidishMeasures diameter concentration virtSources = .ok (f, W, H) ∧
      a.getObjects = walls ++ [receiver, refl] ∧
      List.Forall₂ (fun o side => ObjNode.IsMirror o side.1 side.2 (1 - homogEff)) walls
        (hangingSides W W f (f + H)) ∧
      receiver.IsReceiver W W (f + H) get set ∧
      refl.surfs = [dish] ∧
      ∀ (w w' : σ) (rays out : Bundle ℝ E) (sel : List Nat), dish.surf.outgoing w rays sel = .ok (out, w') →
        ∀ q ∈ out, ∀ r : Ray ℝ E, rays[q.parent]? = some r → r.dir = ⟨0, 0, -1⟩ →
          q.energy = r.energy * dishEff ∧ ∃ s : ℝ, 0 < s ∧ q.vertex + s • q.dir = ⟨0, 0, f⟩ := by
  obtain ⟨f, W, H, hm, hf, hW, hH, _⟩ := C63_measures hd hc hv hn
  obtain ⟨a, walls, receiver, refl, ha, ho, hw, hr, hs⟩ := C68_layout (σ := σ) (E := E)
    (Surface.new (parabolicDishGM diameter f) (reflective (1 - dishEff)) 1) (f + H) hW hW hH homogEff get set junk
  refine ⟨a, f, W, H, walls, receiver, refl, _, ?_, hm, ho, ?_, hr, hs, ?_⟩
  · unfold standardMinidish
    rw [hm]
    simp only [miniDish, mul_one]
    rw [ha]
  · rwa [show f + H - H = f by ring] at hw
  · intro w w' rays out sel hout q hq r hqr hdir
    have h1 := C37_concentrates (Tf.Rigid.one) hf hout hq hqr (by rw [hdir, Tf.one_dir])
    rw [Tf.one_point] at h1
    refine ⟨?_, h1⟩
    obtain ⟨_, hlen, h2⟩ := C48_reflective hout
    obtain ⟨i, hi, hqi⟩ := List.getElem_of_mem hq
    obtain ⟨p, t, q', b1, _, b3, _, _, b4, b5, _⟩ := h2 i _ (List.getElem?_eq_getElem (by omega : i < sel.length))
    rw [List.getElem?_eq_getElem hi, hqi] at b3
    cases b3
    rw [b5, b1] at hqr
    cases hqr
    rw [b4]; ring

example : ∃ (a : SceneAsm (Account ℝ) ℝ Unit) (f W H : ℝ), standardMinidish 1 400 4 (9 / 10) (9 / 10) id (fun a _ => a) 1 = .ok (a, f, W, H) ∧
    0 < f ∧ W ^ 2 = π * (1 / 2) ^ 2 / 400 := by
  have hn : ((4 : ℝ) + 1) * (1 / 2 * √(π / 400)) < 1 := by
    have : √(π / 400) ≤ √((1 / 10) ^ 2) := sqrt_le_sqrt (by have := pi_le_four; linarith)
    rw [sqrt_sq (by norm_num)] at this
    linarith
  obtain ⟨a, f, W, H, _, _, _, _, h1, h2, _⟩ := C68_standard_minidish (σ := Account ℝ) (E := Unit) one_pos
    (by norm_num : (0 : ℝ) < 400) (by norm_num : (0 : ℝ) ≤ 4) hn (9 / 10) (9 / 10) id (fun a _ => a) 1
  obtain ⟨f', W', H', e, h3, _, _, _, h4, _⟩ := C63_measures one_pos (by norm_num : (0 : ℝ) < 400) (by norm_num : (0 : ℝ) ≤ 4) hn
  rw [h2] at e
  cases e
  exact ⟨a, f, W, H, h1, h3, h4⟩

/-- C68: the same for a PETAL collector of given measures, with a receiver of the given side and aspect ratio. -/
theorem C68_petal (diameter : ℝ) {focal side depth aspect : ℝ} (hf : 0 < focal) (hs : 0 < side) (hd : 0 < depth) (ha : 0 < aspect)
    (dishEff receiverPos homogEff : ℝ) (get : σ → Account ℝ) (set : Account ℝ → σ → σ) (junk : M3 ℝ) :
    ∃ a walls receiver refl dish,
      petal diameter focal dishEff receiverPos side depth homogEff aspect get set junk = .ok a ∧
      a.getObjects = walls ++ [receiver, refl] ∧
      List.Forall₂ (fun o s => ObjNode.IsMirror o s.1 s.2 (1 - homogEff)) walls
        (hangingSides side (side * aspect) (receiverPos - depth) receiverPos) ∧
      receiver.IsReceiver side (side * aspect) receiverPos get set ∧
      refl.surfs = [dish] ∧
      (∀ (rays : Bundle ℝ E) (i : Nat) (r : Ray ℝ E), rays[i]? = some r → r.dir ≠ 0 →
        (1 / 10 ^ 10 < offAxis 1 r.dir / (4 * focal) ∨ offAxis 1 r.dir = 0) →
        ∃ p, (dish.surf.register rays)[i]? = some p ∧
          FirstAmong (0 < ·) (fun q => dishSet focal q ∧ hexagon (diameter / 2) q) r.vertex r.dir p) ∧
      ∀ (w w' : σ) (rays out : Bundle ℝ E) (sel : List Nat), dish.surf.outgoing w rays sel = .ok (out, w') →
        ∀ q ∈ out, ∀ r : Ray ℝ E, rays[q.parent]? = some r → q.energy = r.energy * dishEff ∧
          (r.dir = ⟨0, 0, -1⟩ → ∃ s : ℝ, 0 < s ∧ q.vertex + s • q.dir = ⟨0, 0, focal⟩) := by
  obtain ⟨a, walls, receiver, refl, h1, h2, h3, h4, h5⟩ := C68_layout (σ := σ) (E := E)
    (Surface.new (hexagonalDishGM diameter focal) (reflective (1 - dishEff)) 1) receiverPos hs (mul_pos hs ha) hd homogEff get set junk
  refine ⟨a, walls, receiver, refl, _, h1, h2, h3, h4, h5, ?_, ?_⟩
  · intro rays i r hr hne hA
    obtain ⟨p, hp, hfirst⟩ := C38_hexagonal_dish (Tf.Rigid.one) hf rays i r hr hne hA (diameter := diameter)
    refine ⟨p, hp, ?_⟩
    have e : (Placed (1 : Tf ℝ) fun q => dishSet focal q ∧ hexagon (diameter / 2) q) =
        fun q => dishSet focal q ∧ hexagon (diameter / 2) q := by
      funext q
      unfold Placed
      simp [Tf.one_point]
    rwa [e] at hfirst
  · intro w w' rays out sel hout q hq r hqr
    constructor
    · obtain ⟨_, hlen, h2⟩ := C48_reflective hout
      obtain ⟨i, hi, hqi⟩ := List.getElem_of_mem hq
      obtain ⟨p, t, q', b1, _, b3, _, _, b4, b5, _⟩ := h2 i _ (List.getElem?_eq_getElem (by omega : i < sel.length))
      rw [List.getElem?_eq_getElem hi, hqi] at b3
      cases b3
      rw [b5, b1] at hqr
      cases hqr
      rw [b4]; ring
    · intro hdir
      have h1 := C38_concentrates (Tf.Rigid.one) hf hout hq hqr (by rw [hdir, Tf.one_dir])
      rwa [Tf.one_point] at h1

/-- The hypotheses are those of `C63_measures`, met by the example above; a collector at the size of the PETAL dish. -/
example : ∃ a walls receiver refl, petal (σ := Account ℝ) (E := Unit) 22 13 (9 / 10) 14 1 (1 / 2) (9 / 10) 2 id (fun a _ => a) 1 = .ok a ∧
    a.getObjects = walls ++ [receiver, refl] ∧ walls.length = 4 ∧ receiver.IsReceiver 1 2 14 id (fun a _ => a) := by
  obtain ⟨a, walls, receiver, refl, _, h1, h2, h3, h4, _⟩ := C68_petal (σ := Account ℝ) (E := Unit) 22 (focal := 13) (side := 1)
    (depth := 1 / 2) (aspect := 2) (by norm_num) (by norm_num) (by norm_num) (by norm_num) (9 / 10) 14 (9 / 10) id (fun a _ => a) 1
  exact ⟨a, walls, receiver, refl, h1, h2, h3.length_eq, by simpa using h4⟩

end Tracer
