import Verif.Lemmas.Mirrors
import Verif.Props.Spatial

/-!
# Homogenizers and one-sided mirrors (C58)
-/

set_option linter.unusedSectionVars false

namespace Tracer

open Real

variable {E σ : Type _}

theorem placed_mul_iff {frame : Tf ℝ} {S S' : V3 ℝ → Prop} (T : Tf ℝ)
    (h : ∀ p, Placed frame S p ↔ S' p) (p : V3 ℝ) : Placed (T * frame) S p ↔ Placed T S' p := by
  unfold Placed
  constructor
  · rintro ⟨q, hq, rfl⟩
    exact ⟨frame.point q, (h _).1 ⟨q, hq, rfl⟩, Tf.mul_point _ _ _⟩
  · rintro ⟨q, hq, rfl⟩
    obtain ⟨q', hq', rfl⟩ := (h q).2 hq
    exact ⟨q', hq', (Tf.mul_point _ _ _).symm⟩

theorem wall_xp (x y h : ℝ) (p : V3 ℝ) :
    Placed (translate (x / 2) 0 (h / 2) * roty (-π / 2)) (rectXY h y) p ↔
      (p.x = x / 2 ∧ |p.y| ≤ y / 2 ∧ 0 ≤ p.z ∧ p.z ≤ h) := by
  have e : (translate (x / 2) 0 (h / 2) * roty (-π / 2)).point = fun q : V3 ℝ => ⟨x / 2 - q.z, q.y, q.x + h / 2⟩ := by
    funext q
    unfold Tf.point translate roty
    rw [show -π / 2 = -(π / 2) by ring, cos_neg, sin_neg, cos_pi_div_two, sin_pi_div_two]
    apply V3.ext <;> simp [M3.one_mulVec] <;> ring
  unfold Placed rectXY
  rw [e]
  constructor
  · rintro ⟨q, ⟨hz, hx, hy⟩, rfl⟩
    rw [abs_le] at hx
    exact ⟨by simp [hz], hy, by simp; linarith, by simp; linarith⟩
  · rintro ⟨hx, hy, h0, h1⟩
    refine ⟨⟨p.z - h / 2, p.y, 0⟩, ⟨rfl, abs_le.2 ⟨by simp; linarith, by simp; linarith⟩, hy⟩, ?_⟩
    apply V3.ext <;> simp [hx]

theorem wall_xn (x y h : ℝ) (p : V3 ℝ) :
    Placed (translate (-x / 2) 0 (h / 2) * roty (π / 2)) (rectXY h y) p ↔
      (p.x = -(x / 2) ∧ |p.y| ≤ y / 2 ∧ 0 ≤ p.z ∧ p.z ≤ h) := by
  have e : (translate (-x / 2) 0 (h / 2) * roty (π / 2)).point = fun q : V3 ℝ => ⟨q.z - x / 2, q.y, h / 2 - q.x⟩ := by
    funext q
    unfold Tf.point translate roty
    rw [cos_pi_div_two, sin_pi_div_two]
    apply V3.ext <;> simp [M3.one_mulVec] <;> ring
  unfold Placed rectXY
  rw [e]
  constructor
  · rintro ⟨q, ⟨hz, hx, hy⟩, rfl⟩
    rw [abs_le] at hx
    exact ⟨by simp [hz], hy, by simp; linarith, by simp; linarith⟩
  · rintro ⟨hx, hy, h0, h1⟩
    refine ⟨⟨h / 2 - p.z, p.y, 0⟩, ⟨rfl, abs_le.2 ⟨by simp; linarith, by simp; linarith⟩, hy⟩, ?_⟩
    apply V3.ext <;> simp [hx]

theorem wall_yp (x y h : ℝ) (p : V3 ℝ) :
    Placed (translate 0 (y / 2) (h / 2) * rotx (π / 2)) (rectXY x h) p ↔
      (p.y = y / 2 ∧ |p.x| ≤ x / 2 ∧ 0 ≤ p.z ∧ p.z ≤ h) := by
  have e : (translate 0 (y / 2) (h / 2) * rotx (π / 2)).point = fun q : V3 ℝ => ⟨q.x, y / 2 - q.z, q.y + h / 2⟩ := by
    funext q
    unfold Tf.point translate rotx
    rw [cos_pi_div_two, sin_pi_div_two]
    apply V3.ext <;> simp [M3.one_mulVec] <;> ring
  unfold Placed rectXY
  rw [e]
  constructor
  · rintro ⟨q, ⟨hz, hx, hy⟩, rfl⟩
    rw [abs_le] at hy
    exact ⟨by simp [hz], hx, by simp; linarith, by simp; linarith⟩
  · rintro ⟨hy, hx, h0, h1⟩
    refine ⟨⟨p.x, p.z - h / 2, 0⟩, ⟨rfl, hx, abs_le.2 ⟨by simp; linarith, by simp; linarith⟩⟩, ?_⟩
    apply V3.ext <;> simp [hy]

theorem wall_yn (x y h : ℝ) (p : V3 ℝ) :
    Placed (translate 0 (-y / 2) (h / 2) * rotx (-π / 2)) (rectXY x h) p ↔
      (p.y = -(y / 2) ∧ |p.x| ≤ x / 2 ∧ 0 ≤ p.z ∧ p.z ≤ h) := by
  have e : (translate 0 (-y / 2) (h / 2) * rotx (-π / 2)).point = fun q : V3 ℝ => ⟨q.x, q.z - y / 2, h / 2 - q.y⟩ := by
    funext q
    unfold Tf.point translate rotx
    rw [show -π / 2 = -(π / 2) by ring, cos_neg, sin_neg, cos_pi_div_two, sin_pi_div_two]
    apply V3.ext <;> simp [M3.one_mulVec] <;> ring
  unfold Placed rectXY
  rw [e]
  constructor
  · rintro ⟨q, ⟨hz, hx, hy⟩, rfl⟩
    rw [abs_le] at hy
    exact ⟨by simp [hz], hx, by simp; linarith, by simp; linarith⟩
  · rintro ⟨hy, hx, h0, h1⟩
    refine ⟨⟨p.x, h / 2 - p.z, 0⟩, ⟨rfl, hx, abs_le.2 ⟨by simp; linarith, by simp; linarith⟩⟩, ?_⟩
    apply V3.ext <;> simp [hy]

theorem wall_fronts (x y h : ℝ) :
    (translate (x / 2) 0 (h / 2) * roty (-π / 2)).rot.c3 = ⟨-1, 0, 0⟩ ∧
    (translate (-x / 2) 0 (h / 2) * roty (π / 2)).rot.c3 = ⟨1, 0, 0⟩ ∧
    (translate 0 (y / 2) (h / 2) * rotx (π / 2)).rot.c3 = ⟨0, -1, 0⟩ ∧
    (translate 0 (-y / 2) (h / 2) * rotx (-π / 2)).rot.c3 = ⟨0, 1, 0⟩ := by
  have hm : -π / 2 = -(π / 2) := by ring
  refine ⟨?_, ?_, ?_, ?_⟩ <;> unfold translate <;> simp only [Tf.mul_rot, M3.mul_c3, M3.one_mulVec]
  · unfold roty; rw [hm, cos_neg, sin_neg, cos_pi_div_two, sin_pi_div_two]
  · unfold roty; rw [cos_pi_div_two, sin_pi_div_two]
  · unfold rotx; rw [cos_pi_div_two, sin_pi_div_two]
  · unfold rotx; rw [hm, cos_neg, sin_neg, cos_pi_div_two, sin_pi_div_two]; simp

/-- C58: the walls of a homogenizer are one-sided mirrors in the four sides of the box, in this order,
facing into the box, wherever the homogenizer is moved. -/
theorem C58_walls {x y h : ℝ} (hx : 0 < x) (hy : 0 < y) (hh : 0 < h) (eff : ℝ) (junk : M3 ℝ) :
    ∃ a : SceneAsm σ ℝ E, rectHomogenizer x y h eff junk = .ok a ∧
      List.Forall₂ (fun o side => ObjNode.IsMirror o side.1 side.2 (1 - eff)) a.getObjects (boxSides x y h) ∧
      ∀ T : Tf ℝ, T.Rigid →
        List.Forall₂ (fun o side => ObjNode.IsMirror o (Placed T side.1) (T.dir side.2) (1 - eff))
          (a.set (.transform T)).getObjects (boxSides x y h) := by
  obtain ⟨m1, hm1, k1⟩ := mirror_ok (σ := σ) (E := E) (a := 1 - eff) hh hy
  obtain ⟨m2, hm2, k2⟩ := mirror_ok (σ := σ) (E := E) (a := 1 - eff) hx hh
  obtain ⟨f1, f2, f3, f4⟩ := wall_fronts x y h
  have rx := fun θ => (C26_rigid θ 0 0 0).1
  have ry := fun θ => (C26_rigid θ 0 0 0).2.1
  have rt := fun a b c => (C26_rigid 0 a b c).2.2.2.1
  have one : ∀ S : V3 ℝ → Prop, Placed 1 S = S := fun S => by
    funext p; unfold Placed; simp [Tf.one_point]
  have key : ∀ (m : SceneObj σ ℝ E) (W L : ℝ) (own T : Tf ℝ) (S : V3 ℝ → Prop) (n : V3 ℝ),
      (∀ (own T : Tf ℝ), (T * own).Rigid → ((m.set (.transform own)).transformChildren T).IsMirror
        (Placed (T * own) (rectXY W L)) (T * own).rot.c3 (1 - eff)) →
      T.Rigid → own.Rigid → (∀ p, Placed own (rectXY W L) p ↔ S p) → own.rot.c3 = n →
      ((m.set (.transform own)).transformChildren T).IsMirror (Placed T S) (T.dir n) (1 - eff) := by
    intro m W L own T S n hm hT ho hS hn
    have := hm own T (hT.mul ho)
    have e : Placed (T * own) (rectXY W L) = Placed T S := by
      funext p; exact propext (placed_mul_iff T hS p)
    rw [e] at this
    have e2 : (T * own).rot.c3 = T.dir n := by rw [← hn]; rfl
    rw [e2] at this
    exact this
  have hT : ∀ T : Tf ℝ, T.Rigid → ∀ o1 o2 o3 o4 : SceneObj σ ℝ E,
      o1 = (m1.set (.transform (translate (x / 2) 0 (h / 2) * roty (-π / 2)))).transformChildren T →
      o2 = (m1.set (.transform (translate (-x / 2) 0 (h / 2) * roty (π / 2)))).transformChildren T →
      o3 = (m2.set (.transform (translate 0 (y / 2) (h / 2) * rotx (π / 2)))).transformChildren T →
      o4 = (m2.set (.transform (translate 0 (-y / 2) (h / 2) * rotx (-π / 2)))).transformChildren T →
      List.Forall₂ (fun o side => ObjNode.IsMirror o (Placed T side.1) (T.dir side.2) (1 - eff))
        [o1, o2, o3, o4] (boxSides x y h) := by
    rintro T hT _ _ _ _ rfl rfl rfl rfl
    exact .cons (key _ _ _ _ T _ _ k1 hT ((rt _ _ _).mul (ry _)) (wall_xp x y h) f1)
      (.cons (key _ _ _ _ T _ _ k1 hT ((rt _ _ _).mul (ry _)) (wall_xn x y h) f2)
      (.cons (key _ _ _ _ T _ _ k2 hT ((rt _ _ _).mul (rx _)) (wall_yp x y h) f3)
      (.cons (key _ _ _ _ T _ _ k2 hT ((rt _ _ _).mul (rx _)) (wall_yn x y h) f4) .nil)))
  refine ⟨_, by unfold rectHomogenizer; simp only [hm1, hm2]; rfl, ?_, ?_⟩
  · have := hT 1 Tf.Rigid.one _ _ _ _ rfl rfl rfl rfl
    simp only [one, Tf.one_dir] at this
    rw [new_getObjects]
    exact this
  · intro T hTr
    rw [new_set_getObjects]
    exact hT T hTr _ _ _ _ rfl rfl rfl rfl

/-- C58: a ray that starts anywhere between the sides and meets a wall does so on the corresponding side of
the box; it is mirrored there and keeps the part `eff` of its energy. -/
theorem C58_inside {x y h : ℝ} (hx : 0 < x) (hy : 0 < y) (hh : 0 < h) (eff : ℝ) (junk : M3 ℝ)
    {a : SceneAsm σ ℝ E} (ha : rectHomogenizer x y h eff junk = .ok a) {T : Tf ℝ} (hT : T.Rigid)
    (k : Nat) (o : SceneObj σ ℝ E) (ho : (a.set (.transform T)).getObjects[k]? = some o) :
    ∃ side s, (boxSides x y h)[k]? = some side ∧ o.surfs = [s] ∧
      ∀ (rays : Bundle ℝ E) (i : Nat) (r : Ray ℝ E), rays[i]? = some r → Placed T (betweenSides x y) r.vertex →
        ∀ (t : ℝ) (w : σ), (s.surf.register rays)[i]? = some (t : WithTop ℝ) →
          ∃ out, s.surf.outgoing w rays [i] = .ok ([out], w) ∧ out.vertex = r.vertex + t • r.dir ∧
            Placed T side.1 out.vertex ∧ Mirrored r.dir (T.dir side.2) out.dir ∧ out.energy = r.energy * eff := by
  obtain ⟨a', ha', _, hw⟩ := C58_walls (σ := σ) (E := E) hx hy hh eff junk
  rw [ha] at ha'
  cases ha'
  have hw := hw T hT
  have hk : k < (boxSides x y h).length := by
    rw [← hw.length_eq]; exact (List.getElem?_eq_some_iff.1 ho).1
  have hm : ObjNode.IsMirror o (Placed T (boxSides x y h)[k].1) (T.dir (boxSides x y h)[k].2) (1 - eff) := by
    have := (List.forall₂_iff_get.1 hw).2 k (List.getElem?_eq_some_iff.1 ho).1 hk
    simp only [List.get_eq_getElem] at this
    rw [(List.getElem?_eq_some_iff.1 ho).2] at this
    exact this
  obtain ⟨s, hs, hsurf⟩ := hm.surface
  refine ⟨_, s, List.getElem?_eq_getElem hk, hs, ?_⟩
  intro rays i r hr hin t w ht
  obtain ⟨p, hp, h1, h2, h3⟩ := hsurf rays i r hr
  rw [ht] at hp
  cases hp
  obtain ⟨out, e1, e2, e3, _, e5, _⟩ := h3 t w rfl
  have hpar : 1 / 10 ^ 10 < |V3.dot r.dir (T.dir (boxSides x y h)[k].2)| := by
    by_contra hc
    have := h2 (not_lt.1 hc)
    simp at this
  obtain ⟨ht0, hon, _⟩ := h1 hpar
  refine ⟨out, e1, e2, by rw [e2]; exact hon, e3, ?_⟩
  rw [e5 ?_]
  · ring
  obtain ⟨q0, hq0, e0⟩ := hin
  obtain ⟨q1, hq1, e1'⟩ := hon
  have hdet : T.rot.det ≠ 0 := M3.IsRotation.det_ne hT
  obtain ⟨d, hd⟩ : ∃ d, r.dir = T.dir d := ⟨T.rot.inv.mulVec r.dir, (M3.mulVec_inv_mulVec hdet _).symm⟩
  have hq : q1 = q0 + t • d := by
    rw [e0, hd, ← Tf.point_add_smul] at e1'
    have := congrArg T.inv.point e1'
    rwa [Tf.inv_point_point hdet, Tf.inv_point_point hdet, eq_comm] at this
  rw [hd]
  rw [show V3.dot (T.dir d) (T.dir (boxSides x y h)[k].2) = V3.dot d (boxSides x y h)[k].2 from M3.IsRotation.dot hT _ _]
  subst hq
  obtain ⟨hbx, hby⟩ := hq0
  rw [abs_lt] at hbx hby
  have hsgn : ∀ u : ℝ, 0 < t * u → 0 ≤ u := by
    intro u hu
    by_contra hc
    have : t * u ≤ 0 := mul_nonpos_of_nonneg_of_nonpos ht0 (by linarith)
    linarith
  have hsgn' : ∀ u : ℝ, t * u < 0 → u ≤ 0 := by
    intro u hu
    by_contra hc
    have : 0 ≤ t * u := mul_nonneg ht0 (by linarith)
    linarith
  simp only [boxSides, List.length_cons, List.length_nil] at hk
  have hk4 : k = 0 ∨ k = 1 ∨ k = 2 ∨ k = 3 := by omega
  rcases hk4 with rfl | rfl | rfl | rfl <;>
    simp [boxSides, V3.dot] at hq1 ⊢
  · exact hsgn _ (by linarith)
  · exact hsgn' _ (by linarith)
  · exact hsgn _ (by linarith)
  · exact hsgn' _ (by linarith)

/-- C58: other dimensions are refused. -/
theorem C58_dimensions (x y h eff : ℝ) (junk : M3 ℝ) (hbad : x ≤ 0 ∨ y ≤ 0 ∨ h ≤ 0) :
    (rectHomogenizer x y h eff junk : Except Err (SceneAsm σ ℝ E)) = .error .value := by
  have bad : ∀ w l : ℝ, w ≤ 0 ∨ l ≤ 0 →
      (rectOneSidedMirror w l (1 - eff) : Except Err (SceneObj σ ℝ E)) = .error .value := fun w l hb => by
    unfold rectOneSidedMirror
    rw [(C31_constructor (K := ℝ) (E := E) w l).2 hb]
  unfold rectHomogenizer
  by_cases hy : h ≤ 0 ∨ y ≤ 0
  · simp only [bad h y hy]; rfl
  · obtain ⟨m, hm, _⟩ := mirror_ok (σ := σ) (E := E) (a := 1 - eff) (W := h) (L := y)
      (by by_contra hc; exact hy (.inl (not_lt.1 hc))) (by by_contra hc; exact hy (.inr (not_lt.1 hc)))
    have hxh : x ≤ 0 ∨ h ≤ 0 := by tauto
    simp only [hm, bad x h hxh]; rfl

/-- A ray from the middle of a homogenizer, tilted about the Y axis; it meets the wall at +X. -/
example : ∃ a : SceneAsm Unit ℝ Unit, rectHomogenizer 2 4 10 (9 / 10) 1 = .ok a ∧
    ∃ o s, (a.set (.transform 1)).getObjects[0]? = some o ∧ o.surfs = [s] ∧
      ∃ t : ℝ, (s.surf.register [⟨⟨0, 0, 5⟩, ⟨3 / 5, 0, 4 / 5⟩, 1, 0, none, ()⟩])[0]? = some (t : WithTop ℝ) ∧
        Placed (1 : Tf ℝ) (betweenSides 2 4) ⟨0, 0, 5⟩ := by
  obtain ⟨a, ha, _, hw⟩ := C58_walls (σ := Unit) (E := Unit) (x := 2) (y := 4) (h := 10)
    (by norm_num) (by norm_num) (by norm_num) (9 / 10) 1
  have hw := hw 1 Tf.Rigid.one
  refine ⟨a, ha, ?_⟩
  generalize (a.set (.transform 1)).getObjects = l at hw
  unfold boxSides at hw
  cases hw with
  | @cons o _ l' _ ho _ =>
    obtain ⟨s, hs, hsurf⟩ := ho.surface
    obtain ⟨p, hp, h1, _, _⟩ := hsurf [⟨⟨0, 0, 5⟩, ⟨3 / 5, 0, 4 / 5⟩, 1, 0, none, ()⟩] 0 _ rfl
    have h1 := h1 (by simp [V3.dot, Tf.one_dir]; norm_num)
    refine ⟨o, s, rfl, hs, ?_⟩
    cases p with
    | top =>
      exact absurd ⟨_, ⟨by norm_num, by norm_num, by norm_num, by norm_num⟩, (Tf.one_point _).symm⟩
        (h1 (5 / 3) (by norm_num))
    | coe t =>
      exact ⟨t, hp, ⟨_, ⟨by norm_num, by norm_num⟩, (Tf.one_point _).symm⟩⟩

end Tracer
