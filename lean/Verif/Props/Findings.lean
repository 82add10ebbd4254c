import Verif.Props.Heliostats
import Verif.Props.Quadric
import Verif.Props.Frames

/-!
# Further disagreements with documented behaviour (C23, C35)
-/

namespace Tracer

open Real

variable {σ E : Type _}

theorem aim_ignores_field {f : HelioField σ E} {v : V3 ℝ} (hown : f.asm.own = ⟨1, v⟩) (hv : v ≠ 0) (az el : ℝ)
    {o : SceneObj σ ℝ E} (ho : o ∈ (f.aimToSun az el).asm.objs) (hs : o.surfs ≠ []) :
    o.InSync 1 ∧ ¬ InSync 1 (f.aimToSun az el).asm := by
  have h1 : o.InSync 1 := by
    have ho' : o ∈ List.zipWith (fun (o : SceneObj σ ℝ E) p =>
      o.set (.transform (aimTransform az el f.aimHeight p))) f.asm.objs f.pos := ho
    rw [List.mem_iff_getElem?] at ho'
    obtain ⟨i, hi⟩ := ho'
    rw [List.getElem?_zipWith] at hi
    split at hi
    · simp only [Option.some.injEq] at hi
      rw [← hi]
      exact obj_transform_sync _ _
    · simp at hi
  refine ⟨h1, fun hsync => ?_⟩
  obtain ⟨s, hsm⟩ := List.exists_mem_of_ne_nil _ hs
  have e1 := h1 s hsm
  have hb : Below (f.aimToSun az el).asm [f.asm.own, o.own, s.own] s := Below.object ho hsm
  have e2 := hsync _ _ hb
  rw [e1, hown] at e2
  simp only [List.foldl_cons, List.foldl_nil] at e2
  have e3 := congrArg Tf.loc e2
  apply hv
  have hx := congrArg V3.x e3
  have hy := congrArg V3.y e3
  have hz := congrArg V3.z e3
  simp at hx hy hz
  apply V3.ext
  · simpa using hx
  · simpa using hy
  · simpa using hz

/-- C23 fails for heliostat fields: `aim_to_sun` of any field that was moved away puts the heliostats where they would be in a
field that was not moved, so the frames for tracing do not reflect the field's position. -/
theorem C23_aim_fails {positions : List (V3 ℝ)} (hne : positions ≠ []) {W L : ℝ} (hW : 0 < W) (hL : 0 < L)
    (absorpt th : ℝ) (junk : M3 ℝ) {v : V3 ℝ} (hv : v ≠ 0) (az el : ℝ) :
    ∃ f moved aimed : HelioField σ E, HelioField.new positions W L absorpt th junk = .ok f ∧
      moved = { f with asm := f.asm.set (.location v) } ∧ InSync 1 moved.asm ∧
      aimed = moved.aimToSun az el ∧ ¬ InSync 1 aimed.asm ∧ (∀ o ∈ aimed.asm.objs, o.InSync 1) ∧ aimed.asm.objs ≠ [] := by
  obtain ⟨g, hg⟩ := (C31_constructor (K := ℝ) (E := E) W L).1 ⟨hW, hL⟩
  obtain ⟨f, h1, h2, h3, h4⟩ := new_inv (σ := σ) (a := absorpt) (th := th) hg positions junk
  have hpos : f.pos = positions := h2.pos
  have hown : f.asm.own.rot = 1 := by
    unfold HelioField.new at h1
    split at h1
    · cases h1
    · cases h1; rfl
  cases f with
  | mk pos aimHeight asm =>
    cases asm with
    | mk own subs objs =>
      simp only [Asm.own] at hown
      simp only at hpos
      subst hpos
      simp only [Asm.objs] at h4
      refine ⟨_, _, _, h1, rfl, transform_sync 1 _, rfl, ?_⟩
      set moved : HelioField σ E := ⟨pos, aimHeight, (Asm.mk own subs objs).set (.location v)⟩ with hm
      have hmo : moved.asm.own = ⟨1, v⟩ := by
        show (⟨own.rot, v⟩ : Tf ℝ) = _
        rw [hown]
      have hobjs : moved.asm.objs = objs.map (·.transformChildren (1 * ⟨own.rot, v⟩)) := rfl
      have hlen : objs.length = pos.length := h4.length_eq
      have hsurf : ∀ o ∈ (moved.aimToSun az el).asm.objs, o.surfs ≠ [] := by
        intro o ho
        have ho' : o ∈ List.zipWith (fun (o : SceneObj σ ℝ E) p =>
          o.set (.transform (aimTransform az el aimHeight p))) moved.asm.objs pos := ho
        rw [List.mem_iff_getElem?] at ho'
        obtain ⟨i, hi⟩ := ho'
        rw [List.getElem?_zipWith] at hi
        split at hi
        · rename_i a b ha hb
          simp only [Option.some.injEq] at hi
          rw [hobjs, List.getElem?_map, Option.map_eq_some_iff] at ha
          obtain ⟨a0, ha0, rfl⟩ := ha
          have hq := (List.forall₂_iff_get.1 h4).2 i (List.getElem?_eq_some_iff.1 ha0).1 (List.getElem?_eq_some_iff.1 hb).1
          rw [List.get_eq_getElem, (List.getElem?_eq_some_iff.1 ha0).2] at hq
          rw [← hi, hq]
          simp [ObjNode.set, ObjNode.transformChildren]
        · simp at hi
      have hnil : (moved.aimToSun az el).asm.objs ≠ [] := by
        have : (moved.aimToSun az el).asm.objs.length = pos.length := by
          show (List.zipWith _ moved.asm.objs pos).length = _
          rw [List.length_zipWith, hobjs, List.length_map, hlen, Nat.min_self]
        intro h
        rw [h] at this
        exact hne (List.length_eq_zero_iff.1 this.symm)
      obtain ⟨o, ho⟩ := List.exists_mem_of_ne_nil _ hnil
      exact ⟨(aim_ignores_field hmo hv az el ho (hsurf o ho)).2,
        fun o ho => (aim_ignores_field hmo hv az el ho (hsurf o ho)).1, hnil⟩

example : ∃ aimed : HelioField Unit Unit, ¬ InSync 1 aimed.asm ∧ aimed.asm.objs ≠ [] := by
  obtain ⟨_, _, aimed, _, _, _, _, h, _, h'⟩ := C23_aim_fails (σ := Unit) (E := Unit) (positions := [⟨0, 10, 0⟩, ⟨5, 10, 0⟩]) (by simp) (W := 2) (L := 2)
    (by norm_num) (by norm_num) (1 / 10) 50 1 (v := ⟨0, 0, 3⟩) (fun h => by simpa using congrArg V3.z h) 0 1
  exact ⟨aimed, h, h'⟩

/-- C35 needs the distance from the axis direction: inside the tolerance the reported point can be well outside the cylinder.
The cylinder has radius 1, the reported point is at distance 5/4 from its axis. -/
theorem C35_near_axis_counterexample {x z : ℝ} (h0 : 0 < x) (h1 : x ^ 2 ≤ 1 / 10 ^ 10) (en : ℝ) :
    ∃ t : ℝ, (infiniteCylinderGM 2 : Geometry ℝ Unit).find 1 [⟨⟨1/2, 0, 0⟩, ⟨x, 0, z⟩, en, 0, none, ()⟩] = [(t : WithTop ℝ)] ∧
      0 < t ∧ (⟨1/2, 0, 0⟩ + t • ⟨x, 0, z⟩ : V3 ℝ).x = 5 / 4 ∧ (⟨1/2, 0, 0⟩ + t • ⟨x, 0, z⟩ : V3 ℝ).y = 0 := by
  refine ⟨3 / 4 / x, ?_, by positivity, ?_, by simp⟩
  · show quadricFind _ defaultSelect _ = _
    rw [find_default]
    have hr : (1 : Tf ℝ).Rigid := Tf.Rigid.one
    have ed : localDir (1 : Tf ℝ) ⟨x, 0, z⟩ = ⟨x, 0, z⟩ := by
      unfold localDir
      apply V3.ext <;> simp [M3.transpose]
    have ep : (1 : Tf ℝ).inv.point ⟨1/2, 0, 0⟩ = ⟨1/2, 0, 0⟩ := by
      have := Tf.inv_point_point (t := (1 : Tf ℝ)) (M3.IsRotation.det_ne hr) ⟨1/2, 0, 0⟩
      rwa [Tf.one_point] at this
    simp only [List.map_cons, List.map_nil, cylinderABC, ed, ep]
    have hc : candidate (x ^ 2 + 0 ^ 2, 2 * (x * (1 / 2) + 0 * 0), ((1 / 2 : ℝ) ^ 2 + 0 ^ 2) - (2 / 2) ^ 2) ⟨1/2, 0, 0⟩ ⟨x, 0, z⟩ =
        some ⟨3 / 4 / x, 3 / 4 / x, ⟨1/2, 0, 0⟩ + (3 / 4 / x) • ⟨x, 0, z⟩, ⟨1/2, 0, 0⟩ + (3 / 4 / x) • ⟨x, 0, z⟩⟩ := by
      have e : -(((1 / 2 : ℝ) ^ 2 + 0 ^ 2) - (2 / 2) ^ 2) / (2 * (x * (1 / 2) + 0 * 0)) = 3 / 4 / x := by
        field_simp; norm_num; ring
      unfold candidate
      simp only
      rw [if_pos (by nlinarith), if_pos (by unfold planarTol; linarith), if_neg (by
        have : 2 * (x * (1 / 2) + 0 * 0) = x := by ring
        rw [this]; exact h0.ne'), e]
    rw [hc]
    have ht : 0 < 3 / 4 / x := by positivity
    simp [chosenParam, trimPick, pick, ht, Cand.choose]
  · simp
    field_simp
    norm_num

example : ∃ t : ℝ, (infiniteCylinderGM 2 : Geometry ℝ Unit).find 1 [⟨⟨1/2, 0, 0⟩, ⟨1 / 10 ^ 5, 0, 1⟩, 1, 0, none, ()⟩] = [(t : WithTop ℝ)] ∧ 0 < t := by
  obtain ⟨t, h1, h2, _⟩ := C35_near_axis_counterexample (x := 1 / 10 ^ 5) (z := 1) (by norm_num) (by norm_num) 1
  exact ⟨t, h1, h2⟩

example : ∃ x : ℝ, 0 < x ∧ x ^ 2 ≤ 1 / 10 ^ 10 ∧ ∃ z, (⟨x, 0, z⟩ : V3 ℝ).IsUnit := by
  refine ⟨1 / 10 ^ 5, by norm_num, by norm_num, √(1 - (1 / 10 ^ 5) ^ 2), ?_⟩
  unfold V3.IsUnit V3.dot
  have := sq_sqrt (show (0 : ℝ) ≤ 1 - (1 / 10 ^ 5) ^ 2 by norm_num)
  simp only
  linarith

end Tracer
