import Verif.Spec.Mirrors
import Verif.Lemmas.Rigid
import Verif.Props.Flat
import Verif.Props.Refraction

/-! Lemmas about the readymade components. -/

set_option linter.unusedSectionVars false

namespace Tracer

section
variable {K E σ : Type _} [Field K] [LinearOrder K] [IsStrictOrderedRing K]

theorem obj_transform_twice {P Q : Type _} (T T' : Tf K) (o : ObjNode K P Q) :
    (o.transformChildren T').transformChildren T = o.transformChildren T := by
  unfold ObjNode.transformChildren SurfNode.transformFrame
  simp [Function.comp_def]

mutual
theorem transform_twice {P Q : Type _} (T T' : Tf K) : ∀ a : Asm K P Q,
    (a.transformChildren T').transformChildren T = a.transformChildren T
  | .mk own subs objs => by
    simp only [Asm.transformChildren]
    rw [transformAll_twice (T * own) (T' * own) subs, List.map_map]
    congr 1
    apply List.map_congr_left
    intro o _
    exact obj_transform_twice _ _ _

theorem transformAll_twice {P Q : Type _} (T T' : Tf K) : ∀ l : List (Asm K P Q),
    Asm.transformAll T (Asm.transformAll T' l) = Asm.transformAll T l
  | [] => rfl
  | a :: l => by
    simp only [Asm.transformAll]
    rw [transform_twice T T' a, transformAll_twice T T' l]
end

/-- The objects of a new assembly with one sub-assembly. -/
theorem new_sub_getObjects {P Q : Type _} (objs : List (ObjNode K P Q)) (sub : Asm K P Q) (junk : M3 K) :
    (Asm.new objs [sub] 0 1 junk).getObjects =
      (sub.transformChildren 1).getObjects ++ objs.map (·.transformChildren 1) := by
  unfold Asm.new Asm.set
  simp only [Asm.transformChildren, Asm.set, Change.apply, Asm.transformAll, Asm.getObjects, Asm.getObjectsAll,
    List.nil_append, List.append_nil, List.map_map, transform_twice]
  have e : (1 : Tf K) * ⟨1, 0⟩ = 1 := Tf.one_mul' _
  rw [e]
  congr 1
  apply List.map_congr_left
  intro o _
  exact obj_transform_twice _ _ _

theorem set_transform_twice {P Q : Type _} (a : Asm K P Q) (c : Change K) :
    (a.set c).transformChildren 1 = a.set c := by
  cases a with
  | mk own subs objs => exact transform_twice _ _ _

/-- The objects of a new assembly of objects only, at the place where it is put. -/
theorem new_getObjects {P Q : Type _} (objs : List (ObjNode K P Q)) (junk : M3 K) :
    (Asm.new objs [] 0 1 junk).getObjects = objs.map (·.transformChildren 1) := by
  unfold Asm.new Asm.set
  simp only [Asm.transformChildren, Asm.set, Change.apply, Asm.transformAll, Asm.getObjects, Asm.getObjectsAll,
    List.nil_append, List.map_map]
  apply List.map_congr_left
  intro o _
  simp only [Function.comp, obj_transform_twice]
  congr 1
  exact Tf.one_mul' _

theorem new_set_getObjects {P Q : Type _} (objs : List (ObjNode K P Q)) (junk : M3 K) (T : Tf K) :
    ((Asm.new objs [] 0 1 junk).set (.transform T)).getObjects = objs.map (·.transformChildren T) := by
  unfold Asm.new Asm.set
  simp only [Asm.transformChildren, Asm.set, Change.apply, Asm.transformAll, Asm.getObjects, Asm.getObjectsAll,
    List.nil_append, List.map_map]
  apply List.map_congr_left
  intro o _
  simp only [Function.comp, obj_transform_twice, Tf.one_mul']

theorem reflection_neg (d n : V3 K) : reflection d (-n) = reflection d n := by
  unfold reflection V3.dot
  apply V3.ext <;> simp <;> ring

/-- A rectangular plate with an absorbing back, at a rigid frame. -/
theorem plate_isMirror {W L a : K} {g : Geometry K E} (hg : rectPlateGM W L = .ok g) {frame : Tf K}
    (hf : frame.Rigid) (own t : Tf K) :
    ObjNode.IsMirror (⟨own, [⟨t, frame, (g, absorberReflector a)⟩], (Obj.defaultOwn, Obj.skipNext 1)⟩ : SceneObj σ K E)
      (Placed frame (rectXY W L)) frame.rot.c3 a := by
  have hu : V3.IsUnit frame.rot.c3 := ((M3.isRotation_iff _).1 hf).1.2.2.1
  refine ⟨hu, ⟨_, rfl, ?_⟩, fun rays k => rfl⟩
  intro rays i r hr
  obtain ⟨p, h1, h2, h3⟩ := C31_rect_plate hf hg rays i r hr
  refine ⟨p, h1, h2, h3, ?_⟩
  intro s w hp
  subst hp
  have hn : g.normal = flatNormal := by
    unfold rectPlateGM at hg
    split at hg
    · simp at hg
    · split at hg
      · simp at hg
      · cases hg; rfl
  have hrec : hitRecs g frame rays [i] = .ok [⟨i, r, r.at s, flatNormal frame (r.at s) r.dir⟩] := by
    unfold hitRecs
    rw [hr, h1]
    simp only [hitRecs, hn]
  have hmir : Mirrored r.dir frame.rot.c3 (reflection r.dir (flatNormal frame (r.at s) r.dir)) := by
    unfold flatNormal
    split
    · rw [reflection_neg]; exact C44_mirrored hu _
    · exact C44_mirrored hu _
  unfold SurfNode.surf mkSurf
  simp only [hrec, absorberReflector, List.map_cons, List.map_nil]
  refine ⟨_, rfl, ?_⟩
  split
  · rename_i hlt
    exact ⟨rfl, hmir, rfl, fun h => absurd h (not_le.2 hlt), fun _ => rfl⟩
  · rename_i hlt
    exact ⟨rfl, hmir, rfl, fun _ => rfl, fun h => absurd h hlt⟩

/-- What `rect_one_sided_mirror` makes, put somewhere. -/
theorem mirror_ok {W L a : K} (hW : 0 < W) (hL : 0 < L) :
    ∃ m : SceneObj σ K E, rectOneSidedMirror W L a = .ok m ∧
      ∀ (own T : Tf K), (T * own).Rigid →
        ((m.set (.transform own)).transformChildren T).IsMirror (Placed (T * own) (rectXY W L)) (T * own).rot.c3 a := by
  obtain ⟨g, hg⟩ := (C31_constructor (K := K) (E := E) W L).1 ⟨hW, hL⟩
  refine ⟨_, by unfold rectOneSidedMirror; rw [hg], ?_⟩
  intro own T h
  have e : ((ObjNode.new [Surface.new g (absorberReflector a) 1] 1 (Obj.defaultOwn, Obj.skipNext 1) :
      SceneObj σ K E).set (.transform own)).transformChildren T =
      ⟨own, [⟨1, T * own * 1, (g, absorberReflector a)⟩], (Obj.defaultOwn, Obj.skipNext 1)⟩ := rfl
  rw [e, Tf.mul_one']
  exact plate_isMirror hg h own 1

end

end Tracer
