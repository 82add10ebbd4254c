import Verif.Props.Frames

/-! # Exactly which moves keep the frames of a tree right (C23) -/

set_option linter.unusedSectionVars false

namespace Tracer

variable {K : Type _} [Field K] {P Q : Type _}

/-! ## Lemmas -/

theorem Tf.mul_right_cancel' {S T t : Tf K} (ht : t.rot.det ≠ 0) (h : S * t = T * t) : S = T := by
  have := congrArg (· * t.inv) h
  simpa only [Tf.mul_assoc', Tf.mul_inv ht, Tf.mul_one'] using this

theorem Tf.mul_left_cancel' {S T t : Tf K} (ht : t.rot.det ≠ 0) (h : t * S = t * T) : S = T := by
  have := congrArg (t.inv * ·) h
  simpa only [← Tf.mul_assoc', Tf.inv_mul ht, Tf.one_mul'] using this

theorem foldl_cancel {q : List (Tf K)} (hq : ∀ t ∈ q, t.rot.det ≠ 0) {S T : Tf K}
    (h : q.foldl (· * ·) S = q.foldl (· * ·) T) : S = T := by
  induction q generalizing S T with
  | nil => exact h
  | cons t q ih =>
    exact Tf.mul_right_cancel' (hq t (by simp)) (ih (fun t ht => hq t (List.mem_cons_of_mem _ ht)) h)

theorem mem_modifyNth_of {α : Type _} (f : α → α) {i : Nat} {l : List α} {y : α} (h : l[i]? = some y) :
    f y ∈ modifyNth f i l := by
  induction l generalizing i with
  | nil => simp at h
  | cons a l ih =>
    cases i with
    | zero => simp only [List.getElem?_cons_zero, Option.some.injEq] at h; subst h; simp [modifyNth]
    | succ i => exact List.mem_cons_of_mem _ (ih (by simpa using h))

/-- If the frames are right after a change of one sub-assembly, they are right in it. -/
theorem sync_modifyAt {f : Asm K P Q → Asm K P Q} {path : List Nat} {T T' : Tf K} {a b : Asm K P Q}
    (hat : a.at path = some b) (habove : a.above T path = some T') (h : InSync T (Asm.modifyAt f path a)) :
    InSync T' (f b) := by
  induction path generalizing T a with
  | nil =>
    simp only [Asm.at, Option.some.injEq] at hat
    simp only [Asm.above, Option.some.injEq] at habove
    subst hat habove
    exact h
  | cons i path ih =>
    cases a with
    | mk own subs objs =>
      cases hy : subs[i]? with
      | none => simp [Asm.at, hy] at hat
      | some y =>
        simp only [Asm.at, hy] at hat
        simp only [Asm.above, hy] at habove
        refine ih (T := T * own) hat habove ?_
        intro q s hq
        unfold Asm.modifyAt at h
        exact h _ _ (.sub (mem_modifyNth_of _ hy) hq)

theorem below_own {a : Asm K P Q} {q : List (Tf K)} {s : SurfNode K P} (h : Below a q s) : ∃ q', q = a.own :: q' := by
  cases h with
  | object => exact ⟨_, rfl⟩
  | sub => exact ⟨_, rfl⟩

theorem mem_transformAll {T : Tf K} {l : List (Asm K P Q)} {a : Asm K P Q} (h : a ∈ l) :
    a.transformChildren T ∈ Asm.transformAll T l := by
  induction l with
  | nil => simp at h
  | cons b l ih =>
    unfold Asm.transformAll
    rcases List.mem_cons.1 h with rfl | h
    · simp
    · exact List.mem_cons_of_mem _ (ih h)

theorem below_transform {a : Asm K P Q} {q : List (Tf K)} {s : SurfNode K P} (h : Below a q s) :
    ∀ T, ∃ s', Below (a.transformChildren T) q s' := by
  induction h with
  | @object own subs objs o s ho hs =>
    intro T
    unfold Asm.transformChildren
    exact ⟨s.transformFrame (T * own * o.own), .object (o := o.transformChildren (T * own)) (List.mem_map.2 ⟨o, ho, rfl⟩)
      (List.mem_map.2 ⟨s, hs, rfl⟩)⟩
  | @sub own subs objs a path s ha hb ih =>
    intro T
    unfold Asm.transformChildren
    obtain ⟨s', hs'⟩ := ih (T * own)
    exact ⟨s', .sub (mem_transformAll ha) hs'⟩

theorem below_set {a : Asm K P Q} {q : List (Tf K)} {s : SurfNode K P} (h : Below a (a.own :: q) s) (c : Change K) :
    ∃ s', Below (a.set c) (c.apply a.own :: q) s' := by
  cases a with
  | mk own subs objs =>
    unfold Asm.set
    have : Below (Asm.mk (c.apply own) subs objs) (c.apply own :: q) s := by
      cases h with
      | object ho hs => exact .object ho hs
      | sub ha hb => exact .sub ha hb
    exact below_transform this 1

/-! ## C23 -/

/-- C23, exactly: moving an assembly with some surface below it, all transforms being invertible, keeps the frames of a
tree right if and only if the assemblies above it compose to the identity. -/
theorem C23_assembly_iff {a b : Asm K P Q} (hs : InSync 1 a) {path : List Nat} {T : Tf K} (hat : a.at path = some b)
    (habove : a.above 1 path = some T) (c : Change K) {q : List (Tf K)} {s : SurfNode K P} (hb : Below b (b.own :: q) s)
    (hinv : ∀ t ∈ c.apply b.own :: q, t.rot.det ≠ 0) :
    InSync 1 ((Call.setAsm path c).apply a) ↔ T = 1 := by
  constructor
  · intro h
    have h1 : InSync T (b.set c) := sync_modifyAt hat habove h
    have h2 : InSync 1 (b.set c) := by cases b; exact transform_sync 1 _
    obtain ⟨s', hs'⟩ := below_set hb c
    exact foldl_cancel hinv ((h1 _ _ hs').symm.trans (h2 _ _ hs'))
  · rintro rfl
    refine modifyAt_sync hs ?_
    intro x T' hx hT' _
    rw [habove] at hT'
    cases hT'
    cases x
    exact transform_sync 1 _

/-- C23, exactly, for moving an object with a surface: the assemblies above it, its own included, must compose to the
identity. -/
theorem C23_object_iff {a b : Asm K P Q} (hs : InSync 1 a) {path : List Nat} {T : Tf K} (hat : a.at path = some b)
    (habove : a.above 1 path = some T) {i : Nat} {o : ObjNode K P Q} (ho : b.objs[i]? = some o) (c : Change K)
    {s : SurfNode K P} (hso : s ∈ o.surfs) (hinv : (c.apply o.own).rot.det ≠ 0) (hinvs : s.own.rot.det ≠ 0) :
    InSync 1 ((Call.setObj path i c).apply a) ↔ T * b.own = 1 := by
  constructor
  · intro h
    have h1 : InSync T (Asm.modifyObj (ObjNode.set c) i b) := sync_modifyAt hat habove h
    cases b with
    | mk own subs objs =>
      have hm : ObjNode.set c o ∈ modifyNth (ObjNode.set c) i objs := mem_modifyNth_of _ ho
      have hsm : s.transformFrame (1 * c.apply o.own) ∈ (ObjNode.set c o).surfs := List.mem_map.2 ⟨s, hso, rfl⟩
      have h2 := h1 _ _ (.object hm hsm)
      have h3 : (s.transformFrame (1 * c.apply o.own)).temp = 1 * c.apply o.own * s.own := rfl
      rw [h3] at h2
      exact (Tf.mul_right_cancel' hinv (Tf.mul_right_cancel' hinvs h2)).symm
  · intro hT
    exact (C23_object_partial hs hat habove hT i c s).1

/-- C23, exactly, for moving a surface, all transforms above it being invertible: its frame for tracing does not follow at
all, so it stays right only if the surface stays where it was. -/
theorem C23_surface_iff {a b : Asm K P Q} (hs : InSync 1 a) {path : List Nat} {T : Tf K} (hat : a.at path = some b)
    (habove : a.above 1 path = some T) {i j : Nat} {o : ObjNode K P Q} (ho : b.objs[i]? = some o) {s : SurfNode K P}
    (hso : o.surfs[j]? = some s) (c : Change K) (hinv : (T * b.own * o.own).rot.det ≠ 0) :
    InSync 1 ((Call.setSurf path i j c).apply a) ↔ c.apply s.own = s.own := by
  have hbs : InSync T b := by
    have := sync_modifyAt (f := id) hat habove (T := 1) (a := a) (by
      refine modifyAt_sync hs ?_
      intro _ _ _ _ h
      exact h)
    exact this
  constructor
  · intro h
    have h1 := sync_modifyAt hat habove h
    cases b with
    | mk own subs objs =>
      have hm := mem_modifyNth_of (fun o : ObjNode K P Q => { o with surfs := modifyNth (SurfNode.set c) j o.surfs }) ho
      have hsm := mem_modifyNth_of (SurfNode.set c) hso
      have h2 := h1 _ _ (.object hm hsm)
      have h3 := hbs _ _ (.object (List.mem_of_getElem? ho) (List.mem_of_getElem? hso))
      have h4 : (SurfNode.set c s).temp = s.temp := rfl
      rw [h4, h3] at h2
      exact (Tf.mul_left_cancel' hinv h2).symm
  · intro hc
    refine modifyAt_sync hs ?_
    intro x T' hx hT' hsx
    rw [hat] at hx
    cases hx
    cases b with
    | mk own subs objs =>
      intro p s' hb
      cases hb with
      | @object _ _ _ o' _ ho' hso' =>
        rcases mem_modifyNth ho' with ho' | ⟨y, hy, rfl⟩
        · exact hsx _ _ (.object ho' hso')
        · rcases mem_modifyNth hso' with hso' | ⟨z, hz, rfl⟩
          · have := hsx _ _ (.object (o := y) (List.mem_of_getElem? hy) hso')
            exact this
          · have hoy : o = y := Option.some.inj (ho.symm.trans hy)
            subst hoy
            have hsz : s = z := Option.some.inj (hso.symm.trans hz)
            subst hsz
            have := hsx _ _ (.object (List.mem_of_getElem? ho) (List.mem_of_getElem? hso))
            change s.temp = _
            rw [this]
            change _ = T' * own * o.own * c.apply s.own
            rw [hc]
            rfl
      | sub ha hb => exact hsx _ _ (.sub ha hb)

/-- C23, exactly, for adding to an assembly: an object with a surface, put at an invertible transform, leaves the frames
right if and only if the assemblies above compose to the identity. -/
theorem C23_add_object_iff {a b : Asm K P Q} (hs : InSync 1 a) {path : List Nat} {T : Tf K} (hat : a.at path = some b)
    (habove : a.above 1 path = some T) (o : ObjNode K P Q) {t : Tf K} {s : SurfNode K P} (hso : s ∈ o.surfs)
    (hb : b.own.rot.det ≠ 0) (ht : t.rot.det ≠ 0) (hinvs : s.own.rot.det ≠ 0) :
    InSync 1 ((Call.addObj path o t).apply a) ↔ T = 1 := by
  constructor
  · intro h
    have h1 : InSync T (Asm.addObject o t b) := sync_modifyAt hat habove h
    have h2 : InSync 1 (Asm.addObject o t b) := by cases b; exact transform_sync 1 _
    cases b with
    | mk own subs objs =>
      have hb0 : Below (Asm.mk own subs (objs ++ [o.set (.transform t)])) [own, t, s.own]
          (s.transformFrame (1 * t)) :=
        .object (o := o.set (.transform t)) (List.mem_append_right _ (by simp)) (List.mem_map.2 ⟨s, hso, rfl⟩)
      obtain ⟨s', hs'⟩ := below_transform hb0 1
      refine foldl_cancel (q := [own, t, s.own]) ?_ ((h1 _ _ hs').symm.trans (h2 _ _ hs'))
      intro u hu
      simp only [List.mem_cons, List.not_mem_nil, or_false] at hu
      rcases hu with rfl | rfl | rfl
      · exact hb
      · exact ht
      · exact hinvs
  · rintro rfl
    refine modifyAt_sync hs ?_
    intro x T' hx hT' _
    rw [habove] at hT'
    cases hT'
    cases x
    exact transform_sync 1 _

/-! In the tree of depth two of the counterexample the root is at (1, 0, 0), so that no move of the inner assembly, even
to where it is, keeps the frames right; and its surface, which is at the origin of its object, may only be put there
again. -/
example (v : V3 ℚ) : ¬ InSync 1 ((Call.setAsm [0] (.location v)).apply Examples.nested) := by
  rw [C23_assembly_iff (a := Examples.nested) (C22_construct _ _ _ _ _).1 (path := [0]) (T := ⟨1, ⟨1, 0, 0⟩⟩) rfl
    (by decide +kernel) (.location v) (.object List.mem_cons_self List.mem_cons_self) ?_]
  · decide +kernel
  · intro t ht
    simp only [List.mem_cons, List.not_mem_nil, or_false] at ht
    rcases ht with rfl | rfl | rfl
    · change (1 : M3 ℚ).det ≠ 0
      decide +kernel
    · decide +kernel
    · decide +kernel

example (v : V3 ℚ) : InSync 1 ((Call.setSurf [0] 0 0 (.location v)).apply Examples.nested) ↔ v = 0 := by
  rw [C23_surface_iff (a := Examples.nested) (C22_construct _ _ _ _ _).1 (path := [0]) (T := ⟨1, ⟨1, 0, 0⟩⟩) (i := 0)
    (j := 0) rfl (by decide +kernel) rfl rfl (.location v) (by decide +kernel)]
  constructor
  · intro h
    exact congrArg Tf.loc h
  · rintro rfl
    rfl

/-- Moving the object, or adding one, in the inner assembly of the example loses the assemblies above. -/
example (v : V3 ℚ) : ¬ InSync 1 ((Call.setObj [0] 0 (.location v)).apply Examples.nested) ∧
    ¬ InSync 1 ((Call.addObj [0] (ObjNode.new [⟨1, 1, ()⟩] 1 ()) ⟨1, v⟩).apply Examples.nested) := by
  rw [C23_object_iff (a := Examples.nested) (C22_construct _ _ _ _ _).1 (path := [0]) (T := ⟨1, ⟨1, 0, 0⟩⟩) (i := 0) rfl (by decide +kernel) rfl
      (.location v) List.mem_cons_self (by change (1 : M3 ℚ).det ≠ 0; decide +kernel) (by decide +kernel),
    C23_add_object_iff (a := Examples.nested) (C22_construct _ _ _ _ _).1 (path := [0]) (T := ⟨1, ⟨1, 0, 0⟩⟩) rfl (by decide +kernel)
      (ObjNode.new [⟨1, 1, ()⟩] 1 ()) (t := ⟨1, v⟩) List.mem_cons_self (by decide +kernel) (by change (1 : M3 ℚ).det ≠ 0; decide +kernel)
      (by decide +kernel)]
  exact ⟨by decide +kernel, by decide +kernel⟩

end Tracer
