import Verif.Lemmas.Graph
import Mathlib.Algebra.Order.Field.Rat
import Mathlib.Tactic.NormNum

/-! C112: components in several places. -/

set_option linter.unusedSectionVars false

namespace Tracer.Graph

open Heap

variable {K : Type _} [Field K]

/-! ### Where the surfaces are -/

/-- C112: after `transform_children` of an assembly, and so after every change of its transform, every surface below it is placed by the product of the transforms along one of
the ways down to it; no other surface is touched, and nothing but the frames for tracing. -/
theorem C112_frames {n : Nat} {T : Tf K} {a : Nat} {h h' : Heap K} (hr : transformAsm n T a h = some h') :
    (∀ s, (∃ F, h.At a s F) → ∃ F, h.At a s F ∧ (h'.surfs s).temp = T * F) ∧
    (∀ s, (∀ F, ¬ h.At a s F) → (h'.surfs s).temp = (h.surfs s).temp) ∧ Same h h' := by
  obtain ⟨h1, h2⟩ := transformAsm_eff hr
  refine ⟨fun s ⟨F, hF⟩ => ?_, fun s hn => ?_, h1⟩
  · rcases h2 s with ⟨_, ⟨G, hG, rfl⟩, e⟩ | ⟨hn, _⟩
    · exact ⟨G, hG, e⟩
    · exact absurd ⟨F, hF, rfl⟩ (hn _)
  · rcases h2 s with ⟨_, ⟨G, hG, rfl⟩, e⟩ | ⟨_, e⟩
    · exact absurd hG (hn G)
    · exact e

/-- C112, the case without sharing: a surface to which all ways down give the same product is placed by that product. -/
theorem C112_unique_partial {n : Nat} {t : Tf K} {a : Nat} {h h' : Heap K} (hr : setAsm n a t h = some h') {s : Nat} {F : Tf K}
    (hF : h'.At a s F) (hu : ∀ G, h'.At a s G → G = F) : (h'.surfs s).temp = F := by
  obtain ⟨h1, _, h3⟩ := C112_frames hr
  obtain ⟨G, hG, e⟩ := h1 s ⟨F, h3.symm.at hF⟩
  rw [e, Tf.one_mul', hu G (h3.at hG)]

theorem setObj_same (o : Nat) (t : Tf K) (h : Heap K) :
    Same { h with objs := Function.update h.objs o { h.objs o with own := t } } (setObj o t h) :=
  (transformObj_eff 1 o _).1

/-- C112, `add_object`: the object is listed last, has the transform that was given, and its surfaces are where the transforms of the assembly and of the object put them,
wherever else the object is listed. -/
theorem C112_add_object {n a o : Nat} {t : Tf K} {h h' : Heap K} (hr : addObject n a o t h = some h') :
    h'.objsOf a = h.objsOf a ++ [o] ∧ (h'.objs o).own = t ∧ h'.asms = h.asms ∧
    ∀ s ∈ h'.surfsOf o, (h'.surfs s).temp = (h.asms a).own * (t * (h.surfs s).own) := by
  unfold addObject at hr
  have e2 := (transformAsm_eff hr).1
  have e1 := setObj_same o t (h.append (h.asms a).objs o)
  have e := e1.trans e2
  have hasm : h'.asms = h.asms := e.asms
  have hobj : (h'.objs o).own = t := by rw [e.objs]; simp
  have hlist : h'.objsOf a = h.objsOf a ++ [o] := by
    unfold objsOf
    rw [hasm, e.lists]
    simp [append]
  refine ⟨hlist, hobj, hasm, fun s hs => ?_⟩
  have hl : (setObj o t (h.append (h.asms a).objs o)).objsOf a = h.objsOf a ++ [o] := by rw [← hlist, e2.objsOf]
  rw [transformAsm_last hr hl (by rw [e2.surfsOf] at hs; exact hs), Tf.one_mul', e1.asms, e1.objs, e1.own]
  simp [append]

theorem frames_after {n : Nat} {a : Nat} {h h' : Heap K} (hr : transformAsm n 1 a h = some h') :
    (∀ s, (∃ F, h'.At a s F) → ∃ F, h'.At a s F ∧ (h'.surfs s).temp = F) ∧
    (∀ s, (∀ F, ¬ h'.At a s F) → (h'.surfs s).temp = (h.surfs s).temp) := by
  obtain ⟨h1, h2, h3⟩ := C112_frames hr
  refine ⟨fun s ⟨F, hF⟩ => ?_, fun s hn => h2 s fun F hF => hn F (h3.at hF)⟩
  obtain ⟨G, hG, e⟩ := h1 s ⟨F, h3.symm.at hF⟩
  exact ⟨G, h3.at hG, by rw [e, Tf.one_mul']⟩

/-- C112, the calls: after `set_transform`, `add_object` or `add_assembly` of assembly `a` has returned, all surfaces below `a` are where the transforms along one of the ways down put
them, and no others have moved. -/
theorem C112_calls {n a x : Nat} {t : Tf K} {h h' : Heap K}
    (hr : setAsm n a t h = some h' ∨ addObject n a x t h = some h' ∨ addAssembly n a x t h = some h') :
    (∀ s, (∃ F, h'.At a s F) → ∃ F, h'.At a s F ∧ (h'.surfs s).temp = F) ∧
    (∀ s, (∀ F, ¬ h'.At a s F) → (h'.surfs s).temp = (h.surfs s).temp) := by
  rcases hr with hr | hr | hr
  · unfold setAsm at hr
    have k := frames_after hr
    exact k
  · obtain ⟨h1, h2⟩ := frames_after hr
    refine ⟨h1, fun s hn => (h2 s hn).trans ?_⟩
    have e := (setObj_same x t (h.append (h.asms a).objs x)).trans (transformAsm_eff hr).1
    have hl := (C112_add_object hr).1
    rcases (transformObj_eff 1 x { h.append (h.asms a).objs x with
      objs := Function.update (h.append (h.asms a).objs x).objs x ({ (h.append (h.asms a).objs x).objs x with own := t }) }).2 s with ⟨F, hF, _⟩ | ⟨_, hF⟩
    · exact absurd (At.here (o := x) (by rw [hl]; simp) (by rw [e.surfsOf]; exact hF.1)) (hn _)
    · exact hF
  · unfold addAssembly at hr
    rcases hs : setAsm n x t (h.append (h.asms a).subs x) with _ | h1
    · rw [hs] at hr; cases hr
    · rw [hs] at hr
      obtain ⟨h2, h3⟩ := frames_after hr
      refine ⟨h2, fun s hn => (h3 s hn).trans ?_⟩
      have e := (transformAsm_eff hr).1
      have e1 := (transformAsm_eff hs).1
      refine (frames_after hs).2 s fun F hF => hn _ (At.sub (b := x) ?_ (e.at hF))
      unfold subsOf
      rw [(e1.trans e).lists, (e1.trans e).asms]
      by_cases hx : a = x
      · subst hx; simp [append]
      · simp [append, hx]

/-- C112, `add_assembly`: the assembly is listed last and has the transform that was given. -/
theorem C112_add_assembly {n a b : Nat} {t : Tf K} {h h' : Heap K} (hr : addAssembly n a b t h = some h') :
    h'.subsOf a = h.subsOf a ++ [b] ∧ (h'.asms b).own = t ∧ h'.objs = h.objs ∧ ∀ c, c ≠ b → h'.asms c = h.asms c := by
  unfold addAssembly at hr
  rcases hs : setAsm n b t (h.append (h.asms a).subs b) with _ | h1
  · rw [hs] at hr; cases hr
  · rw [hs] at hr
    have e := (transformAsm_eff hs).1.trans (transformAsm_eff hr).1
    refine ⟨?_, by rw [e.asms]; simp, by rw [e.objs]; rfl, fun c hc => by rw [e.asms]; simp [hc, append]⟩
    unfold subsOf
    rw [e.lists, e.asms]
    by_cases hx : a = b
    · subst hx; simp [append]
    · simp [append, hx]

/-- C112, an object added twice to an assembly is there only once: it is listed twice, and both times its surfaces are at the place given last. -/
theorem C112_twice {n a o : Nat} {t t' : Tf K} {h h1 h2 : Heap K} (hr : addObject n a o t h = some h1) (hr' : addObject n a o t' h1 = some h2) :
    h2.objsOf a = h.objsOf a ++ [o, o] ∧
    (∀ s ∈ h2.surfsOf o, (h2.surfs s).temp = (h.asms a).own * (t' * (h.surfs s).own)) ∧
    ∀ m r, getSurfaces m h2 a = some (.ok r) → ∀ s ∈ h2.surfsOf o, 2 ≤ (h2.contents r).count s := by
  obtain ⟨a1, a2, a3, a4⟩ := C112_add_object hr
  obtain ⟨b1, b2, b3, b4⟩ := C112_add_object hr'
  have hown : ∀ s, (h1.surfs s).own = (h.surfs s).own := by
    intro s
    unfold addObject at hr
    have e := (setObj_same o t (h.append (h.asms a).objs o)).trans (transformAsm_eff hr).1
    exact e.own s
  have hl : h2.objsOf a = h.objsOf a ++ [o, o] := by rw [b1, a1]; simp
  refine ⟨hl, ?_, ?_⟩
  · intro s hs
    rw [b4 s hs, a3, hown]
  · intro m r hm s hs
    unfold getSurfaces at hm
    rcases ho : getObjects m h2 a with _ | x
    · rw [ho] at hm; cases hm
    · rw [ho] at hm
      obtain ⟨q, rs, rfl, hq, _⟩ := getObjects_some ho
      generalize rs.flatMap h2.contents = front at hq
      simp only [Option.map_some, Option.some.injEq] at hm
      rw [hq, hl] at hm
      have : h2.contents r = (front ++ (h.objsOf a ++ [o])).flatMap h2.surfsOf ++ h2.surfsOf o := by
        have hsp : (front ++ (h.objsOf a ++ [o, o])).map (fun o => Ref.addr (h2.objs o).surfs) =
            (front ++ (h.objsOf a ++ [o])).map (fun o => Ref.addr (h2.objs o).surfs) ++ [.addr (h2.objs o).surfs] := by simp
        rw [hsp] at hm
        obtain ⟨q', e1, e2, _⟩ := reduceAdd_append h2 ((front ++ (h.objsOf a ++ [o])).map (fun o => Ref.addr (h2.objs o).surfs))
          (.addr (h2.objs o).surfs)
        rw [e1] at hm
        cases hm
        rw [e2, List.flatMap_map]
        rfl
      rw [this]
      have hpos : 0 < (h2.surfsOf o).count s := List.count_pos_iff.2 hs
      simp only [List.flatMap_append, List.flatMap_cons, List.flatMap_nil, List.append_nil, List.count_append]
      omega

/-- C112, an object added to a second assembly is taken away from its place in the first: the first still lists it, but its surfaces are where the second one
put them.  When the first assembly is given a new transform, the surfaces of its last object move there, with the transform the object was given on being added
to the second. -/
theorem C112_taken {n a b o : Nat} {t t' : Tf K} {h h1 h2 : Heap K} (hab : (h.asms a).objs ≠ (h.asms b).objs)
    (hr : addObject n b o t h = some h1) :
    h1.objsOf a = h.objsOf a ∧ (∀ s ∈ h1.surfsOf o, (h1.surfs s).temp = (h.asms b).own * (t * (h.surfs s).own)) ∧
    (∀ l, h.objsOf a = l ++ [o] → setAsm n a t' h1 = some h2 →
      ∀ s ∈ h2.surfsOf o, (h2.surfs s).temp = t' * (t * (h.surfs s).own)) := by
  obtain ⟨a1, a2, a3, a4⟩ := C112_add_object hr
  have e := (setObj_same o t (h.append (h.asms b).objs o)).trans (by unfold addObject at hr; exact (transformAsm_eff hr).1)
  have hla : h1.objsOf a = h.objsOf a := by
    unfold objsOf
    rw [a3, e.lists]
    simp [append, hab]
  refine ⟨hla, a4, ?_⟩
  intro l hl hs2 s hs
  unfold setAsm at hs2
  have e2 := (transformAsm_eff hs2).1
  have hl' : ({ h1 with asms := Function.update h1.asms a { h1.asms a with own := t' } } : Heap K).objsOf a = l ++ [o] := by
    rw [← hl, ← hla]
    simp [objsOf]
  rw [transformAsm_last hs2 hl' (by rw [e2.surfsOf] at hs; exact hs), Tf.one_mul']
  simp only [Function.update_self]
  rw [a2, e.own]
  rfl

/-! ### Depth and cycles -/

/-- C112: `transform_children` and `get_objects` raise just if assemblies are nested as deeply as the recursion limit allows. -/
theorem C112_depth {n : Nat} {T : Tf K} {a : Nat} {h : Heap K} :
    (transformAsm n T a h = none ↔ h.Chain n a) ∧ (getObjects n h a = none ↔ h.Chain n a) :=
  ⟨transformAsm_none, getObjects_none⟩

/-- C112: an assembly somewhere below which an assembly contains itself can neither be moved nor traced, whatever the recursion limit is. -/
theorem C112_cycle {a b : Nat} {h : Heap K} (hab : Relation.ReflTransGen h.Contains a b) (hc : Relation.TransGen h.Contains b b) (n : Nat)
    (T : Tf K) : transformAsm n T a h = none ∧ getObjects n h a = none ∧ getSurfaces n h a = none := by
  have c := chain_of_cycle hab hc n
  refine ⟨transformAsm_none.2 c, getObjects_none.2 c, ?_⟩
  unfold getSurfaces
  rw [getObjects_none.2 c]
  rfl

/-- C112: adding to an assembly an assembly that contains it, or itself, raises. -/
theorem C112_no_cycle {a b : Nat} {h : Heap K} (hba : Relation.ReflTransGen h.Contains b a) (n : Nat) (t : Tf K) :
    addAssembly n a b t h = none := by
  unfold addAssembly setAsm
  generalize hg : ({ h.append (h.asms a).subs b with
    asms := Function.update (h.append (h.asms a).subs b).asms b ({ (h.append (h.asms a).subs b).asms b with own := t }) } : Heap K) = g
  have hsubs : ∀ x, (g.asms x).subs = (h.asms x).subs := by
    intro x
    subst hg
    by_cases hx : x = b
    · subst hx; simp [append]
    · simp [append, hx]
  have hlists : g.lists = Function.update h.lists (h.asms a).subs (h.lists (h.asms a).subs ++ [b]) := by
    subst hg; rfl
  have mono : ∀ x y, h.Contains x y → g.Contains x y := by
    intro x y hxy
    unfold Contains subsOf at *
    rw [hsubs, hlists]
    by_cases hx : (h.asms x).subs = (h.asms a).subs
    · rw [hx, Function.update_self]
      rw [hx] at hxy
      simp [hxy]
    · rw [Function.update_of_ne hx]; exact hxy
  have hab : g.Contains a b := by
    unfold Contains subsOf
    rw [hsubs, hlists, Function.update_self]
    simp
  have c := chain_of_cycle (Relation.ReflTransGen.refl) (Relation.TransGen.tail' (Relation.ReflTransGen.mono mono _ _ hba) hab) n
  rw [transformAsm_none.2 c]
  rfl

/-! ### Lists -/

/-- C112, two assemblies made from the same list of objects: what is added to one is added to the other, and placed by the first. -/
theorem C112_same_list {n a b o : Nat} {t : Tf K} {h h' : Heap K} (hab : (h.asms a).objs = (h.asms b).objs)
    (hr : addObject n a o t h = some h') :
    h'.objsOf b = h.objsOf b ++ [o] ∧ ∀ s ∈ h'.surfsOf o, (h'.surfs s).temp = (h.asms a).own * (t * (h.surfs s).own) := by
  obtain ⟨a1, _, a3, a4⟩ := C112_add_object hr
  refine ⟨?_, a4⟩
  unfold objsOf at *
  rw [a3] at a1 ⊢
  rw [← hab]
  exact a1

/-- C112, the list returned by `get_objects()`: it holds the objects below the assembly, those of the sub-assemblies in their order first, then the local ones.  If the assembly has sub-assemblies, the list is new; if not, it is the list of the assembly
itself, and an object appended to it is in the assembly. -/
theorem C112_get_objects {n a : Nat} {h : Heap K} {r : Ref} (hr : getObjects n h a = some (.ok r)) :
    (∀ o, o ∈ h.contents r ↔ h.Below a o) ∧
    (∃ rs, List.Forall₂ (fun b q => getObjects (n - 1) h b = some (.ok q)) (h.subsOf a) rs ∧
      h.contents r = rs.flatMap h.contents ++ h.objsOf a) ∧
    (h.subsOf a ≠ [] → ∀ x, h.appendTo r x = h) ∧
    (h.subsOf a = [] → ∀ x, (h.appendTo r x).objsOf a = h.objsOf a ++ [x]) := by
  obtain ⟨q, rs, hq, h1, h2, h3, h4, h5⟩ := getObjects_some hr
  cases hq
  refine ⟨h2, ⟨rs, h5, h1⟩, fun hne x => ?_, fun he x => ?_⟩
  · obtain ⟨l, rfl⟩ := h4 hne
    rfl
  · rw [h3 he]
    simp [appendTo, append, objsOf]

/-- C112, the list returned by `get_surfaces()`: it holds the surfaces of the objects below the assembly, in the order of `get_objects()`; with no object there is a
`TypeError`; with one, it is the list of the object itself, and a surface appended to it is in the object; otherwise it is new. -/
theorem C112_get_surfaces {n a : Nat} {h : Heap K} {r : Ref} (hr : getObjects n h a = some (.ok r)) :
    (h.contents r = [] → getSurfaces n h a = some (.error .type)) ∧
    (h.contents r ≠ [] → ∃ q, getSurfaces n h a = some (.ok q) ∧ h.contents q = (h.contents r).flatMap h.surfsOf ∧
      (∀ o, h.contents r = [o] → ∀ x, (h.appendTo q x).surfsOf o = h.surfsOf o ++ [x]) ∧
      (1 < (h.contents r).length → ∀ x, h.appendTo q x = h)) := by
  unfold getSurfaces
  rw [hr]
  simp only [Option.map_some]
  refine ⟨fun he => by rw [he]; rfl, fun hne => ?_⟩
  rcases List.eq_nil_or_concat (h.contents r) with he | ⟨l, o, he⟩
  · exact absurd he hne
  · rw [List.concat_eq_append] at he
    rw [he, List.map_append]
    simp only [List.map_cons, List.map_nil]
    obtain ⟨q, e1, e2, e3, e4⟩ := reduceAdd_append h (l.map fun o => Ref.addr (h.objs o).surfs) (.addr (h.objs o).surfs)
    refine ⟨q, by rw [e1], ?_, ?_, ?_⟩
    · rw [e2, List.flatMap_map]
      simp only [List.flatMap_append, List.flatMap_cons, List.flatMap_nil, List.append_nil]
      rfl
    · intro o' ho' x
      have hl : l = [] ∧ o = o' := by
        cases l with
        | nil => simpa using ho'
        | cons y l => simp at ho'
      obtain ⟨rfl, rfl⟩ := hl
      have hq : q = .addr (h.objs o).surfs := by
        rcases e3 with e | e
        · exact e
        · exact absurd rfl e
      rw [hq]
      simp [appendTo, append, surfsOf]
    · intro hlen x
      have hl : l ≠ [] := by
        rintro rfl
        simp at hlen
      obtain ⟨l', rfl⟩ := e4 (by simpa using hl)
      rfl

/-! ### Cases -/

namespace Examples

/-- Assembly 0 at x = 10 and assembly 1 at x = 20, both empty; object 0 with surface 0; lists 0 to 4 are those of the assemblies and of the object. -/
def start : Heap ℚ :=
  { asms := fun a => if a = 0 then ⟨⟨1, ⟨10, 0, 0⟩⟩, 0, 1⟩ else ⟨⟨1, ⟨20, 0, 0⟩⟩, 2, 3⟩
    objs := fun _ => ⟨1, 4⟩
    surfs := fun _ => ⟨1, 1⟩
    lists := fun l => if l = 4 then [0] else [] }

/-- A shift along Y. -/
def shift (y : ℚ) : Tf ℚ := ⟨1, ⟨0, y, 0⟩⟩

end Examples

open Examples in
/-- The hypotheses of `C112_twice`, and with them those of `C112_frames`, `C112_add_object` and `C112_get_surfaces`, are met: the object is added to assembly 0 at y = 1 and again at
y = 2.  The surface is listed twice, and is at y = 2. -/
example : ∃ h1 h2 r, addObject 3 0 0 (shift 1) start = some h1 ∧ addObject 3 0 0 (shift 2) h1 = some h2 ∧
    getSurfaces 3 h2 0 = some (.ok r) ∧ h2.contents r = [0, 0] ∧ (h2.surfs 0).temp = ⟨1, ⟨10, 2, 0⟩⟩ := by
  refine ⟨_, _, _, rfl, rfl, rfl, rfl, ?_⟩
  decide +kernel

open Examples in
/-- The hypotheses of `C112_taken` are met: the object is added to assembly 0 at y = 1 and to assembly 1 at y = 2. -/
example : ∃ h0 h1 h2, addObject 3 0 0 (shift 1) start = some h0 ∧ (h0.asms 0).objs ≠ (h0.asms 1).objs ∧ addObject 3 1 0 (shift 2) h0 = some h1 ∧
    h0.objsOf 0 = [] ++ [0] ∧ setAsm 3 0 (shift 5) h1 = some h2 ∧ (h1.surfs 0).temp = ⟨1, ⟨20, 2, 0⟩⟩ ∧ (h2.surfs 0).temp = ⟨1, ⟨0, 7, 0⟩⟩ := by
  refine ⟨_, _, _, rfl, by decide +kernel, rfl, by decide +kernel, rfl, ?_, ?_⟩ <;> decide +kernel

open Examples in
/-- The hypotheses of `C112_unique_partial` are met after one `add_object`. -/
example : ∃ h0 h1 : Heap ℚ, addObject 3 0 0 (shift 1) start = some h0 ∧ setAsm 3 0 (shift 5) h0 = some h1 ∧
    (h1.surfs 0).temp = shift 5 * (shift 1 * 1) := by
  refine ⟨_, _, rfl, rfl, ?_⟩
  apply C112_unique_partial (n := 3) (a := 0) (t := shift 5) (h := (addObject 3 0 0 (shift 1) start).get rfl) rfl
  · exact At.here (o := 0) (by decide +kernel) (by decide +kernel)
  · intro G hG
    cases hG with
    | @here _ o _ ho hs =>
      have : o = 0 := by
        have h0 : ∀ x ∈ ([0] : List ℕ), x = 0 := by simp
        exact h0 o ho
      subst this
      rfl
    | @sub _ b _ F hb _ => exact absurd hb (by rintro ⟨⟩)

open Examples in
/-- The hypotheses of `C112_no_cycle` are met: assembly 1 is put into assembly 0, and then assembly 0 into assembly 1. -/
example : ∃ h1 : Heap ℚ, addAssembly 3 0 1 (shift 1) start = some h1 ∧ ∀ n, addAssembly n 1 0 (shift 1) h1 = none := by
  refine ⟨_, rfl, fun n => C112_no_cycle (.single ?_) n _⟩
  show 1 ∈ _
  decide +kernel

open Examples in
/-- The hypotheses of `C112_calls` and `C112_add_assembly` are met: an object at y = 1 in assembly 1, which is put into assembly 0 at y = 2. -/
example : ∃ h1 h2 : Heap ℚ, addObject 3 1 0 (shift 1) start = some h1 ∧ addAssembly 3 0 1 (shift 2) h1 = some h2 ∧
    (h2.surfs 0).temp = ⟨1, ⟨10, 3, 0⟩⟩ ∧ getObjects 3 h2 0 = some (.ok (.fresh [0])) := by
  refine ⟨_, _, rfl, rfl, ?_, ?_⟩ <;> decide +kernel

open Examples in
/-- The hypotheses of `C112_cycle` are met by an assembly whose list of assemblies holds the assembly itself. -/
example : (start.append 0 0).Contains 0 0 ∧ getObjects 1000 (start.append 0 0) 0 = none := by
  have h1 : (start.append 0 0).Contains 0 0 := by
    show 0 ∈ _
    decide +kernel
  exact ⟨h1, (C112_cycle .refl (.single h1) 1000 1).2.1⟩

open Examples in
/-- The hypotheses of `C112_same_list` are met by two assemblies with list 1. -/
example : ∃ h' : Heap ℚ, addObject 3 0 0 (shift 1) { start with asms := fun a => { start.asms a with objs := 1 } } = some h' ∧ h'.objsOf 1 = [0] := by
  refine ⟨_, rfl, ?_⟩
  exact (C112_same_list (n := 3) (a := 0) (b := 1) (o := 0) (t := shift 1) (h := { start with asms := fun a => { start.asms a with objs := 1 } })
    rfl rfl).1

end Tracer.Graph
