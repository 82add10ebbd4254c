import Verif.Spec.Graph
import Verif.Lemmas.Vec

/-! Lemmas for components in several places. -/

namespace Tracer.Graph.Heap

variable {K : Type _}

theorem Same.refl (h : Heap K) : Same h h := ⟨rfl, rfl, rfl, fun _ => rfl⟩

theorem Same.trans {h h1 h2 : Heap K} (a : Same h h1) (b : Same h1 h2) : Same h h2 :=
  ⟨b.asms.trans a.asms, b.objs.trans a.objs, b.lists.trans a.lists, fun s => (b.own s).trans (a.own s)⟩

theorem Same.symm {h h1 : Heap K} (a : Same h h1) : Same h1 h := ⟨a.asms.symm, a.objs.symm, a.lists.symm, fun s => (a.own s).symm⟩

theorem Same.subsOf {h h1 : Heap K} (e : Same h h1) (a : Nat) : h1.subsOf a = h.subsOf a := by
  unfold Heap.subsOf; rw [e.lists, e.asms]
theorem Same.objsOf {h h1 : Heap K} (e : Same h h1) (a : Nat) : h1.objsOf a = h.objsOf a := by
  unfold Heap.objsOf; rw [e.lists, e.asms]
theorem Same.surfsOf {h h1 : Heap K} (e : Same h h1) (a : Nat) : h1.surfsOf a = h.surfsOf a := by
  unfold Heap.surfsOf; rw [e.lists, e.objs]

theorem Same.chain {h h1 : Heap K} (e : Same h h1) {n a : Nat} (c : Chain h n a) : Chain h1 n a := by
  induction c with
  | zero a => exact .zero a
  | succ hb _ ih => exact .succ (by rw [e.subsOf]; exact hb) ih

theorem Same.contents {h h1 : Heap K} (e : Same h h1) (r : Ref) : h1.contents r = h.contents r := by
  cases r with
  | addr l => exact congrFun e.lists l
  | fresh l => rfl

variable [Field K]

theorem Same.at {h h1 : Heap K} (e : Same h h1) {a s : Nat} {F : Tf K} (c : At h a s F) : At h1 a s F := by
  induction c with
  | @here a o s ho hs =>
    rw [← e.asms, ← e.objs, ← e.own s]
    exact .here (by rw [e.objsOf]; exact ho) (by rw [e.surfsOf]; exact hs)
  | @sub a b s F hb _ ih =>
    rw [← e.asms]
    exact .sub (by rw [e.subsOf]; exact hb) ih

/-- The frames of the surfaces for which `R` gives frames are set to one of these; all else is as before. -/
def Eff (R : Nat → Tf K → Prop) (h h' : Heap K) : Prop :=
  Same h h' ∧ ∀ s, (∃ F, R s F ∧ (h'.surfs s).temp = F) ∨ ((∀ F, ¬ R s F) ∧ (h'.surfs s).temp = (h.surfs s).temp)

theorem Eff.trans {R R' : Nat → Tf K → Prop} {h h1 h2 : Heap K} (a : Eff R h h1) (b : Eff R' h1 h2) :
    Eff (fun s F => R s F ∨ R' s F) h h2 := by
  refine ⟨a.1.trans b.1, fun s => ?_⟩
  rcases b.2 s with ⟨F, hF, e⟩ | ⟨hn, e⟩
  · exact .inl ⟨F, .inr hF, e⟩
  · rcases a.2 s with ⟨F, hF, e'⟩ | ⟨hn', e'⟩
    · exact .inl ⟨F, .inl hF, e.trans e'⟩
    · exact .inr ⟨fun F hc => hc.elim (hn' F) (hn F), e.trans e'⟩

theorem Eff.congr {R R' : Nat → Tf K → Prop} {h h1 : Heap K} (a : Eff R h h1) (hr : ∀ s F, R s F ↔ R' s F) : Eff R' h h1 := by
  refine ⟨a.1, fun s => ?_⟩
  rcases a.2 s with ⟨F, hF, e⟩ | ⟨hn, e⟩
  · exact .inl ⟨F, (hr s F).1 hF, e⟩
  · exact .inr ⟨fun F hc => hn F ((hr s F).2 hc), e⟩

theorem Eff.nil (h : Heap K) : Eff (fun _ _ => False) h h := ⟨.refl h, fun _ => .inr ⟨fun _ hc => hc, rfl⟩⟩

theorem Eff.foldl {R : Nat → Nat → Tf K → Prop} {f : Heap K → Nat → Heap K} {l : List Nat} {h h1 : Heap K} (e : Same h h1)
    (hf : ∀ x ∈ l, ∀ h1, Same h h1 → Eff (R x) h1 (f h1 x)) : Eff (fun s F => ∃ x ∈ l, R x s F) h1 (l.foldl f h1) := by
  induction l generalizing h1 with
  | nil => exact (Eff.nil h1).congr (by simp)
  | cons x l ih =>
    have h2 := hf x (by simp) h1 e
    have h3 := ih (h1 := f h1 x) (e.trans h2.1) (fun y hy => hf y (by simp [hy]))
    exact (h2.trans h3).congr (by simp)

theorem Eff.foldlM {R : Nat → Nat → Tf K → Prop} {f : Heap K → Nat → Option (Heap K)} {l : List Nat} {h h1 h' : Heap K} (e : Same h h1)
    (hf : ∀ x ∈ l, ∀ h1 h2, Same h h1 → f h1 x = some h2 → Eff (R x) h1 h2) (hr : l.foldlM f h1 = some h') :
    Eff (fun s F => ∃ x ∈ l, R x s F) h1 h' := by
  induction l generalizing h1 with
  | nil =>
    simp only [List.foldlM_nil] at hr
    obtain rfl : h1 = h' := Option.some.inj hr
    exact (Eff.nil h1).congr (by simp)
  | cons x l ih =>
    simp only [List.foldlM_cons] at hr
    rcases hx : f h1 x with _ | h2
    · rw [hx] at hr; cases hr
    · rw [hx] at hr
      have h3 := hf x (by simp) h1 h2 e hx
      have h4 := ih (h1 := h2) (e.trans h3.1) (fun y hy => hf y (by simp [hy])) hr
      exact (h3.trans h4).congr (by simp)

theorem transformFrame_eff (T : Tf K) (x : Nat) (h : Heap K) :
    Eff (fun s F => s = x ∧ F = T * (h.surfs s).own) h (h.transformFrame T x) := by
  refine ⟨⟨rfl, rfl, rfl, fun s => ?_⟩, fun s => ?_⟩
  · unfold transformFrame
    by_cases hs : s = x
    · subst hs; simp
    · simp [hs]
  · unfold transformFrame
    by_cases hs : s = x
    · subst hs; exact .inl ⟨_, ⟨rfl, rfl⟩, by simp⟩
    · exact .inr ⟨fun F hc => hs hc.1, by simp [hs]⟩

theorem transformObj_eff (T : Tf K) (o : Nat) (h : Heap K) :
    Eff (fun s F => s ∈ h.surfsOf o ∧ F = T * ((h.objs o).own * (h.surfs s).own)) h (h.transformObj T o) := by
  unfold transformObj
  refine (Eff.foldl (R := fun x s F => s = x ∧ F = T * (h.objs o).own * (h.surfs s).own) (Same.refl h) ?_).congr ?_
  · intro x _ h1 e
    refine (transformFrame_eff (T * (h.objs o).own) x h1).congr ?_
    intro s F
    rw [e.own]
  · intro s F
    simp [Tf.mul_assoc']

theorem transformObj_temp (T : Tf K) {o s : Nat} (h : Heap K) (hs : s ∈ h.surfsOf o) :
    ((h.transformObj T o).surfs s).temp = T * ((h.objs o).own * (h.surfs s).own) := by
  rcases (transformObj_eff T o h).2 s with ⟨F, hF, e⟩ | ⟨hn, _⟩
  · rw [e, hF.2]
  · exact absurd ⟨hs, rfl⟩ (hn _)

theorem at_iff {h : Heap K} {a s : Nat} {F : Tf K} : At h a s F ↔
    (∃ b ∈ h.subsOf a, ∃ G, At h b s G ∧ F = (h.asms a).own * G) ∨
    (∃ o ∈ h.objsOf a, s ∈ h.surfsOf o ∧ F = (h.asms a).own * ((h.objs o).own * (h.surfs s).own)) := by
  constructor
  · intro c
    cases c with
    | @here _ o _ ho hs => exact .inr ⟨o, ho, hs, rfl⟩
    | @sub _ b _ G hb hG => exact .inl ⟨b, hb, G, hG, rfl⟩
  · rintro (⟨b, hb, G, hG, rfl⟩ | ⟨o, ho, hs, rfl⟩)
    · exact .sub hb hG
    · exact .here ho hs

theorem objLoop_eff (T : Tf K) (l : List Nat) {h h1 : Heap K} (e : Same h h1) :
    Eff (fun s F => ∃ o ∈ l, s ∈ h.surfsOf o ∧ F = T * ((h.objs o).own * (h.surfs s).own)) h1
      (l.foldl (fun h' o => h'.transformObj T o) h1) := by
  refine Eff.foldl e ?_
  intro o _ h1 e
  refine (transformObj_eff T o h1).congr ?_
  intro s F
  rw [e.surfsOf, e.objs, e.own]

theorem transformAsm_eff {n : Nat} {T : Tf K} {a : Nat} {h h' : Heap K} (hr : transformAsm n T a h = some h') :
    Eff (fun s F => ∃ G, At h a s G ∧ F = T * G) h h' := by
  induction n generalizing T a h h' with
  | zero => cases hr
  | succ n ih =>
    unfold transformAsm at hr
    rcases hs : (h.subsOf a).foldlM (fun h' b => transformAsm n (T * (h.asms a).own) b h') h with _ | h1
    · rw [hs] at hr; cases hr
    · rw [hs] at hr
      simp only [Option.map_some, Option.some.injEq] at hr
      subst hr
      have e1 := Eff.foldlM (R := fun b s F => ∃ G, At h b s G ∧ F = T * (h.asms a).own * G) (Same.refl h) (by
        intro b _ h1 h2 e hb
        refine (ih hb).congr ?_
        intro s F
        exact ⟨fun ⟨G, hG, hF⟩ => ⟨G, e.symm.at hG, hF⟩, fun ⟨G, hG, hF⟩ => ⟨G, e.at hG, hF⟩⟩) hs
      refine (e1.trans (objLoop_eff (T * (h.asms a).own) (h.objsOf a) e1.1)).congr ?_
      intro s F
      simp only [at_iff (a := a)]
      constructor
      · rintro (⟨b, hb, G, hG, rfl⟩ | ⟨o, ho, hs, rfl⟩)
        · exact ⟨_, .inl ⟨b, hb, G, hG, rfl⟩, Tf.mul_assoc' _ _ _⟩
        · exact ⟨_, .inr ⟨o, ho, hs, rfl⟩, Tf.mul_assoc' _ _ _⟩
      · rintro ⟨_, ⟨b, hb, G, hG, rfl⟩ | ⟨o, ho, hs, rfl⟩, rfl⟩
        · exact .inl ⟨b, hb, G, hG, (Tf.mul_assoc' _ _ _).symm⟩
        · exact .inr ⟨o, ho, hs, (Tf.mul_assoc' _ _ _).symm⟩

/-- The last of the local objects is placed last. -/
theorem transformAsm_last {n : Nat} {T : Tf K} {a : Nat} {h h' : Heap K} (hr : transformAsm n T a h = some h') {l : List Nat} {o s : Nat}
    (hl : h.objsOf a = l ++ [o]) (hs : s ∈ h.surfsOf o) :
    (h'.surfs s).temp = T * ((h.asms a).own * ((h.objs o).own * (h.surfs s).own)) := by
  cases n with
  | zero => cases hr
  | succ n =>
    unfold transformAsm at hr
    rcases hb : (h.subsOf a).foldlM (fun h' b => transformAsm n (T * (h.asms a).own) b h') h with _ | h1
    · rw [hb] at hr; cases hr
    · rw [hb] at hr
      simp only [Option.map_some, Option.some.injEq] at hr
      subst hr
      have e1 := Eff.foldlM (R := fun b s F => ∃ G, At h b s G ∧ F = T * (h.asms a).own * G) (Same.refl h) (by
        intro b _ h1 h2 e hb
        refine (transformAsm_eff hb).congr ?_
        intro s F
        exact ⟨fun ⟨G, hG, hF⟩ => ⟨G, e.symm.at hG, hF⟩, fun ⟨G, hG, hF⟩ => ⟨G, e.at hG, hF⟩⟩) hb
      rw [hl, List.foldl_append]
      simp only [List.foldl_cons, List.foldl_nil]
      have e2 := e1.1.trans (objLoop_eff (T * (h.asms a).own) l e1.1).1
      rw [transformObj_temp _ _ (by rw [e2.surfsOf]; exact hs), e2.objs, e2.own, Tf.mul_assoc']

theorem transformAsm_none {n : Nat} {T : Tf K} {a : Nat} {h : Heap K} : transformAsm n T a h = none ↔ Chain h n a := by
  induction n generalizing T a h with
  | zero => exact ⟨fun _ => .zero a, fun _ => rfl⟩
  | succ n ih =>
    have key : ∀ (l : List Nat) (h1 : Heap K), Same h h1 →
        (l.foldlM (fun h' b => transformAsm n (T * (h.asms a).own) b h') h1 = none ↔ ∃ b ∈ l, Chain h n b) := by
      intro l
      induction l with
      | nil => intro h1 _; simp
      | cons b l ihl =>
        intro h1 e
        simp only [List.foldlM_cons]
        rcases hb : transformAsm n (T * (h.asms a).own) b h1 with _ | h2
        · simp only [Option.bind_eq_bind, Option.bind_none, true_iff]
          exact ⟨b, by simp, e.symm.chain (ih.1 hb)⟩
        · simp only [Option.bind_eq_bind, Option.bind_some]
          rw [ihl h2 (e.trans (transformAsm_eff hb).1)]
          have hn : ¬ Chain h n b := fun c => by
            have := (ih (T := T * (h.asms a).own)).2 (e.chain c)
            rw [hb] at this
            cases this
          simp [hn]
    unfold transformAsm
    rw [Option.map_eq_none_iff, key _ h (Same.refl h)]
    constructor
    · rintro ⟨b, hb, c⟩; exact .succ hb c
    · intro c
      cases c with
      | succ hb c => exact ⟨_, hb, c⟩

omit [Field K] in
theorem chain_of_cycle {h : Heap K} {a b : Nat} (hab : Relation.ReflTransGen h.Contains a b) (hc : Relation.TransGen h.Contains b b) (n : Nat) :
    Chain h n a := by
  induction n generalizing a with
  | zero => exact .zero a
  | succ n ih =>
    rcases Relation.ReflTransGen.cases_head hab with rfl | ⟨c, hac, hcb⟩
    · obtain ⟨c, hac, hcb⟩ := Relation.TransGen.head'_iff.1 hc
      exact .succ hac (ih hcb)
    · exact .succ hac (ih hcb)

omit [Field K] in
theorem mapM_none {α β : Type _} {f : α → Option β} {l : List α} : l.mapM f = none ↔ ∃ x ∈ l, f x = none := by
  induction l with
  | nil => simp
  | cons x l ih =>
    rw [List.mapM_cons]
    rcases hx : f x with _ | y
    · simp [hx]
    · simp only [Option.bind_eq_bind, Option.bind_some, List.mem_cons, exists_eq_or_imp, hx, reduceCtorEq, false_or]
      rw [← ih]
      cases l.mapM f <;> simp

omit [Field K] in
theorem getObjects_none {n : Nat} {h : Heap K} {a : Nat} : getObjects n h a = none ↔ Chain h n a := by
  induction n generalizing a with
  | zero => exact ⟨fun _ => .zero a, fun _ => rfl⟩
  | succ n ih =>
    unfold getObjects
    rw [Option.map_eq_none_iff, mapM_none]
    constructor
    · rintro ⟨b, hb, c⟩; exact .succ hb (ih.1 c)
    · intro c
      cases c with
      | succ hb c => exact ⟨_, hb, ih.2 c⟩

omit [Field K] in
theorem reduceAdd_append (h : Heap K) (rs : List Ref) (r : Ref) :
    ∃ q, h.reduceAdd (rs ++ [r]) = .ok q ∧ h.contents q = rs.flatMap h.contents ++ h.contents r ∧
      (q = r ∨ rs ≠ []) ∧ (rs ≠ [] → ∃ l, q = .fresh l) := by
  cases rs with
  | nil => exact ⟨r, rfl, by simp, .inl rfl, by simp⟩
  | cons x rs =>
    refine ⟨.fresh (h.contents x ++ (rs ++ [r]).flatMap h.contents), ?_, ?_, .inr (by simp), fun _ => ⟨_, rfl⟩⟩
    · cases rs <;> rfl
    · simp [contents]

omit [Field K] in
theorem mapM_ok {l : List (Except Err Ref)} (hl : ∀ x ∈ l, ∃ r, x = .ok r) : ∃ rs, l.mapM id = .ok rs ∧ l = rs.map .ok := by
  induction l with
  | nil => exact ⟨[], rfl, rfl⟩
  | cons x l ih =>
    obtain ⟨r, rfl⟩ := hl x (by simp)
    obtain ⟨rs, h1, h2⟩ := ih (fun y hy => hl y (by simp [hy]))
    refine ⟨r :: rs, ?_, by simp [h2]⟩
    rw [List.mapM_cons, h1]
    rfl

omit [Field K] in
theorem mapM_some {α β : Type _} {f : α → Option β} {l : List α} {ys : List β} (h : l.mapM f = some ys) :
    List.Forall₂ (fun x y => f x = some y) l ys := by
  induction l generalizing ys with
  | nil => simp at h; subst h; exact .nil
  | cons x l ih =>
    rw [List.mapM_cons] at h
    rcases hx : f x with _ | y
    · rw [hx] at h; cases h
    · rw [hx] at h
      rcases hl : l.mapM f with _ | zs
      · rw [hl] at h; cases h
      · rw [hl] at h
        cases h
        exact .cons hx (ih hl)

omit [Field K] in
/-- What `get_objects()` returns. -/
theorem getObjects_some {n : Nat} {h : Heap K} {a : Nat} {r : Except Err Ref} (hr : getObjects n h a = some r) :
    ∃ q rs, r = .ok q ∧ h.contents q = rs.flatMap h.contents ++ h.objsOf a ∧ (∀ o, o ∈ h.contents q ↔ Below h a o) ∧
      (h.subsOf a = [] → q = .addr (h.asms a).objs) ∧ (h.subsOf a ≠ [] → ∃ l, q = .fresh l) ∧
      List.Forall₂ (fun b q => getObjects (n - 1) h b = some (.ok q)) (h.subsOf a) rs := by
  induction n generalizing a r with
  | zero => cases hr
  | succ n ih =>
    unfold getObjects at hr
    rcases hm : (h.subsOf a).mapM (fun b => getObjects n h b) with _ | xs
    · rw [hm] at hr; cases hr
    · rw [hm] at hr
      simp only [Option.map_some, Option.some.injEq] at hr
      have hf := mapM_some hm
      obtain ⟨rs, h1, h2⟩ := mapM_ok (l := xs) (by
        intro x hx
        obtain ⟨i, hi⟩ := List.mem_iff_getElem?.1 hx
        have hlt : i < (h.subsOf a).length := by rw [hf.length_eq]; exact (List.getElem?_eq_some_iff.1 hi).1
        have := hf.get hlt (by rw [← hf.length_eq]; exact hlt)
        obtain ⟨q, _, hq, _⟩ := ih this
        rw [List.getElem?_eq_some_iff] at hi
        obtain ⟨_, hi⟩ := hi
        refine ⟨q, ?_⟩
        rw [← hi]
        simpa using hq)
      rw [h1] at hr
      simp only at hr
      obtain ⟨q, e1, e2, e3, e4⟩ := reduceAdd_append h rs (.addr (h.asms a).objs)
      rw [e1] at hr
      have hlen : rs = [] ↔ h.subsOf a = [] := by
        rw [← List.length_eq_zero_iff, ← List.length_eq_zero_iff, hf.length_eq, h2, List.length_map]
      refine ⟨q, rs, hr.symm, e2, ?_, ?_, ?_, ?_⟩
      · intro o
        rw [e2, List.mem_append]
        have hfo : ∀ (bs : List Nat) (ys : List (Except Err Ref)) (rs : List Ref),
            List.Forall₂ (fun b y => getObjects n h b = some y) bs ys → ys = rs.map .ok →
            (o ∈ rs.flatMap h.contents ↔ ∃ b ∈ bs, Below h b o) := by
          intro bs ys rs hf
          induction hf generalizing rs with
          | nil => intro e; cases rs with
            | nil => simp
            | cons _ _ => cases e
          | @cons b y bs ys hb _ ihf =>
            intro e
            cases rs with
            | nil => cases e
            | cons r rs =>
              simp only [List.map_cons, List.cons.injEq] at e
              obtain ⟨q, _, hq, _, hmem, _⟩ := ih hb
              rw [e.1] at hq
              cases hq
              simp only [List.flatMap_cons, List.mem_append, List.mem_cons, exists_eq_or_imp]
              rw [hmem, ihf rs e.2]
        rw [hfo _ _ _ hf h2]
        constructor
        · rintro (⟨b, hb, hB⟩ | ho)
          · exact .sub hb hB
          · exact .here ho
        · intro hB
          cases hB with
          | here ho => exact .inr ho
          | sub hb hB => exact .inl ⟨_, hb, hB⟩
      · intro he
        rcases e3 with e | e
        · exact e
        · exact absurd (hlen.2 he) e
      · intro he
        exact e4 (fun e => he (hlen.1 e))
      · rw [h2, List.forall₂_map_right_iff] at hf
        exact hf

end Tracer.Graph.Heap
