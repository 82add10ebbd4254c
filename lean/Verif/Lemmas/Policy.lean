import Verif.Lemmas.Level

/-! Ownership and relevancy of the rays handed to the next iteration. -/

set_option linter.unusedSectionVars false
set_option linter.unusedSimpArgs false

namespace Tracer

variable {K E σ : Type _}

theorem flatMap_index {α β : Type _} {cs : List α} {f : α → List β} {j : Nat} {x : β}
    (h : (cs.flatMap f)[j]? = some x) :
    ∃ c ∈ cs, ∃ i : Nat, (f c)[i]? = some x ∧ ∀ {γ : Type _} (g : α → List γ),
      (∀ c ∈ cs, (g c).length = (f c).length) → (cs.flatMap g)[j]? = (g c)[i]? := by
  induction cs generalizing j with
  | nil => simp at h
  | cons c cs ih =>
    rw [List.flatMap_cons] at h
    rcases Nat.lt_or_ge j (f c).length with hlt | hge
    · rw [List.getElem?_append_left hlt] at h
      refine ⟨c, by simp, j, h, ?_⟩
      intro γ g hg
      rw [List.flatMap_cons, List.getElem?_append_left (by rw [hg c (by simp)]; exact hlt)]
    · rw [List.getElem?_append_right hge] at h
      obtain ⟨c', hc', i, hi, hg⟩ := ih h
      refine ⟨c', List.mem_cons_of_mem _ hc', i, hi, ?_⟩
      intro γ g hgl
      have hl := hgl c (by simp)
      rw [List.flatMap_cons, List.getElem?_append_right (by omega), hl]
      exact hg g (fun c hc => hgl c (List.mem_cons_of_mem _ hc))

/-- The positions of object `o` in `surf_ownership` are consecutive, from `surfs_until_obj[o]`. -/
theorem nonzero_ownership {objs : List (Obj σ K E)} {o : Nat} {obj : Obj σ K E} {before : Nat}
    (ho : objs[o]? = some obj) (hb : (surfsUntilObj objs)[o]? = some before) (i : Nat)
    (hi : i < obj.surfs.length) :
    (Np.nonzero ((surfOwnership objs).map (· == o)))[i]? = some (before + i) := by
  have key : ∀ (reps : List Nat) (a c o i : Nat) (n : Nat), reps[o]? = some n → i < n →
      (Np.nonzero ((Np.repeatArange a reps).map (· == a + o)))[i]? = some ((reps.take o).sum + i) := by
    intro reps
    induction reps with
    | nil => intro a c o i n h; simp at h
    | cons r reps ih =>
      intro a c o i n h hi
      have nz_append : ∀ (m1 m2 : List Bool), Np.nonzero (m1 ++ m2) =
          Np.nonzero m1 ++ (Np.nonzero m2).map (· + m1.length) := by
        intro m1 m2
        induction m1 with
        | nil => simp
        | cons b m1 ih1 =>
          cases b <;> simp [ih1, List.map_map, Function.comp_def, Nat.add_assoc]
      rw [Np.repeatArange, List.map_append, nz_append]
      cases o with
      | zero =>
        simp at h
        subst h
        have hall : (List.replicate r a).map (· == a + 0) = List.replicate r true := by simp
        have hnz : ∀ r, Np.nonzero (List.replicate r true) = List.range r := by
          intro r
          induction r with
          | zero => rfl
          | succ r ihr =>
            rw [List.replicate_succ, Np.nonzero_true, ihr, List.range_succ_eq_map]
        rw [hall, hnz, List.getElem?_append_left (by simpa using hi)]
        simp [hi]
      | succ o =>
        simp at h
        have hall : (List.replicate r a).map (· == a + (o + 1)) = List.replicate r false := by
          simp
        have hnz : ∀ r, Np.nonzero (List.replicate r false) = [] := by
          intro r
          induction r with
          | zero => rfl
          | succ r ihr => rw [List.replicate_succ, Np.nonzero_false, ihr]; rfl
        rw [hall, hnz, List.nil_append]
        have := ih (a + 1) c o i n h hi
        rw [show a + 1 + o = a + (o + 1) by omega] at this
        simp [this]
        try omega
  have hb' : before = ((surfsPerObj objs).take o).sum := by
    have hol : o < objs.length := (List.getElem?_eq_some_iff.1 ho).1
    have := accumulate_spec (surfsPerObj objs) 0 o (by simp [surfsPerObj]; omega)
    rw [surfsUntilObj, this] at hb
    simpa using hb.symm
  have := key (surfsPerObj objs) 0 0 o i obj.surfs.length (by simp [surfsPerObj, ho]) hi
  rw [Nat.zero_add] at this
  rw [surfOwnership, hb']
  exact this

section
variable [Field K] [LinearOrder K] [IsStrictOrderedRing K]

/-- Which surfaces will be asked about ray number `i` of one contribution, at position `j` of the next bundle. -/
theorem contrib_tested {objs : List (Obj σ K E)} (hobj : ∀ o ∈ objs, o.ShapeOk)
    {minE : K} {b : Bundle K E} {w1 w2 : σ} {k : Nat} {s : Surf σ K E} {f ow : List Bool} {c : Contribution K E}
    (hcf : ContribFacts objs minE b w1 k s f ow c w2)
    {o : Nat} {obj : Obj σ K E} {before : Nat} (p1 : (surfOwnership objs)[k]? = some o) (p2 : objs[o]? = some obj)
    (p3 : (surfsUntilObj objs)[o]? = some before)
    {rayOwn : List (Option Nat)} {relev : List (List Bool)} {i j k' o' : Nat} (hil : i < c.outg.length)
    (hown : rayOwn[j]? = c.own[i]?) {row' : List Bool} (hrow : relev[k']? = some row')
    (hrow2 : row'[j]? = ((c.relev[k']?).getD [])[i]?) (hk' : (surfOwnership objs)[k']? = some o') :
    Tested (surfOwnership objs) rayOwn relev k' j ↔
      ((obj.own c.outg (k - before))[i]? = some true → o' = o) ∧
      (o' = o → Marked (obj.next c.outg (k - before)) (k' - before) i) := by
  obtain ⟨o1, obj1, before1, q1, q2, q3, p4, p5⟩ := hcf.policy
  rw [p1] at q1; cases q1
  rw [p2] at q2; cases q2
  rw [p3] at q3; cases q3
  have hok := hobj obj (List.mem_of_getElem? p2)
  -- the row of the contribution
  have hcrow : ((c.relev[k']?).getD [])[i]? = some true ↔
      (o' = o → Marked (obj.next c.outg (k - before)) (k' - before) i) := by
    have hml : ((surfOwnership objs).map (· == o)).length =
        (List.replicate (surfOwnership objs).length (List.replicate c.outg.length true)).length := by simp
    by_cases hoo : o' = o
    · subst hoo
      obtain ⟨obj', before', e1, e2, e3, e4, _⟩ := numbering hk'
      rw [p2] at e1; cases e1
      rw [p3] at e2; cases e2
      have hnz := nonzero_ownership p2 p3 (k' - before) e4
      rw [show before + (k' - before) = k' by omega] at hnz
      rw [p5, Np.scatter_getElem?_true hml hnz (by rw [(hok.2 _ _).1]; exact e4)]
      unfold Marked
      have hnl : k' - before < (obj.next c.outg (k - before)).length := by
        rw [(hok.2 _ _).1]; exact e4
      rw [List.getElem?_eq_getElem hnl]
      simp
    · have hfalse : ((surfOwnership objs).map (· == o))[k']? = some false := by
        simp [hk', hoo]
      rw [p5, Np.scatter_getElem?_false hfalse]
      have : k' < (surfOwnership objs).length := (List.getElem?_eq_some_iff.1 hk').1
      simp [List.getElem?_replicate, this, hil, hoo]
  have hcown : c.own[i]? = some (if (obj.own c.outg (k - before))[i]? = some true then some o else none) := by
    have hol : i < (obj.own c.outg (k - before)).length := by rw [hok.1]; exact hil
    rw [p4, List.getElem?_map, List.getElem?_eq_getElem hol]
    simp
  unfold Tested
  rw [hown, hcown, hrow, hk']
  constructor
  · rintro ⟨so, ro, row, e1, e2, e3, e4, e5⟩
    simp only [Option.some.injEq] at e1 e2 e4
    subst e1 e2 e4
    rw [hrow2, hcrow] at e5
    refine ⟨?_, e5⟩
    intro hcl
    rw [if_pos hcl] at e3
    rcases e3 with e3 | e3
    · simp at e3
    · exact (Option.some.inj e3).symm
  · rintro ⟨e1, e2⟩
    refine ⟨o', _, _, rfl, rfl, ?_, rfl, ?_⟩
    · by_cases hcl : (obj.own c.outg (k - before))[i]? = some true
      · right
        rw [if_pos hcl, e1 hcl]
      · left
        rw [if_neg hcl]
    · rw [hrow2, hcrow]
      exact e2

/-- Where ray number `j` of the next iteration comes from and which surfaces will be asked about
it. -/
theorem next_policy {objs : List (Obj σ K E)} (hobj : ∀ o ∈ objs, o.ShapeOk)
    {minE : K} {st st' : TraceState σ K E} {gen rec : Bundle K E} (hs : st.Shape objs)
    (h : iterate objs (objs.flatMap Obj.surfs) minE st = .ok (st', gen, rec))
    {j : Nat} {r : Ray K E} (hr : st'.bund[j]? = some r) :
    ∃ (k : Nat) (s : Surf σ K E) (o : Nat) (obj : Obj σ K E) (before : Nat) (out : Bundle K E) (i : Nat),
      (objs.flatMap Obj.surfs)[k]? = some s ∧ (surfOwnership objs)[k]? = some o ∧
      objs[o]? = some obj ∧ (surfsUntilObj objs)[o]? = some before ∧ out[i]? = some r ∧
      (∃ w1 w2 rays sel raw, s.outgoing w1 rays sel = .ok (raw, w2) ∧
        ∀ q ∈ out, q ∈ gen ∧ ∃ q0 ∈ raw, q = { q0 with parent := q.parent }) ∧
      ∀ (k' o' : Nat), (surfOwnership objs)[k']? = some o' →
        (Tested (surfOwnership objs) st'.rayOwn st'.relev k' j ↔
          ((obj.own out (k - before))[i]? = some true → o' = o) ∧
          (o' = o → Marked (obj.next out (k - before)) (k' - before) i)) := by
  obtain ⟨⟨front, owned, cs, hint, _, hgen, hb, ho, hrel, hf⟩, _, _⟩ := iterate_ok hs h
  rw [hb] at hr
  obtain ⟨c, hc, i, hi, hidx⟩ := flatMap_index hr
  obtain ⟨k, s, f, ow, w1, w2, h1, h2, h3, h4, hcf⟩ := hf c hc
  obtain ⟨o, obj, before, p1, p2, p3, p4, p5⟩ := hcf.policy
  have hsh : ∀ c ∈ cs, c.own.length = c.outg.length ∧ c.relev.length = (objs.flatMap Obj.surfs).length ∧
      ∀ row ∈ c.relev, row.length = c.outg.length := by
    intro c hc
    obtain ⟨_, _, _, _, _, _, _, _, _, _, hcf⟩ := hf c hc
    exact contrib_shape hobj hcf
  have hok := hobj obj (List.mem_of_getElem? p2)
  have hil : i < c.outg.length := (List.getElem?_eq_some_iff.1 hi).1
  refine ⟨k, s, o, obj, before, c.outg, i, h1, p1, p2, p3, hi, ?_, ?_⟩
  · obtain ⟨raw, hraw, hfix⟩ := hcf.raw
    refine ⟨w1, w2, _, _, raw, hraw, ?_⟩
    intro q hq
    rw [hcf.outg] at hq
    have hq' := (List.mem_filter.1 hq).1
    refine ⟨by rw [hgen]; exact List.mem_flatMap.2 ⟨c, hc, hq'⟩, ?_⟩
    obtain ⟨q0, hq0, _, hqe⟩ := fixParents_mem hfix hq'
    exact ⟨q0, hq0, hqe⟩
  · intro k' o' hk'
    have hown : st'.rayOwn[j]? = c.own[i]? := by
      rw [ho]; exact hidx Contribution.own (fun c hc => (hsh c hc).1)
    have hkl : k' < (objs.flatMap Obj.surfs).length := by
      have := (List.getElem?_eq_some_iff.1 hk').1
      rwa [surfOwnership_length] at this
    have hrow : st'.relev[k']? = some (cs.flatMap fun c => (c.relev[k']?).getD []) := by
      rw [hrel, hstackRows_getElem? (by
        intro bl hbl
        obtain ⟨c, hc, rfl⟩ := List.mem_map.1 hbl
        exact (hsh c hc).2.1) hkl, List.flatMap_map]
    have hrow2 : (cs.flatMap fun c => (c.relev[k']?).getD [])[j]? = ((c.relev[k']?).getD [])[i]? := by
      refine hidx (fun c => (c.relev[k']?).getD []) ?_
      intro c hc
      have hkc : k' < c.relev.length := by rw [(hsh c hc).2.1]; exact hkl
      rw [List.getElem?_eq_getElem hkc]
      exact (hsh c hc).2.2 _ (List.getElem_mem hkc)
    exact contrib_tested hobj hcf p1 p2 p3 hil hown hrow hrow2 hk'

end
end Tracer
