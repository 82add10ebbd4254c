import Verif.Lemmas.Policy
import Verif.Props.Engine

/-! # Ownership and relevancy (C13) -/

set_option linter.unusedSectionVars false

namespace Tracer

variable {K E σ : Type _} [Field K] [LinearOrder K] [IsStrictOrderedRing K]
  {objs : List (Obj σ K E)} {w : σ} {b : Bundle K E} {reps : Nat} {minE : K}
  {res : TraceResult σ K E}

/-- C13: source rays are tested by all surfaces. -/
theorem C13_source {k j : Nat} (hk : k < (objs.flatMap Obj.surfs).length) (hj : j < b.length) :
    Tested (surfOwnership objs) (initState objs b w).rayOwn (initState objs b w).relev k j :=
  (initState_free objs b w).tested (initState_shape objs b w) hk hj

/-- C13: ray number `j` of the next iteration was produced by some surface `k` of some object `o`, at
position `i` among the propagated rays `out` of that surface, and surface `k'` of object `o'` will be
asked about it if and only if
* `o' = o` in case object `o` claimed the ray, and
* object `o` marked it as relevant, in case `o' = o`. -/
theorem C13_next_iteration (hobj : ∀ o ∈ objs, o.ShapeOk)
    {st st' : TraceState σ K E} {gen rec : Bundle K E} (hs : st.Shape objs)
    (h : iterate objs (objs.flatMap Obj.surfs) minE st = .ok (st', gen, rec))
    {j : Nat} {r : Ray K E} (hr : st'.bund[j]? = some r) :
    ∃ (k : Nat) (s : Surf σ K E) (o : Nat) (obj : Obj σ K E) (before : Nat) (out : Bundle K E) (i : Nat),
      (objs.flatMap Obj.surfs)[k]? = some s ∧ (surfOwnership objs)[k]? = some o ∧
      objs[o]? = some obj ∧ (surfsUntilObj objs)[o]? = some before ∧ out[i]? = some r ∧
      (∃ w1 w2 rays sel raw, s.outgoing w1 rays sel = .ok (raw, w2) ∧
        ∀ q ∈ out, q ∈ gen ∧ ∃ q0 ∈ raw, q = { q0 with parent := q.parent }) ∧
      ∀ (k' o' : Nat), (surfOwnership objs)[k']? = some o' →
        (Tested (surfOwnership objs) st'.rayOwn st'.relev k' j ↔
          ((obj.own out (k - before))[i]? = some true → o' = o) ∧
          (o' = o → Marked (obj.next out (k - before)) (k' - before) i)) :=
  next_policy hobj hs h hr

/-- `origin` tells from a ray (e.g. from a user-defined property) which object produced it. -/
structure Tagged (objs : List (Obj σ K E)) (origin : Ray K E → Nat) : Prop where
  parent : ∀ r p, origin { r with parent := p } = origin r
  tag : ∀ (o : Nat) (obj : Obj σ K E), objs[o]? = some obj → ∀ s ∈ obj.surfs,
    ∀ w rays sel out w', s.outgoing w rays sel = .ok (out, w') → ∀ r ∈ out, origin r = o

/-- Parent and child in consecutive recorded bundles after the source: which object produced the
parent, and that the surface that produced the child was asked about the parent. -/
theorem parent_child (hobj : ∀ o ∈ objs, o.ShapeOk) (hlen : AllSurfs Surf.LengthOk objs)
    (hpar : AllSurfs Surf.ParentsOk objs) {origin : Ray K E → Nat} (ht : Tagged objs origin)
    (h : rayTracer objs w b reps minE true = .ok res)
    {k : Nat} {prev lvl : Bundle K E} (hp : res.tree[k + 1]? = some prev)
    (hl : res.tree[k + 2]? = some lvl) {r p : Ray K E} (hr : r ∈ lvl) (hrp : prev[r.parent]? = some p) :
    ∃ (obj : Obj σ K E) (out : Bundle K E) (rel i n : Nat), objs[origin p]? = some obj ∧ out[i]? = some p ∧
      ((obj.own out rel)[i]? = some true → origin r = origin p) ∧
      (origin r = origin p → Marked (obj.next out rel) n i) := by
  obtain ⟨st, st', gen, steps, prev', hrun, hsl, hsh, hi, _, hprev, _, h1⟩ := tree_level hobj h hl
  rw [hp] at hprev; cases hprev
  obtain ⟨weak, hw, _, _⟩ := h1 (by omega)
  have hmem : r ∈ gen := by
    have hf := iterate_ok hsh hi
    rw [hf.recorded, hf.strong] at hr
    rcases List.mem_append.1 hr with hr | hr <;> exact (List.mem_filter.1 hr).1
  obtain ⟨kk, s, p', hc⟩ := generated_child hsh hlen hpar hi hmem
  have hpp : p' = p := by
    rw [hw, List.getElem?_append_left (List.getElem?_eq_some_iff.1 hc.parent).1, hc.parent] at hrp
    simpa using hrp
  subst hpp
  rcases List.eq_nil_or_concat steps with h0 | ⟨l, ⟨gen0, rec0, st0⟩, ha⟩
  · rw [h0] at hsl; simp at hsl
  · rw [List.concat_eq_append] at ha
    rw [ha] at hrun
    obtain ⟨m, hm1, hm2⟩ := hrun.append_inv
    have hmsh := hm1.shape hobj (initState_shape objs b w)
    cases hm2 with
    | cons hi0 hr0 =>
      cases hr0
      obtain ⟨k0, s0, o, obj, before, out, i, e1, e2, e3, e4, e5, ⟨w1, w2, rays, sel, raw, eo, eq⟩, e6⟩ :=
        next_policy hobj hmsh hi0 hc.parent
      -- the object that produced the parent
      have horig : origin p' = o := by
        obtain ⟨_, q0, hq0, hqe⟩ := eq p' (List.mem_of_getElem? e5)
        rw [hqe, ht.parent]
        obtain ⟨obj', before', f1, f2, _, _, f5⟩ := numbering e2
        rw [e3] at f1; cases f1
        rw [f5] at e1
        exact ht.tag o obj e3 s0 (List.mem_of_getElem? e1) _ _ _ _ _ eo q0 hq0
      -- the object that produced the child
      obtain ⟨o', ho'⟩ := surfOwnership_some (List.getElem?_eq_some_iff.1 hc.surf).1
      have horig' : origin r = o' := by
        obtain ⟨w3, w4, rays', raw', sel', r0, t, g1, _, g3, _, g5, _⟩ := hc.raw
        rw [g5, ht.parent]
        obtain ⟨obj', before', f1, f2, _, _, f5⟩ := numbering ho'
        have := hc.surf
        rw [f5] at this
        exact ht.tag o' obj' f1 s (List.mem_of_getElem? this) _ _ _ _ _ g1 r0 g3
      have := (e6 kk o' ho').1 hc.tested
      refine ⟨obj, out, k0 - before, i, kk - before, by rw [horig]; exact e3, e5, ?_, ?_⟩
      · rw [horig, horig']; exact this.1
      · rw [horig, horig']; exact this.2

/-- C13: the children of a ray that left an object which claims all its rays come from that object. -/
theorem C13_claimed (hobj : ∀ o ∈ objs, o.ShapeOk) (hlen : AllSurfs Surf.LengthOk objs)
    (hpar : AllSurfs Surf.ParentsOk objs) {origin : Ray K E → Nat} (ht : Tagged objs origin)
    (h : rayTracer objs w b reps minE true = .ok res)
    {k : Nat} {prev lvl : Bundle K E} (hp : res.tree[k + 1]? = some prev)
    (hl : res.tree[k + 2]? = some lvl) {r p : Ray K E} (hr : r ∈ lvl) (hrp : prev[r.parent]? = some p)
    (hclaim : ∀ obj, objs[origin p]? = some obj → ∀ rays n,
      obj.own rays n = List.replicate rays.length true) :
    origin r = origin p := by
  obtain ⟨obj, out, rel, i, n, h1, h2, h3, _⟩ := parent_child hobj hlen hpar ht h hp hl hr hrp
  apply h3
  rw [hclaim obj h1, List.getElem?_replicate, if_pos (List.getElem?_eq_some_iff.1 h2).1]

/-- C13: the children of a ray that left a one-sided mirror or receiver do not come from it. -/
theorem C13_skipped (hobj : ∀ o ∈ objs, o.ShapeOk) (hlen : AllSurfs Surf.LengthOk objs)
    (hpar : AllSurfs Surf.ParentsOk objs) {origin : Ray K E → Nat} (ht : Tagged objs origin)
    (h : rayTracer objs w b reps minE true = .ok res)
    {k : Nat} {prev lvl : Bundle K E} (hp : res.tree[k + 1]? = some prev)
    (hl : res.tree[k + 2]? = some lvl) {r p : Ray K E} (hr : r ∈ lvl) (hrp : prev[r.parent]? = some p)
    (hskip : ∀ obj, objs[origin p]? = some obj → obj.next = Obj.skipNext obj.surfs.length) :
    origin r ≠ origin p := by
  obtain ⟨obj, out, rel, i, n, h1, h2, _, h4⟩ := parent_child hobj hlen hpar ht h hp hl hr hrp
  intro he
  obtain ⟨row, e1, e2⟩ := h4 he
  rw [hskip obj h1] at e1
  simp only [Obj.skipNext, List.getElem?_replicate] at e1
  split at e1
  · simp only [Option.some.injEq] at e1
    subst e1
    simp only [List.getElem?_replicate] at e2
    split at e2 <;> simp at e2
  · simp at e1

/-! ### Examples: an object that claims its rays, and one that skips itself -/

namespace Examples

/-- Mirror optics that write the number of the object into the rays' user-defined property. -/
def tagging (o : Nat) : Optics Unit ℚ Nat := fun w _ hits =>
  .ok (hits.map fun h => { reflectOne (1/10) h with extra := o }, w)

/-- Two mirrors, at z = 0 and z = 2, that keep the rays to themselves. -/
def cavity : Obj Unit ℚ Nat :=
  ⟨[mkSurf flatGM (tagging 0) 1, mkSurf flatGM (tagging 0) ⟨1, ⟨0, 0, 2⟩⟩],
   fun rays _ => List.replicate rays.length true, Obj.defaultNext 2⟩

/-- A mirror at z = 1 that does not test rays that left it. -/
def skipping : Obj Unit ℚ Nat := ⟨[mkSurf flatGM (tagging 1) ⟨1, ⟨0, 0, 1⟩⟩], Obj.defaultOwn, Obj.skipNext 1⟩

def tagSource : Bundle ℚ Nat :=
  [⟨⟨0, 0, 1/2⟩, ⟨0, 0, -1⟩, 1, 0, none, 7⟩, ⟨⟨3, 0, 1/2⟩, ⟨0, 0, 1⟩, 1, 0, none, 7⟩]

/-- The first ray stays in the cavity, passing the mirror at z = 1; the second one is reflected by
that mirror and then enters the cavity. -/
theorem cavity_trace :
    ((rayTracer [cavity, skipping] () tagSource 3 0 true).toOption.map fun r =>
      r.tree.map fun l => l.map fun q => (q.parent, q.extra, q.vertex.z)) =
    some [[(0, 7, 1/2), (0, 7, 1/2)], [(0, 0, 0), (1, 1, 1)], [(1, 0, 0), (0, 0, 2)],
      [(1, 0, 0), (0, 0, 2)]] := by
  decide +kernel

theorem tagging_atHit (o : Nat) : Optics.AtHit (tagging o) := by
  intro w up hits out w' h r hr
  simp only [tagging, Except.ok.injEq, Prod.mk.injEq] at h
  rw [← h.1] at hr
  obtain ⟨q, hq, rfl⟩ := List.mem_map.1 hr
  exact ⟨q, hq, rfl, rfl⟩

theorem tagging_tags {o : Nat} {g : Geometry ℚ Nat} {frame : Tf ℚ} {w rays sel out w'}
    (h : (mkSurf g (tagging o) frame).outgoing w rays sel = .ok (out, w')) : ∀ r ∈ out, r.extra = o := by
  obtain ⟨recs, _, h2⟩ := mkSurf_ok h
  simp only [tagging, Except.ok.injEq, Prod.mk.injEq] at h2
  rw [← h2.1]
  intro r hr
  obtain ⟨q, _, rfl⟩ := List.mem_map.1 hr
  rfl

theorem cavity_ok : (∀ o ∈ [cavity, skipping], o.ShapeOk) ∧ AllSurfs Surf.LengthOk [cavity, skipping] ∧
    AllSurfs Surf.ParentsOk [cavity, skipping] ∧ Tagged [cavity, skipping] Ray.extra := by
  refine ⟨?_, ?_, ?_, ?_, ?_⟩
  · intro o ho
    simp only [List.mem_cons, List.not_mem_nil, or_false] at ho
    rcases ho with rfl | rfl
    · exact ⟨by simp [cavity], by simp [cavity, Obj.defaultNext]⟩
    · exact ⟨by simp [skipping, Obj.defaultOwn], by simp [skipping, Obj.skipNext]⟩
  · intro o ho s hs
    simp only [List.mem_cons, List.not_mem_nil, or_false] at ho
    rcases ho with rfl | rfl <;> simp only [cavity, skipping, List.mem_cons, List.not_mem_nil, or_false] at hs
    · rcases hs with rfl | rfl <;> exact mkSurf_lengthOk flatGM_perRay.lengthOk _ _
    · subst hs; exact mkSurf_lengthOk flatGM_perRay.lengthOk _ _
  · intro o ho s hs
    simp only [List.mem_cons, List.not_mem_nil, or_false] at ho
    rcases ho with rfl | rfl <;> simp only [cavity, skipping, List.mem_cons, List.not_mem_nil, or_false] at hs
    · rcases hs with rfl | rfl <;> exact mkSurf_parentsOk _ (tagging_atHit _) _
    · subst hs; exact mkSurf_parentsOk _ (tagging_atHit _) _
  · intro r p; rfl
  · intro o obj ho s hs w rays sel out w' h
    match o, ho with
    | 0, ho =>
      simp at ho; subst ho
      simp only [cavity, List.mem_cons, List.not_mem_nil, or_false] at hs
      rcases hs with rfl | rfl <;> exact tagging_tags h
    | 1, ho =>
      simp at ho; subst ho
      simp only [skipping, List.mem_cons, List.not_mem_nil, or_false] at hs
      subst hs; exact tagging_tags h
    | n + 2, ho => simp at ho

theorem two_of_map {α β : Type _} {f : α → β} {l : List α} {a b : β} (h : l.map f = [a, b]) :
    ∃ x y, l = [x, y] ∧ f x = a ∧ f y = b := by
  rcases l with _ | ⟨x, _ | ⟨y, _ | ⟨z, t⟩⟩⟩
  · simp at h
  · simp at h
  · simp only [List.map_cons, List.map_nil, List.cons.injEq, and_true] at h
    exact ⟨x, y, rfl, h⟩
  · simp at h

/-- The bundles and rays of the trace. -/
theorem cavity_tree : ∃ res l1 l2 p0 p1 r0 r1, rayTracer [cavity, skipping] () tagSource 3 0 true = .ok res ∧
    res.tree[0 + 1]? = some l1 ∧ res.tree[0 + 2]? = some l2 ∧ l1 = [p0, p1] ∧ l2 = [r1, r0] ∧
    r0.parent = 0 ∧ r1.parent = 1 ∧ p0.extra = 0 ∧ p1.extra = 1 := by
  have h := cavity_trace
  cases hr : rayTracer [cavity, skipping] () tagSource 3 0 true with
  | error e => rw [hr] at h; simp [Except.toOption] at h
  | ok res =>
    rw [hr] at h
    simp only [Except.toOption, Option.map_some, Option.some.injEq] at h
    have h1 := congrArg (fun l => l[1]?) h
    have h2 := congrArg (fun l => l[2]?) h
    simp only [List.getElem?_map, List.getElem?_cons_succ, List.getElem?_cons_zero, Option.map_eq_some_iff] at h1 h2
    obtain ⟨l1, e1, m1⟩ := h1
    obtain ⟨l2, e2, m2⟩ := h2
    obtain ⟨p0, p1, f1, g1, g2⟩ := two_of_map m1
    obtain ⟨r1, r0, f2, g3, g4⟩ := two_of_map m2
    simp only [Prod.mk.injEq] at g1 g2 g3 g4
    exact ⟨res, l1, l2, p0, p1, r0, r1, rfl, e1, e2, f1, f2, g4.1, g3.1, g1.2.1, g2.2.1⟩

/-- `C13_claimed` speaks of the ray in the cavity, and `C13_skipped` of the one that left the mirror at z = 1. -/
example : ∃ res l1 l2 p0 p1 r0 r1, rayTracer [cavity, skipping] () tagSource 3 0 true = .ok res ∧
    res.tree[0 + 1]? = some l1 ∧ res.tree[0 + 2]? = some l2 ∧ l1 = [p0, p1] ∧ l2 = [r1, r0] ∧
    r0.extra = p0.extra ∧ r1.extra ≠ p1.extra := by
  obtain ⟨res, l1, l2, p0, p1, r0, r1, h, h1, h2, e1, e2, q0, q1, x0, x1⟩ := cavity_tree
  obtain ⟨hs, hl, hp, ht⟩ := cavity_ok
  refine ⟨res, l1, l2, p0, p1, r0, r1, h, h1, h2, e1, e2,
    C13_claimed hs hl hp ht h h1 h2 (r := r0) (p := p0) (by simp [e2]) (by simp [e1, q0]) ?_,
    C13_skipped hs hl hp ht h h1 h2 (r := r1) (p := p1) (by simp [e2]) (by simp [e1, q1]) ?_⟩
  · intro obj ho rays n
    rw [x0] at ho
    simp only [List.getElem?_cons_zero, Option.some.injEq] at ho
    subst ho; rfl
  · intro obj ho
    rw [x1] at ho
    simp only [List.getElem?_cons_succ, List.getElem?_cons_zero, Option.some.injEq] at ho
    subst ho; rfl

/-- `C13_next_iteration` speaks of the first iteration of that trace. -/
example : ∃ st gen rec r, iterate [cavity, skipping] ([cavity, skipping].flatMap Obj.surfs) 0
      (initState [cavity, skipping] tagSource ()) = .ok (st, gen, rec) ∧ st.bund[1]? = some r ∧ r.extra = 1 ∧
    ∃ (k : Nat) (o : Nat), (surfOwnership [cavity, skipping])[k]? = some o := by
  have h : ((iterate [cavity, skipping] ([cavity, skipping].flatMap Obj.surfs) 0
      (initState [cavity, skipping] tagSource ())).toOption.map fun x => x.1.bund.map Ray.extra) = some [0, 1] := by
    decide +kernel
  cases hr : iterate [cavity, skipping] ([cavity, skipping].flatMap Obj.surfs) 0 (initState [cavity, skipping] tagSource ()) with
  | error e => rw [hr] at h; simp [Except.toOption] at h
  | ok x =>
    obtain ⟨st, gen, rec⟩ := x
    rw [hr] at h
    simp only [Except.toOption, Option.map_some, Option.some.injEq] at h
    obtain ⟨r0, r1, hb, _, h1⟩ := two_of_map h
    obtain ⟨k, s, o, _, _, _, _, _, e, _⟩ := C13_next_iteration cavity_ok.1 (initState_shape _ tagSource ()) hr
      (j := 1) (r := r1) (by rw [hb]; rfl)
    exact ⟨st, gen, rec, r1, rfl, by rw [hb]; rfl, h1, k, o, e⟩

end Examples
end Tracer
