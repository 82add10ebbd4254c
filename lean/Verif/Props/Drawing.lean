import Verif.Props.ShowRays
import Verif.Props.Energy

/-!
# Drawings of traces (C65)

`show_rays` goes wrong when a ray that is left out comes before a childless one that is shown.  The engine records the rays above the
threshold before the others, which bounds the damage.
-/

namespace Tracer

section
variable {K E : Type _} [Field K] [DecidableEq K]

theorem count_all (m : List Bool) (h : ∀ j, j < m.length → m[j]? = some true) : m.count true = m.length := by
  rw [List.count_eq_length]
  intro b hb
  obtain ⟨j, hj, rfl⟩ := List.getElem_of_mem hb
  have := h j hj
  rw [List.getElem?_eq_getElem hj] at this
  exact (Option.some.inj this).symm

/-- C65: the lines are those to the children, and those of the childless rays that are shown, if no ray that is left out comes before a
childless one that is shown.  Missing: other trees (`C65_trace_fails`). -/
theorem C65_ordered_partial (len : K) {sel : Option (Bundle K E → List Bool)} (hs : SelectorOk sel) {tree : List (Bundle K E)} (hne : tree ≠ [])
    (hpar : HasParents tree)
    (hord : ∀ (k : Nat) (l : Bundle K E) (i : Nat), tree[k]? = some l → (shownRays sel l)[i]? = some true →
      (∀ j c, InTree tree (k + 1) j c → c.parent ≠ i) → ∀ j, j < i → (shownRays sel l)[j]? = some true) :
    ∃ points connections, showRays tree len sel = .ok (points, connections) ∧
      (∀ c ∈ connections, c.1 < points.length ∧ c.2 < points.length) ∧
      ∀ p q, Drawn points connections p q ↔ ToChild tree p q ∨
        ∃ (k : Nat) (l : Bundle K E) (i : Nat) (r : Ray K E), tree[k]? = some l ∧ l[i]? = some r ∧ (shownRays sel l)[i]? = some true ∧
          (∀ j c, InTree tree (k + 1) j c → c.parent ≠ i) ∧ p = r.vertex ∧ q = r.vertex + len • r.dir := by
  obtain ⟨points, connections, h1, h2, h3⟩ := C65_lines len hs hne hpar
  refine ⟨points, connections, h1, h2, fun p q => ?_⟩
  rw [h3]
  refine or_congr Iff.rfl ?_
  have hcount : ∀ (k : Nat) (l : Bundle K E) (i : Nat) (r : Ray K E), tree[k]? = some l → l[i]? = some r → (shownRays sel l)[i]? = some true →
      (∀ j c, InTree tree (k + 1) j c → c.parent ≠ i) → ((shownRays sel l).take i).count true = i := by
    intro k l i r hl hr hsh hno
    have hi : i < (shownRays sel l).length := (List.getElem?_eq_some_iff.1 hsh).1
    have hlen : ((shownRays sel l).take i).length = i := by rw [List.length_take]; omega
    rw [count_all _ (fun j hj => by
      rw [hlen] at hj
      rw [List.getElem?_take_of_lt hj]
      exact hord k l i hl hsh hno j hj), hlen]
  constructor
  · rintro ⟨k, l, i, r, start, hl, hr, hsh, hno, hq, hst, rfl⟩
    rw [hcount k l i r hl hr hsh hno, hr] at hst
    cases hst
    exact ⟨k, l, i, r, hl, hr, hsh, hno, rfl, hq⟩
  · rintro ⟨k, l, i, r, hl, hr, hsh, hno, rfl, rfl⟩
    exact ⟨k, l, i, r, r, hl, hr, hsh, hno, rfl, by rw [hcount k l i r hl hr hsh hno, hr], rfl⟩

end

section
variable {σ K E : Type _} [Field K] [LinearOrder K] [IsStrictOrderedRing K]
variable {objs : List (Obj σ K E)} {w : σ} {b : Bundle K E} {reps : Nat} {minE : K} {res : TraceResult σ K E}

/-- C65: the tree of a trace can always be drawn. -/
theorem C65_drawable (hobj : ∀ o ∈ objs, o.ShapeOk) (hlen : AllSurfs Surf.LengthOk objs) (hpar : AllSurfs Surf.ParentsOk objs)
    (h : rayTracer objs w b reps minE true = .ok res) : res.tree ≠ [] ∧ HasParents res.tree := by
  constructor
  · intro h0
    have := (C11_iteration_limit hobj h).1
    rw [h0] at this
    cases this
  · intro k l next hl hn c hc
    obtain ⟨prev, p, hp, hp', _⟩ := C06_parents_valid hobj hlen hpar h hn hc
    rw [hl] at hp
    cases hp
    exact (List.getElem?_eq_some_iff.1 hp').1

/-- C65: the drawing of a trace is right if no ray of the source is without energy and every other ray either is without energy or has more
than the threshold: exactly the lines from a ray to its children, and those of the childless rays with energy along their directions. -/
theorem C65_trace_partial (hobj : ∀ o ∈ objs, o.ShapeOk) (hlen : AllSurfs Surf.LengthOk objs) (hpar : AllSurfs Surf.ParentsOk objs) (hm : 0 ≤ minE)
    (hb : ∀ r ∈ b, r.energy ≠ 0) (h : rayTracer objs w b reps minE true = .ok res)
    (hgap : ∀ (k : Nat) (lvl : Bundle K E), res.tree[k + 1]? = some lvl → ∀ r ∈ lvl, r.energy = 0 ∨ minE < r.energy) (len : K) :
    ∃ points connections, showRays res.tree len none = .ok (points, connections) ∧
      (∀ c ∈ connections, c.1 < points.length ∧ c.2 < points.length) ∧
      ∀ p q, Drawn points connections p q ↔ ToChild res.tree p q ∨
        ∃ k i r, InTree res.tree k i r ∧ r.energy ≠ 0 ∧ (∀ j c, InTree res.tree (k + 1) j c → c.parent ≠ i) ∧
          p = r.vertex ∧ q = r.vertex + len • r.dir := by
  obtain ⟨hne, hhas⟩ := C65_drawable hobj hlen hpar h
  have hshow : ∀ (l : Bundle K E) (i : Nat), (shownRays none l)[i]? = some true ↔ ∃ r, l[i]? = some r ∧ r.energy ≠ 0 := by
    intro l i
    unfold shownRays
    simp only [List.getElem?_map, Option.map_eq_some_iff, decide_eq_true_eq]
  obtain ⟨points, connections, h1, h2, h3⟩ := C65_ordered_partial len (sel := none) (fun f hf => by cases hf) hne hhas (by
    intro k l i hl hsh _ j hj
    obtain ⟨r, hr, hre⟩ := (hshow l i).1 hsh
    cases k with
    | zero =>
      have h0 := (C11_iteration_limit hobj h).1
      rw [List.head?_eq_getElem?, hl] at h0
      cases h0
      have hjl : j < b.length := lt_trans hj (List.getElem?_eq_some_iff.1 hr).1
      exact (hshow b j).2 ⟨b[j], List.getElem?_eq_getElem hjl, hb _ (List.getElem_mem hjl)⟩
    | succ k =>
      obtain ⟨gen, _, _, _, hlvl, _⟩ := C10_low_energy hobj h hl
      have hlt := (hgap k l hl r (List.mem_of_getElem? hr)).resolve_left hre
      have hi : i < (gen.filter fun r => decide (minE < r.energy)).length := by
        by_contra hc
        rw [hlvl, List.getElem?_append_right (not_lt.1 hc)] at hr
        have := (List.mem_filter.1 (List.mem_of_getElem? hr)).2
        simp only [decide_eq_true_eq] at this
        exact absurd hlt (not_lt.2 this)
      have hjl : j < (gen.filter fun r => decide (minE < r.energy)).length := lt_trans hj hi
      have hjm := (List.mem_filter.1 (List.getElem_mem hjl)).2
      simp only [decide_eq_true_eq] at hjm
      refine (hshow l j).2 ⟨_, ?_, (lt_of_le_of_lt hm hjm).ne'⟩
      rw [hlvl, List.getElem?_append_left hjl, List.getElem?_eq_getElem hjl])
  refine ⟨points, connections, h1, h2, fun p q => ?_⟩
  rw [h3]
  refine or_congr Iff.rfl ?_
  constructor
  · rintro ⟨k, l, i, r, hl, hr, hsh, hno, hp, hq⟩
    obtain ⟨r', hr', he⟩ := (hshow l i).1 hsh
    rw [hr] at hr'
    cases hr'
    exact ⟨k, i, r, ⟨l, hl, hr⟩, he, hno, hp, hq⟩
  · rintro ⟨k, i, r, ⟨l, hl, hr⟩, he, hno, hp, hq⟩
    exact ⟨k, l, i, r, hl, hr, (hshow l i).2 ⟨r, hr, he⟩, hno, hp, hq⟩

/-- C65: without an energy threshold the drawing of a trace is right, if the source's rays have energy. -/
theorem C65_no_threshold (hobj : ∀ o ∈ objs, o.ShapeOk) (hlen : AllSurfs Surf.LengthOk objs) (hpar : AllSurfs Surf.ParentsOk objs)
    (hen : AllSurfs Surf.EnergyOk objs) (hb : ∀ r ∈ b, 0 < r.energy) (h : rayTracer objs w b reps 0 true = .ok res) (len : K) :
    ∃ points connections, showRays res.tree len none = .ok (points, connections) ∧
      (∀ c ∈ connections, c.1 < points.length ∧ c.2 < points.length) ∧
      ∀ p q, Drawn points connections p q ↔ ToChild res.tree p q ∨
        ∃ k i r, InTree res.tree k i r ∧ r.energy ≠ 0 ∧ (∀ j c, InTree res.tree (k + 1) j c → c.parent ≠ i) ∧
          p = r.vertex ∧ q = r.vertex + len • r.dir := by
  refine C65_trace_partial hobj hlen hpar le_rfl (fun r hr => (hb r hr).ne') h (fun k lvl hk r hr => ?_) len
  rcases (C15_nonneg hobj hlen hpar hen (fun r hr => (hb r hr).le) h hk r hr).eq_or_lt with h0 | h0
  · exact .inl h0.symm
  · exact .inr h0

end

namespace Examples

/-- A black plane and above it a dull mirror. -/
def blackAndDull : List (Obj Unit ℚ Unit) :=
  [⟨[mkSurf flatGM (reflective 1) 1], Obj.defaultOwn, Obj.defaultNext 1⟩,
   ⟨[mkSurf flatGM (reflective (99 / 100)) ⟨1, ⟨0, 0, 10⟩⟩], Obj.defaultOwn, Obj.defaultNext 1⟩]

/-- A ray to each of them. -/
def downAndUp : Bundle ℚ Unit := [⟨⟨0, 0, 5⟩, ⟨0, 0, -1⟩, 1, 0, none, ()⟩, ⟨⟨7, 0, 5⟩, ⟨0, 0, 1⟩, 1, 0, none, ()⟩]

/-- What is recorded. -/
def blackAndDullTree : List (Bundle ℚ Unit) :=
  [downAndUp, [⟨⟨0, 0, 0⟩, ⟨0, 0, 1⟩, 0, 0, none, ()⟩, ⟨⟨7, 0, 10⟩, ⟨0, 0, -1⟩, 1 / 100, 1, none, ()⟩]]

end Examples

/-- C65 is false of traces: a `TracerScene`, with its threshold 0.05, draws a line from the black plane to a place below the mirror. -/
theorem C65_trace_fails : ∃ res points connections,
    rayTracer Examples.blackAndDull () Examples.downAndUp 200000000 (1 / 20) true = .ok res ∧
    showRays res.tree 1 none = .ok (points, connections) ∧ Drawn points connections ⟨0, 0, 0⟩ ⟨7, 0, 9⟩ ∧
    ¬ ToChild res.tree ⟨0, 0, 0⟩ ⟨7, 0, 9⟩ ∧ ¬ ToNowhere res.tree (1 : ℚ) ⟨0, 0, 0⟩ ⟨7, 0, 9⟩ := by
  have htree : ((rayTracer Examples.blackAndDull () Examples.downAndUp 200000000 (1 / 20) true).toOption.map fun res => res.tree) =
      some Examples.blackAndDullTree := by decide +kernel
  cases hr : rayTracer Examples.blackAndDull () Examples.downAndUp 200000000 (1 / 20) true with
  | error e => rw [hr] at htree; simp [Except.toOption] at htree
  | ok res =>
    rw [hr] at htree
    have ht : res.tree = Examples.blackAndDullTree := by simpa [Except.toOption] using htree
    have hvert : ∀ k i r, InTree Examples.blackAndDullTree k i r → r.vertex.x + 1 * r.dir.x = 7 → r.vertex.x = 7 := by
      rintro k i r ⟨l, hl, hi⟩
      have h1 := List.mem_of_getElem? hl
      have h2 := List.mem_of_getElem? hi
      simp only [Examples.blackAndDullTree, Examples.downAndUp, List.mem_cons, List.not_mem_nil, or_false] at h1
      rcases h1 with rfl | rfl <;> simp only [List.mem_cons, List.not_mem_nil, or_false] at h2 <;> rcases h2 with rfl | rfl <;> norm_num
    have hno9 : ∀ k i r, InTree Examples.blackAndDullTree k i r → r.vertex ≠ ⟨7, 0, 9⟩ := by
      rintro k i r ⟨l, hl, hi⟩
      have h1 := List.mem_of_getElem? hl
      have h2 := List.mem_of_getElem? hi
      simp only [Examples.blackAndDullTree, Examples.downAndUp, List.mem_cons, List.not_mem_nil, or_false] at h1
      rcases h1 with rfl | rfl <;> simp only [List.mem_cons, List.not_mem_nil, or_false] at h2 <;> rcases h2 with rfl | rfl <;> decide
    refine ⟨res, [⟨0, 0, 5⟩, ⟨7, 0, 5⟩, ⟨0, 0, 0⟩, ⟨7, 0, 10⟩, ⟨7, 0, 9⟩], [(0, 2), (1, 3), (2, 4)], rfl, ?_, ?_, ?_, ?_⟩
    · rw [ht]; decide +kernel
    · exact ⟨(2, 4), by simp, rfl, rfl⟩
    · rw [ht]
      rintro ⟨k, i, j, r, c, _, hc, _, _, hq⟩
      exact hno9 _ _ _ hc hq.symm
    · rw [ht]
      rintro ⟨k, i, r, hr, _, hp, hq⟩
      have hx : (7 : ℚ) = r.vertex.x + 1 * r.dir.x := congrArg V3.x hq
      have := hvert k i r hr hx.symm
      rw [← hp] at this
      norm_num at this

/-! ## The hypotheses are met -/

/-- Without a threshold the same scene is drawn as it should be. -/
example : ∃ res points connections, rayTracer Examples.blackAndDull () Examples.downAndUp 5 0 true = .ok res ∧ res.tree.length = 3 ∧
    showRays res.tree 1 none = .ok (points, connections) ∧
    ∀ p q, Drawn points connections p q ↔ ToChild res.tree p q ∨
      ∃ k i r, InTree res.tree k i r ∧ r.energy ≠ 0 ∧ (∀ j c, InTree res.tree (k + 1) j c → c.parent ≠ i) ∧
        p = r.vertex ∧ q = r.vertex + (1 : ℚ) • r.dir := by
  have htree : ((rayTracer Examples.blackAndDull () Examples.downAndUp 5 0 true).toOption.map fun res => res.tree.length) = some 3 := by
    decide +kernel
  cases hr : rayTracer Examples.blackAndDull () Examples.downAndUp 5 0 true with
  | error e => rw [hr] at htree; simp [Except.toOption] at htree
  | ok res =>
    rw [hr] at htree
    have hall : ∀ P : Surf Unit ℚ Unit → Prop, (∀ a : ℚ, 0 ≤ a → a ≤ 1 → ∀ F, P (mkSurf flatGM (reflective a) F)) →
        AllSurfs P Examples.blackAndDull := by
      intro P hP o ho s hs
      simp only [Examples.blackAndDull, List.mem_cons, List.not_mem_nil, or_false] at ho
      rcases ho with rfl | rfl <;> simp only [List.mem_cons, List.not_mem_nil, or_false] at hs <;> subst hs
      · exact hP 1 (by norm_num) le_rfl _
      · exact hP _ (by norm_num) (by norm_num) _
    have hdef : ∀ o ∈ Examples.blackAndDull, o.Default := by
      intro o ho
      simp only [Examples.blackAndDull, List.mem_cons, List.not_mem_nil, or_false] at ho
      rcases ho with rfl | rfl <;> exact ⟨rfl, rfl⟩
    obtain ⟨points, connections, h1, _, h2⟩ := C65_no_threshold (fun o ho => (hdef o ho).shapeOk)
      (hall _ fun a _ _ F => mkSurf_lengthOk (fun frame rays => List.length_map _) _ F) (hall _ fun a _ _ F => mkSurf_parentsOk _ (reflective_atHit a) F)
      (hall _ fun a h0 h1 F => mkSurf_energyOk _ (reflective_atHit a) (reflective_energyOk h0 h1) F)
      (by simp [Examples.downAndUp]) hr (1 : ℚ)
    exact ⟨res, points, connections, rfl, by simpa [Except.toOption] using htree, h1, h2⟩

end Tracer
