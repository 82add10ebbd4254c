import Verif.Model.Tree
import Verif.Props.Engine

/-! # Properties of the recorded tree (C17, C18) -/

set_option linter.unusedSectionVars false

namespace Tracer

variable {K E σ : Type _} [Field K] [LinearOrder K] [IsStrictOrderedRing K]
  {objs : List (Obj σ K E)} {w : σ} {b : Bundle K E} {reps : Nat} {minE : K}
  {res : TraceResult σ K E}

/-- Specification: `path` lists the ray number `i` of bundle number `level`, then its parent in
bundle `level - 1`, and so on down to the source bundle. -/
inductive Ancestry (tree : List (Bundle K E)) : Nat → Nat → List Nat → Prop
  | source {i : Nat} {src : Bundle K E} {r : Ray K E} : tree[0]? = some src → src[i]? = some r →
      Ancestry tree 0 i [i]
  | step {level i : Nat} {bund : Bundle K E} {r : Ray K E} {path : List Nat} :
      tree[level + 1]? = some bund → bund[i]? = some r →
      Ancestry tree level r.parent path → Ancestry tree (level + 1) i (i :: path)

/-! ### C18 -/

/-- C18: `ordered_parents()` has one entry per recorded bundle after the source, and entry `k` holds
the parents of bundle `k + 1`. -/
theorem C18_ordered_parents (tree : List (Bundle K E)) :
    (orderedParents tree).length = tree.length - 1 ∧
    ∀ k : Nat, (orderedParents tree)[k]? = (tree[k + 1]?).map fun bund => bund.map Ray.parent := by
  refine ⟨by simp [orderedParents], ?_⟩
  intro k
  cases tree <;> simp [orderedParents]

/-- C18: every recorded ray has exactly one ancestry, which reaches the source bundle in as many steps
as its level. -/
theorem C18_ancestry (hobj : ∀ o ∈ objs, o.ShapeOk) (hlen : AllSurfs Surf.LengthOk objs)
    (hpar : AllSurfs Surf.ParentsOk objs)
    (h : rayTracer objs w b reps minE true = .ok res)
    {level i : Nat} {bund : Bundle K E} {r : Ray K E} (hl : res.tree[level]? = some bund)
    (hi : bund[i]? = some r) :
    (∃ path, Ancestry res.tree level i path) ∧
    ∀ path, Ancestry res.tree level i path → path.length = level + 1 ∧
      (∀ path', Ancestry res.tree level i path' → path' = path) := by
  refine ⟨?_, ?_⟩
  · induction level generalizing i bund r with
    | zero => exact ⟨_, .source hl hi⟩
    | succ level ih =>
      obtain ⟨prev, p, h1, h2, _⟩ := C06_parents_valid hobj hlen hpar h hl (List.mem_of_getElem? hi)
      obtain ⟨path, hp⟩ := ih h1 h2
      exact ⟨_, .step hl hi hp⟩
  · intro path hp
    clear hl hi
    induction hp with
    | source h1 h2 =>
      refine ⟨rfl, ?_⟩
      intro path' hp'
      cases hp'
      rfl
    | step h1 h2 _ ih =>
      refine ⟨by simp [ih.1], ?_⟩
      intro path' hp'
      cases hp' with
      | step h1' h2' h3' =>
        rw [h1] at h1'; cases h1'
        rw [h2] at h2'; cases h2'
        rw [ih.2 _ h3']

/-- A ray of the last bundle of the trace of two facing mirrors has an ancestry of four rays. -/
theorem Examples.facing_ancestry : ∃ res i path,
    rayTracer Examples.facing () Examples.source 4 (1/5) true = .ok res ∧
    Ancestry res.tree 3 i path ∧ path.length = 4 := by
  obtain ⟨res, lvl, r, h, hl, hr⟩ := Examples.facing_last
  obtain ⟨i, hi⟩ := List.getElem?_of_mem hr
  obtain ⟨⟨path, hp⟩, hall⟩ := C18_ancestry Examples.facing_shape Examples.facing_length
    Examples.facing_parents h hl hi
  exact ⟨res, i, path, h, hp, (hall path hp).1⟩

/-- C18: following `ordered_parents()` from a recorded ray is its ancestry. -/
theorem C18_follow (tree : List (Bundle K E)) {level i : Nat} {path : List Nat}
    (h : Ancestry tree level i path) :
    path.head? = some i ∧ ∀ d, d < level → ∃ parents x y, (orderedParents tree)[level - 1 - d]? = some parents ∧
      path[d]? = some x ∧ path[d + 1]? = some y ∧ parents[x]? = some y := by
  induction h with
  | source => simp
  | @step level i bund r path h1 h2 h3 ih =>
    refine ⟨rfl, ?_⟩
    intro d hd
    cases d with
    | zero =>
      refine ⟨bund.map Ray.parent, i, r.parent, ?_, rfl, ?_, ?_⟩
      · rw [(C18_ordered_parents tree).2]; simp [h1]
      · have := ih.1
        cases path with
        | nil => simp at this
        | cons a l => simpa using this
      · simp [h2]
    | succ d =>
      obtain ⟨parents, x, y, e1, e2, e3, e4⟩ := ih.2 d (by omega)
      refine ⟨parents, x, y, ?_, by simpa using e2, by simpa using e3, e4⟩
      rw [← e1]
      congr 1
      omega

example : ∃ res i path, rayTracer Examples.facing () Examples.source 4 (1/5) true = .ok res ∧
    Ancestry res.tree 3 i path ∧ ∃ parents x y, (orderedParents res.tree)[1]? = some parents ∧
      path[1]? = some x ∧ path[2]? = some y ∧ parents[x]? = some y := by
  obtain ⟨res, i, path, h, hp, _⟩ := Examples.facing_ancestry
  exact ⟨res, i, path, h, hp, (C18_follow res.tree hp).2 1 (by omega)⟩

/-! ### C17 -/

/-- C17 fails: no call of `ray_history` on a tree returns. -/
theorem C17_ray_history_fails (tree : List (Bundle K E)) (c : HistoryCall) :
    ∃ e, rayHistory tree c = .error e := by
  cases c with
  | noArgs => exact ⟨_, rfl⟩
  | two i l => exact ⟨_, rfl⟩
  | one l =>
    by_cases h : l = 0
    · exact ⟨.index, by simp [rayHistory, h]⟩
    · exact ⟨.type, by simp [rayHistory, h]⟩

/-- Even with the missing parameter restored, the default level reads beyond the last bundle, for
every tree of at least two bundles. -/
theorem C17_body_default_fails (tree : List (Bundle K E)) (h : 2 ≤ tree.length) (i : Nat) :
    rayHistoryBody tree i none = .error .index := by
  unfold rayHistoryBody
  obtain ⟨n, hn⟩ : ∃ n, tree.length = n + 2 := ⟨tree.length - 2, by omega⟩
  simp only [Option.getD_none, hn]
  rw [if_neg (by omega), show n + 2 - 1 = n + 1 from rfl, historyLoop]
  rw [List.getElem?_eq_none (by omega)]

example : ∃ res, rayTracer Examples.facing () Examples.source 4 (1/5) true = .ok res ∧
    ∀ i, rayHistoryBody res.tree i none = .error .index := by
  obtain ⟨res, h, ht⟩ := Examples.facing_ok
  refine ⟨res, h, fun i => C17_body_default_fails res.tree ?_ i⟩
  have := congrArg List.length ht
  simp only [List.length_map, List.length_cons, List.length_nil] at this
  omega

theorem historyLoop_eq (tree : List (Bundle K E)) {m i : Nat} {path : List Nat}
    (h : Ancestry tree m i path) (hm : 0 < m) (level pix : Nat) (hl : level + 1 = pix + m) :
    historyLoop tree level (m - 1) pix i = .ok path.tail.dropLast := by
  induction h generalizing pix with
  | source => omega
  | @step m i bund r path h1 h2 h3 ih =>
    cases m with
    | zero =>
      cases h3
      simp [historyLoop]
    | succ m =>
      have e : level - pix + 1 = m + 1 + 1 := by omega
      simp only [Nat.add_sub_cancel] at ih ⊢
      rw [historyLoop, e, h1]
      simp only [h2]
      rw [ih (by omega) (pix + 1) (by omega)]
      have hh := (C18_follow tree h3).1
      have hlen : 2 ≤ path.length := by
        cases h3 with
        | step _ _ h4 => cases h4 <;> simp
      match path, hh, hlen with
      | a :: c :: l, hh, _ =>
        simp at hh
        subst hh
        simp

/-- C17, partial (with the missing parameter restored): for a level above the source the path is
the ancestry without its last element, the index in the source bundle.  Missing: the source
index, level 0, the default level, and the method as it is written. -/
theorem C17_body_partial (tree : List (Bundle K E)) {level i : Nat} {path : List Nat}
    (h : Ancestry tree level i path) (hl : 0 < level) :
    rayHistoryBody tree i (some level) = .ok path.dropLast := by
  unfold rayHistoryBody
  simp only [Option.getD_some]
  rw [if_neg (by omega), historyLoop_eq tree h hl level 1 (by omega)]
  have hh := (C18_follow tree h).1
  cases h with
  | source => omega
  | step _ _ h4 =>
    cases h4 <;> simp

example : ∃ res i, ∃ path : List Nat, rayTracer Examples.facing () Examples.source 4 (1/5) true = .ok res ∧
    path.length = 4 ∧ rayHistoryBody res.tree i (some 3) = .ok path.dropLast := by
  obtain ⟨res, i, path, h, hp, hl⟩ := Examples.facing_ancestry
  exact ⟨res, i, path, h, hl, C17_body_partial res.tree hp (by omega)⟩

/-- The path of a concrete tree, without the source. -/
theorem C17_body_wrong :
    let ray (p : Nat) : Ray ℚ Unit := ⟨0, 0, 1, p, none, ()⟩
    let tree : List (Bundle ℚ Unit) := [[ray 0, ray 0], [ray 0, ray 1], [ray 1, ray 0]]
    Ancestry tree 2 0 [0, 1, 1] ∧ rayHistoryBody tree 0 (some 2) = .ok [0, 1] ∧
    Ancestry tree 0 1 [1] ∧ rayHistoryBody tree 1 (some 0) = .error .index := by
  refine ⟨.step rfl rfl (.step rfl rfl (.source rfl rfl)), by decide +kernel,
    .source rfl rfl, by decide +kernel⟩

end Tracer
