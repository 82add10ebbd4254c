import Verif.Props.Going
import Verif.Lemmas.Images

/-!
C89: flat mirrors show images.  A ray recorded after `k` reflections comes, in a straight line, from the image of its source in the
`k` planes it met, one after the other.  Three perpendicular mirrors send light back to where it came from.
-/

set_option linter.unusedSectionVars false

namespace Tracer

variable {K E σ : Type _} [Field K] [LinearOrder K] [IsStrictOrderedRing K]
variable {objs : List (Obj σ K E)} {w : σ} {b : Bundle K E} {reps : Nat} {minE : K} {res : TraceResult σ K E}

theorem tree_beyond' (hpl : ∀ o ∈ objs, o.Plain) (h : rayTracer objs w b reps minE true = .ok res) {k : Nat} (hk : reps < k) :
    (res.tree[k]?).getD [] = [] := by
  rw [tree_beyond (fun o ho => ?_) h hk]
  · rfl
  obtain ⟨n, hn⟩ := List.getElem?_of_mem ho
  exact (Obj.Plain.decides hpl n o hn).shapeOk

/-- What holds of the source and passes on at every mirror holds of every recorded ray. -/
theorem flat_induction (hpl : ∀ o ∈ objs, o.Plain) (hfl : AllSurfs FlatMirror objs)
    (h : rayTracer objs w b reps minE true = .ok res) {Q : Nat → V3 K → V3 K → Prop}
    (h0 : ∀ p ∈ b, Q 0 p.vertex p.dir)
    (hstep : ∀ k (r : Ray K E), Q k r.vertex r.dir → ∀ o ∈ objs, ∀ s ∈ o.surfs, ∀ t : K, s.single r = (t : WithTop K) → 0 < t →
      ∀ q ∈ s.alone w r, Q (k + 1) q.vertex q.dir) {k : Nat} {r : Ray K E} (hr : r ∈ (res.tree[k]?).getD []) : Q k r.vertex r.dir := by
  rcases Nat.lt_or_ge reps k with hk | hk
  · rw [tree_beyond' hpl h hk] at hr
    simp at hr
  · have hm := (C84_flat hpl hfl h hk).subset (List.mem_map_of_mem hr)
    obtain ⟨g, hg, e⟩ := List.mem_map.1 hm
    have hQ := going_induction (Q := fun k r => Q k r.vertex r.dir) h0 hstep k g hg
    have ev : g.ray.vertex = r.vertex := (Ray.mk.injEq .. ▸ e : _ ∧ _).1
    have ed : g.ray.dir = r.dir := (Ray.mk.injEq .. ▸ e : _ ∧ _ ∧ _).2.1
    simp only [ev, ed] at hQ
    exact hQ

/-- **C89.** A ray recorded by a trace through flat mirrors after `k` reflections goes in the direction of a source ray turned by
`k` of the mirrors, one after the other, and has come, a nonnegative length along that direction, from the source ray's vertex imaged
in the same mirrors. -/
theorem C89_images (hpl : ∀ o ∈ objs, o.Plain) (hfl : AllSurfs FlatMirror objs)
    (h : rayTracer objs w b reps minE true = .ok res) {k : Nat} {r : Ray K E} (hr : r ∈ (res.tree[k]?).getD []) :
    ∃ p ∈ b, ∃ planes : List (Plane K), planes.length = k ∧ (∀ P ∈ planes, HasMirror objs P) ∧
      r.dir = turnedAfter planes p.dir ∧ ∃ L : K, 0 ≤ L ∧ r.vertex = imageAfter planes p.vertex + L • r.dir := by
  refine flat_induction (Q := fun k v d => ∃ p ∈ b, ∃ planes : List (Plane K), planes.length = k ∧ (∀ P ∈ planes, HasMirror objs P) ∧
      d = turnedAfter planes p.dir ∧ ∃ L : K, 0 ≤ L ∧ v = imageAfter planes p.vertex + L • d) hpl hfl h ?_ ?_ hr
  · intro p hp
    refine ⟨p, hp, [], rfl, by simp, rfl, 0, le_refl _, ?_⟩
    apply V3.ext <;> simp [imageAfter]
  · rintro k r ⟨p, hp, planes, hlen, hhas, hd, L, hL, hv⟩ o ho s hs t ht hpos q hq
    obtain ⟨g, opt, F, rfl, hg, hopt, -⟩ := hfl o ho s hs
    obtain ⟨e1, e2, -, e4⟩ := mirror_child hg hopt ht hq
    refine ⟨p, hp, planes ++ [F.plane], by simp [hlen], ?_, ?_, L + t, by linarith, ?_⟩
    · intro P hP
      rcases List.mem_append.1 hP with hP | hP
      · exact hhas P hP
      · rw [List.mem_singleton.1 hP]
        exact ⟨o, ho, g, opt, F, hs, hg, hopt, rfl⟩
    · rw [e2, hd]
      unfold turnedAfter
      rw [List.foldl_append]
      rfl
    · have hat : r.at t = imageAfter planes p.vertex + (L + t) • r.dir := by
        unfold Ray.at
        rw [hv]
        apply V3.ext <;> simp <;> ring
      have himg := imageIn_self (c := F.loc) (m := F.rot.c3) e4
      rw [e1, ← himg, hat, imageIn_along, e2]
      unfold imageAfter
      rw [List.foldl_append]
      rfl

/-! ### A corner of mirrors -/

theorem FlatMirrorIn.flat {P : Plane K} (hP : V3.dot P.normal P.normal = 1) {s : Surf σ K E} (h : FlatMirrorIn P s) : FlatMirror s := by
  obtain ⟨g, opt, F, rfl, hg, ho, hn, -⟩ := h
  refine ⟨g, opt, F, rfl, hg, ho, ?_⟩
  rcases hn with e | e <;> rw [e]
  · exact hP
  · rw [← hP]
    simp [V3.dot]

/-- Whatever happened to a ray among mirrors in perpendicular planes: those of `S` it has met, and moves away from. -/
structure Cornered (e : Fin 3 → V3 K) (c x0 d0 : V3 K) (S : Finset (Fin 3)) (L : K) (x d : V3 K) : Prop where
  length : 0 ≤ L
  met : ∀ i ∈ S, V3.dot d (e i) = -V3.dot d0 (e i) ∧ V3.dot (x - c) (e i) = -V3.dot (x0 - c) (e i) + L * V3.dot d (e i) ∧
    0 ≤ V3.dot (x - c) (e i) * V3.dot d (e i)
  other : ∀ i ∉ S, V3.dot d (e i) = V3.dot d0 (e i) ∧ V3.dot (x - c) (e i) = V3.dot (x0 - c) (e i) + L * V3.dot d (e i)

theorem Cornered.step {e : Fin 3 → V3 K} {c x0 d0 : V3 K} {S : Finset (Fin 3)} {L : K} {x d : V3 K}
    (h : Cornered e c x0 d0 S L x d) (he : ∀ i j, V3.dot (e i) (e j) = if i = j then 1 else 0) {j : Fin 3} {t : K} (ht : 0 < t)
    (hj : V3.dot d (e j) ≠ 0) (hp : V3.dot (x + t • d - c) (e j) = 0) :
    j ∉ S ∧ Cornered e c x0 d0 (insert j S) (L + t) (x + t • d) (turnedBy (e j) d) := by
  have hmove : ∀ i, V3.dot (x + t • d - c) (e i) = V3.dot (x - c) (e i) + t * V3.dot d (e i) := by
    intro i
    simp [V3.dot]
    ring
  have hturn : ∀ i, V3.dot (turnedBy (e j) d) (e i) = if i = j then -V3.dot d (e i) else V3.dot d (e i) := by
    intro i
    have : V3.dot (turnedBy (e j) d) (e i) = V3.dot d (e i) - 2 * V3.dot d (e j) * V3.dot (e j) (e i) := by
      unfold turnedBy
      simp [V3.dot]
      ring
    rw [this, he]
    by_cases hi : i = j
    · subst hi
      simp
      ring
    · rw [if_neg (fun a => hi a.symm), if_neg hi]
      ring
  have hsq : 0 < V3.dot d (e j) * V3.dot d (e j) := by
    rcases lt_or_gt_of_ne hj with hl | hl <;> nlinarith
  rw [hmove] at hp
  have hjS : j ∉ S := by
    intro hS
    have h3 := (h.met j hS).2.2
    have : V3.dot (x - c) (e j) = -(t * V3.dot d (e j)) := by linarith
    rw [this] at h3
    nlinarith
  refine ⟨hjS, ⟨by linarith [h.length], ?_, ?_⟩⟩
  · intro i hi
    rw [hmove, hturn]
    by_cases hij : i = j
    · subst hij
      rw [if_pos rfl, hp]
      obtain ⟨h1, h2⟩ := h.other i hjS
      refine ⟨by rw [h1], ?_, by simp⟩
      rw [h2] at hp
      linarith
    · rw [if_neg hij]
      obtain ⟨h1, h2, h3⟩ := h.met i ((Finset.mem_insert.1 hi).resolve_left hij)
      refine ⟨h1, by rw [h2]; ring, ?_⟩
      nlinarith [mul_self_nonneg (V3.dot d (e i))]
  · intro i hi
    rw [Finset.mem_insert, not_or] at hi
    rw [hmove, hturn, if_neg hi.1]
    obtain ⟨h1, h2⟩ := h.other i hi.2
    exact ⟨h1, by rw [h2]; ring⟩

section
variable {c e1 e2 e3 : V3 K} (hperp : Perpendicular e1 e2 e3) (hpl : ∀ o ∈ objs, o.Plain)
  (hfl : AllSurfs (fun s => FlatMirrorIn ⟨c, e1⟩ s ∨ FlatMirrorIn ⟨c, e2⟩ s ∨ FlatMirrorIn ⟨c, e3⟩ s) objs)
  (h : rayTracer objs w b reps minE true = .ok res)
include hperp hpl hfl h

theorem corner_cornered {k : Nat} {r : Ray K E} (hr : r ∈ (res.tree[k]?).getD []) :
    ∃ p ∈ b, ∃ S : Finset (Fin 3), S.card = k ∧ ∃ L, Cornered ![e1, e2, e3] c p.vertex p.dir S L r.vertex r.dir := by
  obtain ⟨h11, h22, h33, h12, h13, h23⟩ := hperp
  have hcomm : ∀ x y : V3 K, V3.dot x y = V3.dot y x := by
    intro x y
    simp [V3.dot]
    ring
  have he : ∀ i j, V3.dot (![e1, e2, e3] i) (![e1, e2, e3] j) = if i = j then 1 else 0 := by
    intro i j
    fin_cases i <;> fin_cases j <;> simp [h11, h22, h33, h12, h13, h23, hcomm e2 e1, hcomm e3 e1, hcomm e3 e2]
  have hsurf : ∀ s : Surf σ K E, (FlatMirrorIn ⟨c, e1⟩ s ∨ FlatMirrorIn ⟨c, e2⟩ s ∨ FlatMirrorIn ⟨c, e3⟩ s) →
      ∃ j : Fin 3, FlatMirrorIn ⟨c, ![e1, e2, e3] j⟩ s := by
    rintro s (hs | hs | hs)
    · exact ⟨0, hs⟩
    · exact ⟨1, hs⟩
    · exact ⟨2, hs⟩
  refine flat_induction (Q := fun k v d => ∃ p ∈ b, ∃ S : Finset (Fin 3), S.card = k ∧ ∃ L, Cornered ![e1, e2, e3] c p.vertex p.dir S L v d)
    hpl ?_ h ?_ ?_ hr
  · intro o ho s hs
    obtain ⟨j, hj⟩ := hsurf s (hfl o ho s hs)
    exact hj.flat (by simpa using he j j)
  · intro p hp
    refine ⟨p, hp, ∅, rfl, 0, le_refl _, by simp, fun i _ => ⟨rfl, by ring⟩⟩
  · rintro k r ⟨p, hp, S, hS, L, hc⟩ o ho s hs t ht hpos q hq
    obtain ⟨j, hj⟩ := hsurf s (hfl o ho s hs)
    obtain ⟨a1, a2, a3, a4⟩ := hj.child ht hq
    obtain ⟨hjS, hc'⟩ := hc.step he hpos a3 a4
    refine ⟨p, hp, insert j S, by rw [Finset.card_insert_of_notMem hjS, hS], L + t, ?_⟩
    rw [a1, a2]
    exact hc'

/-- **C89, the corner, 1.** Among any number of mirrors that lie in three perpendicular planes no ray is reflected more than three
times, however many iterations are asked for. -/
theorem C89_corner_ends {k : Nat} (hk : 3 < k) : (res.tree[k]?).getD [] = [] := by
  refine List.eq_nil_iff_forall_not_mem.2 fun r hr => ?_
  obtain ⟨p, -, S, hS, -⟩ := corner_cornered hperp hpl hfl h hr
  have := Finset.card_le_univ S
  simp at this
  omega

/-- **C89, the corner, 2.** A ray reflected three times goes back parallel to the source ray it came from, as if it came from that
ray's vertex reflected in the corner point. -/
theorem C89_corner {r : Ray K E} (hr : r ∈ (res.tree[3]?).getD []) :
    ∃ p ∈ b, r.dir = -p.dir ∧ ∃ L : K, 0 ≤ L ∧ r.vertex = c - (p.vertex - c) + L • r.dir := by
  obtain ⟨p, hp, S, hS, L, hc⟩ := corner_cornered hperp hpl hfl h hr
  have hall : S = Finset.univ := by
    refine (Finset.card_eq_iff_eq_univ S).1 ?_
    simp [hS]
  subst hall
  have m0 := hc.met 0 (Finset.mem_univ _)
  have m1 := hc.met 1 (Finset.mem_univ _)
  have m2 := hc.met 2 (Finset.mem_univ _)
  simp only [Matrix.cons_val] at m0 m1 m2
  have hd : r.dir = -p.dir := by
    have hneg : ∀ x : V3 K, V3.dot (-p.dir) x = -V3.dot p.dir x := by
      intro x
      simp [V3.dot]
      ring
    refine hperp.ext ?_ ?_ ?_ <;> rw [hneg]
    · exact m0.1
    · exact m1.1
    · exact m2.1
  refine ⟨p, hp, hd, L, hc.length, ?_⟩
  have hexp : ∀ x : V3 K, V3.dot (c - (p.vertex - c) + L • r.dir) x = V3.dot c x + (-V3.dot (p.vertex - c) x + L * V3.dot r.dir x) := by
    intro x
    simp [V3.dot]
    ring
  have hexp2 : ∀ x : V3 K, V3.dot r.vertex x = V3.dot c x + V3.dot (r.vertex - c) x := by
    intro x
    simp [V3.dot]
    ring
  refine hperp.ext ?_ ?_ ?_ <;> rw [hexp, hexp2]
  · rw [m0.2.1]
  · rw [m1.2.1]
  · rw [m2.2.1]

end

/-! ### Two mirrors -/

/-- **C89, two mirrors.** Among mirrors in two planes, a ray in the plane of their normals is turned by two reflections by twice the
angle between them (`2 cos² θ - 1 = cos 2θ`), whatever its direction and wherever it meets them. -/
theorem C89_two_mirrors {c1 c2 m1 m2 : V3 K} (hm1 : V3.dot m1 m1 = 1) (hm2 : V3.dot m2 m2 = 1) (hpl : ∀ o ∈ objs, o.Plain)
    (hfl : AllSurfs (fun s => FlatMirrorIn ⟨c1, m1⟩ s ∨ FlatMirrorIn ⟨c2, m2⟩ s) objs)
    (h : rayTracer objs w b reps minE true = .ok res)
    (hb : ∀ p ∈ b, V3.dot p.dir p.dir = 1 ∧ ∃ x y : K, p.dir = x • m1 + y • m2)
    {r : Ray K E} (hr : r ∈ (res.tree[2]?).getD []) :
    ∃ p ∈ b, V3.dot r.dir p.dir = 2 * V3.dot m1 m2 ^ 2 - 1 := by
  have hsame : ∀ {c m x d : V3 K} {t : K}, 0 < t → V3.dot (x - c) m = 0 → V3.dot (x + t • d - c) m = 0 → V3.dot d m = 0 := by
    intro c m x d t ht h1 h2
    have : V3.dot (x + t • d - c) m = V3.dot (x - c) m + t * V3.dot d m := by
      simp [V3.dot]
      ring
    rw [this, h1, zero_add] at h2
    exact (mul_eq_zero.1 h2).resolve_left ht.ne'
  have hQ := flat_induction (Q := fun k v d => (k = 0 → ∃ p ∈ b, d = p.dir) ∧
      (k = 1 → ∃ p ∈ b, (d = turnedBy m1 p.dir ∧ V3.dot (v - c1) m1 = 0) ∨ (d = turnedBy m2 p.dir ∧ V3.dot (v - c2) m2 = 0)) ∧
      (k = 2 → ∃ p ∈ b, d = turnedBy m2 (turnedBy m1 p.dir) ∨ d = turnedBy m1 (turnedBy m2 p.dir)))
    hpl ?_ h ?_ ?_ hr
  · obtain ⟨p, hp, hd⟩ := hQ.2.2 rfl
    refine ⟨p, hp, ?_⟩
    obtain ⟨hu, x, y, hxy⟩ := hb p hp
    have e11 : V3.dot p.dir m1 = x + y * V3.dot m1 m2 := by
      have : V3.dot p.dir m1 = x * V3.dot m1 m1 + y * V3.dot m1 m2 := by
        rw [hxy]
        simp [V3.dot]
        ring
      rw [this, hm1, mul_one]
    have e22 : V3.dot p.dir m2 = x * V3.dot m1 m2 + y := by
      have : V3.dot p.dir m2 = x * V3.dot m1 m2 + y * V3.dot m2 m2 := by
        rw [hxy]
        simp [V3.dot]
        ring
      rw [this, hm2, mul_one]
    have e1 : x ^ 2 + 2 * x * y * V3.dot m1 m2 + y ^ 2 = 1 := by
      have : V3.dot p.dir p.dir = x * V3.dot p.dir m1 + y * V3.dot p.dir m2 := by
        conv_lhs => rw [hxy]
        conv_rhs => rw [hxy]
        simp [V3.dot]
        ring
      rw [e11, e22, hu] at this
      linarith
    have hform : ∀ a b : V3 K, V3.dot a a = 1 → V3.dot (turnedBy b (turnedBy a p.dir)) p.dir =
        V3.dot p.dir p.dir - 2 * V3.dot p.dir a ^ 2 - 2 * V3.dot p.dir b ^ 2 + 4 * V3.dot p.dir a * V3.dot p.dir b * V3.dot a b := by
      intro a b _
      unfold turnedBy
      simp [V3.dot]
      ring
    have hcomm : V3.dot m2 m1 = V3.dot m1 m2 := by
      simp [V3.dot]
      ring
    rcases hd with e | e
    · rw [e, hform _ _ hm1, hu, e11, e22]
      linear_combination (2 * V3.dot m1 m2 ^ 2 - 2) * e1
    · rw [e, hform _ _ hm2, hu, e11, e22, hcomm]
      linear_combination (2 * V3.dot m1 m2 ^ 2 - 2) * e1
  · intro o ho s hs
    rcases hfl o ho s hs with hs | hs
    · exact hs.flat hm1
    · exact hs.flat hm2
  · exact fun p hp => ⟨fun _ => ⟨p, hp, rfl⟩, by simp, by simp⟩
  · rintro k r ⟨h0, h1, h2⟩ o ho s hs t ht hpos q hq
    refine ⟨by simp, fun hk => ?_, fun hk => ?_⟩
    · obtain ⟨p, hp, e⟩ := h0 (by omega)
      refine ⟨p, hp, ?_⟩
      rcases hfl o ho s hs with hs | hs
      · obtain ⟨a1, a2, a3, a4⟩ := hs.child ht hq
        exact Or.inl ⟨by rw [a2, e], by rw [a1]; exact a4⟩
      · obtain ⟨a1, a2, a3, a4⟩ := hs.child ht hq
        exact Or.inr ⟨by rw [a2, e], by rw [a1]; exact a4⟩
    · obtain ⟨p, hp, e⟩ := h1 (by omega)
      refine ⟨p, hp, ?_⟩
      rcases hfl o ho s hs with hs | hs
      · obtain ⟨a1, a2, a3, a4⟩ := hs.child ht hq
        rcases e with ⟨e, hon⟩ | ⟨e, hon⟩
        · exact absurd (hsame hpos hon a4) a3
        · exact Or.inr (by rw [a2, e])
      · obtain ⟨a1, a2, a3, a4⟩ := hs.child ht hq
        rcases e with ⟨e, hon⟩ | ⟨e, hon⟩
        · exact Or.inl (by rw [a2, e])
        · exact absurd (hsame hpos hon a4) a3

/-! ### The hypotheses can be met -/

namespace Examples

/-- The plane x = 0. -/
def wallX : Tf ℚ := ⟨⟨⟨0, 1, 0⟩, ⟨0, 0, 1⟩, ⟨1, 0, 0⟩⟩, ⟨0, 1, 1⟩⟩

/-- The plane y = 0, from its other side. -/
def wallY : Tf ℚ := ⟨⟨⟨1, 0, 0⟩, ⟨0, 0, 1⟩, ⟨0, -1, 0⟩⟩, ⟨5, 0, 2⟩⟩

/-- A corner: the floor, a wall (half of whose light is lost), and a triangle standing on the other wall. -/
def cornerScene : List (Obj Unit ℚ Unit) :=
  [⟨[mkSurf flatGM (reflective 0) 1], Obj.defaultOwn, Obj.defaultNext 1⟩,
   ⟨[mkSurf flatGM (reflective (1/2)) wallX, mkSurf (triangularFace ⟨9, 0, 0⟩ ⟨0, 9, 0⟩) (reflective 0) ⟨wallY.rot, ⟨0, 0, 0⟩⟩],
     Obj.defaultOwn, Obj.defaultNext 2⟩]

def cornerRay : Ray ℚ Unit := ⟨⟨3, 1, 2⟩, ⟨-6/7, -3/7, -2/7⟩, 1, 0, none, ()⟩

theorem cornerScene_plain : ∀ o ∈ cornerScene, o.Plain := by
  intro o ho
  simp only [cornerScene, List.mem_cons, List.not_mem_nil, or_false] at ho
  rcases ho with rfl | rfl <;> exact ⟨rfl, Or.inl rfl⟩

theorem cornerScene_mirrors : AllSurfs (fun s => FlatMirrorIn ⟨⟨0, 0, 0⟩, ⟨1, 0, 0⟩⟩ s ∨ FlatMirrorIn ⟨⟨0, 0, 0⟩, ⟨0, 1, 0⟩⟩ s ∨
    FlatMirrorIn ⟨⟨0, 0, 0⟩, ⟨0, 0, 1⟩⟩ s) cornerScene := by
  intro o ho s hs
  simp only [cornerScene, List.mem_cons, List.not_mem_nil, or_false] at ho
  rcases ho with rfl | rfl <;> simp only [List.mem_cons, List.not_mem_nil, or_false] at hs
  · subst hs
    exact Or.inr (Or.inr ⟨_, _, _, rfl, .flat, .mirror _, Or.inl rfl, by decide +kernel⟩)
  · rcases hs with rfl | rfl
    · exact Or.inl ⟨_, _, _, rfl, .flat, .mirror _, Or.inl rfl, by decide +kernel⟩
    · exact Or.inr (Or.inl ⟨_, _, _, rfl, .triangle _ _, .mirror _, Or.inr (by decide +kernel), by decide +kernel⟩)

theorem axes : Perpendicular (⟨1, 0, 0⟩ : V3 ℚ) ⟨0, 1, 0⟩ ⟨0, 0, 1⟩ := by
  unfold Perpendicular
  decide +kernel

/-- Two mirrors at an angle whose cosine is 4/5. -/
def wedgeScene : List (Obj Unit ℚ Unit) :=
  [⟨[mkSurf flatGM (reflective 0) 1], Obj.defaultOwn, Obj.defaultNext 1⟩,
   ⟨[mkSurf flatGM (reflective 0) ⟨⟨⟨0, 1, 0⟩, ⟨-4/5, 0, 3/5⟩, ⟨3/5, 0, 4/5⟩⟩, ⟨0, 0, 0⟩⟩], Obj.defaultOwn, Obj.defaultNext 1⟩]

def wedgeRay : Ray ℚ Unit := ⟨⟨-2, 7, 1/5⟩, ⟨-5/13, 0, -12/13⟩, 1, 0, none, ()⟩

theorem wedgeScene_plain : ∀ o ∈ wedgeScene, o.Plain := by
  intro o ho
  simp only [wedgeScene, List.mem_cons, List.not_mem_nil, or_false] at ho
  rcases ho with rfl | rfl <;> exact ⟨rfl, Or.inl rfl⟩

theorem wedgeScene_mirrors : AllSurfs (fun s => FlatMirrorIn ⟨⟨1, 1, 0⟩, ⟨0, 0, 1⟩⟩ s ∨ FlatMirrorIn ⟨⟨0, 0, 0⟩, ⟨3/5, 0, 4/5⟩⟩ s) wedgeScene := by
  intro o ho s hs
  simp only [wedgeScene, List.mem_cons, List.not_mem_nil, or_false] at ho
  rcases ho with rfl | rfl <;> simp only [List.mem_cons, List.not_mem_nil, or_false] at hs <;> subst hs
  · exact Or.inl ⟨_, _, _, rfl, .flat, .mirror _, Or.inl rfl, by decide +kernel⟩
  · exact Or.inr ⟨_, _, _, rfl, .flat, .mirror _, Or.inl rfl, by decide +kernel⟩

end Examples

/-- A ray into the corner comes back: three reflections, then nothing more in ten iterations. -/
example : ∃ res, rayTracer Examples.cornerScene () [Examples.cornerRay] 10 0 true = .ok res ∧ res.tree.map List.length = [1, 1, 1, 1] ∧
    (∀ k, 3 < k → (res.tree[k]?).getD [] = []) ∧
    ∀ r ∈ (res.tree[3]?).getD [], r.dir = ⟨6/7, 3/7, 2/7⟩ ∧ ∃ L : ℚ, r.vertex = ⟨-3 + L * (6/7), -1 + L * (3/7), -2 + L * (2/7)⟩ := by
  obtain ⟨res, h, hl⟩ := Examples.exists_trace (objs := Examples.cornerScene) (b := [Examples.cornerRay]) (reps := 10) (minE := 0)
    (n := [1, 1, 1, 1]) (by decide +kernel)
  refine ⟨res, h, hl, fun k hk => C89_corner_ends Examples.axes Examples.cornerScene_plain Examples.cornerScene_mirrors h hk, ?_⟩
  intro r hr
  obtain ⟨p, hp, hd, L, -, hv⟩ := C89_corner Examples.axes Examples.cornerScene_plain Examples.cornerScene_mirrors h hr
  obtain rfl := List.mem_singleton.1 hp
  have hd' : r.dir = ⟨6/7, 3/7, 2/7⟩ := by
    rw [hd]
    decide +kernel
  refine ⟨hd', L, ?_⟩
  rw [hv, hd']
  apply V3.ext <;> simp [Examples.cornerRay] <;> norm_num

/-- ... and each recorded ray comes from an image of the source. -/
example : ∃ res, rayTracer Examples.cornerScene () [Examples.cornerRay] 10 0 true = .ok res ∧ res.tree.map List.length = [1, 1, 1, 1] ∧
    ∀ r ∈ (res.tree[2]?).getD [], ∃ planes : List (Plane ℚ), planes.length = 2 ∧ (∀ P ∈ planes, HasMirror Examples.cornerScene P) ∧
      r.dir = turnedAfter planes ⟨-6/7, -3/7, -2/7⟩ ∧ ∃ L : ℚ, 0 ≤ L ∧ r.vertex = imageAfter planes ⟨3, 1, 2⟩ + L • r.dir := by
  obtain ⟨res, h, hl⟩ := Examples.exists_trace (objs := Examples.cornerScene) (b := [Examples.cornerRay]) (reps := 10) (minE := 0)
    (n := [1, 1, 1, 1]) (by decide +kernel)
  refine ⟨res, h, hl, fun r hr => ?_⟩
  obtain ⟨p, hp, hex⟩ := C89_images Examples.cornerScene_plain (fun o ho s hs => by
    rcases Examples.cornerScene_mirrors o ho s hs with h | h | h <;> exact h.flat (by decide +kernel)) h hr
  obtain rfl := List.mem_singleton.1 hp
  exact hex

/-- Mirrors at an angle of cosine 4/5 turn a ray by an angle of cosine 7/25. -/
example : ∃ res, rayTracer Examples.wedgeScene () [Examples.wedgeRay] 2 0 true = .ok res ∧ res.tree.map List.length = [1, 1, 1] ∧
    ∀ r ∈ (res.tree[2]?).getD [], V3.dot r.dir (⟨-5/13, 0, -12/13⟩ : V3 ℚ) = (7/25 : ℚ) := by
  obtain ⟨res, h, hl⟩ := Examples.exists_trace (objs := Examples.wedgeScene) (b := [Examples.wedgeRay]) (reps := 2) (minE := 0)
    (n := [1, 1, 1]) (by decide +kernel)
  refine ⟨res, h, hl, fun r hr => ?_⟩
  obtain ⟨p, hp, he⟩ := C89_two_mirrors (m1 := ⟨0, 0, 1⟩) (m2 := ⟨3/5, 0, 4/5⟩) (by decide +kernel) (by decide +kernel)
    Examples.wedgeScene_plain Examples.wedgeScene_mirrors h (fun p hp => by
      obtain rfl := List.mem_singleton.1 hp
      exact ⟨by decide +kernel, -16/39, -25/39, by decide +kernel⟩) hr
  obtain rfl := List.mem_singleton.1 hp
  rw [show Examples.wedgeRay.dir = ⟨-5/13, 0, -12/13⟩ from rfl] at he
  rw [he]
  decide +kernel

end Tracer
