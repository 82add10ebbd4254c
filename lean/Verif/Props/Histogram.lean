import Verif.Model.Histogram
import Verif.Spec.Histogram
import Verif.Props.Balance
import Verif.Props.Collectors
import Verif.Props.Spatial
import Verif.Props.Progress
import Mathlib.Tactic.FieldSimp
import Mathlib.Tactic.Linarith
import Mathlib.Tactic.Ring

/-! C76: `histogram_hits`. -/

namespace Tracer

set_option linter.unusedSectionVars false

section
variable {K E σ : Type _} [Field K] [LinearOrder K] [IsStrictOrderedRing K]

theorem part_le {n : Nat} (hn : 0 < n) {r : K} (hr : 0 < r) {i j : Nat} :
    -r + (i : K) * (2 * r / n) ≤ -r + (j : K) * (2 * r / n) ↔ i ≤ j := by
  have hh : 0 < 2 * r / (n : K) := by
    have : (0 : K) < n := Nat.cast_pos.2 hn
    positivity
  rw [add_le_add_iff_left, mul_le_mul_iff_left₀ hh, Nat.cast_le]

theorem last_edge {n : Nat} (hn : 0 < n) (r : K) : -r + (n : K) * (2 * r / n) = r := by
  have : (n : K) ≠ 0 := Nat.cast_ne_zero.2 hn.ne'
  field_simp
  ring

theorem range_filter_le (n i : Nat) (h : i < n) : ((List.range n).filter fun j => decide (j ≤ i)).length = i + 1 := by
  induction n with
  | zero => omega
  | succ n ih =>
    rw [List.range_succ, List.filter_append, List.length_append]
    rcases Nat.lt_or_ge i n with hi | hi
    · rw [ih hi, List.filter_cons_of_neg (by simpa using hi)]
      simp
    · have : i = n := by omega
      subst this
      rw [List.filter_eq_self.2 (fun a ha => by simpa using (List.mem_range.1 ha).le)]
      simp

/-- The bin the code puts a value into. -/
theorem binOf_iff {n : Nat} (hn : 0 < n) {r : K} (hr : 0 < r) (x : K) (i : Nat) :
    binOf n r x = some i ↔ i < n ∧ InPart n r i x := by
  have hcount : ∀ k : Nat, k ≤ n → -r + (k : K) * (2 * r / n) ≤ x → (k = n ∨ x < -r + ((k + 1 : Nat) : K) * (2 * r / n)) →
      ((binEdges n r).filter fun e => decide (e ≤ x)).length = k + 1 := by
    intro k hk h1 h2
    unfold binEdges
    rw [List.filter_map, List.length_map]
    rw [← range_filter_le (n + 1) k (by omega)]
    congr 1
    apply List.filter_congr
    intro j hj
    have hj := List.mem_range.1 hj
    simp only [Function.comp, decide_eq_decide]
    rw [show (r - -r) / (n : K) = 2 * r / n by ring]
    constructor
    · intro h
      rcases h2 with rfl | h2
      · omega
      · have := lt_of_le_of_lt h h2
        by_contra hc
        push Not at hc
        exact absurd this (not_lt.2 ((part_le hn hr).2 (by omega)))
    · intro h
      exact le_trans ((part_le hn hr).2 h) h1
  have hlow : x < -r → ((binEdges n r).filter fun e => decide (e ≤ x)).length = 0 := by
    intro hx
    rw [List.length_eq_zero_iff, List.filter_eq_nil_iff]
    intro e he
    unfold binEdges at he
    obtain ⟨j, _, rfl⟩ := List.mem_map.1 he
    rw [show (r - -r) / (n : K) = 2 * r / n by ring]
    have h0 : -r + ((0 : Nat) : K) * (2 * r / n) ≤ -r + (j : K) * (2 * r / n) := (part_le hn hr).2 (Nat.zero_le _)
    simp only [decide_eq_true_eq, not_le]
    simp only [Nat.cast_zero, zero_mul, add_zero] at h0
    exact lt_of_lt_of_le hx h0
  have hlast := last_edge hn r
  -- the cell of a value in the range
  have hex : -r ≤ x → x < r → ∃ k < n, -r + (k : K) * (2 * r / n) ≤ x ∧ x < -r + ((k + 1 : Nat) : K) * (2 * r / n) := by
    intro h1 h2
    have hP0 : -r + ((0 : Nat) : K) * (2 * r / n) ≤ x := by simpa using h1
    have hfin : ∃ k, x < -r + ((k + 1 : Nat) : K) * (2 * r / n) :=
      ⟨n - 1, by rw [Nat.sub_add_cancel hn, hlast]; exact h2⟩
    classical
    refine ⟨Nat.find hfin, ?_, ?_, Nat.find_spec hfin⟩
    · have : Nat.find hfin ≤ n - 1 := Nat.find_min' hfin (by rw [Nat.sub_add_cancel hn, hlast]; exact h2)
      omega
    · rcases Nat.eq_zero_or_pos (Nat.find hfin) with h0 | h0
      · rw [h0]; exact hP0
      · have := Nat.find_min hfin (m := Nat.find hfin - 1) (by omega)
        rw [Nat.sub_add_cancel h0] at this
        exact not_lt.1 this
  have huniq : ∀ {k : Nat}, -r + (k : K) * (2 * r / n) ≤ x → x < -r + ((k + 1 : Nat) : K) * (2 * r / n) →
      ∀ {i : Nat}, -r + (i : K) * (2 * r / n) ≤ x → x < -r + ((i + 1 : Nat) : K) * (2 * r / n) → i = k := by
    intro k a1 a2 i b1 b2
    have c1 : ¬ (k + 1 ≤ i) := fun hc => absurd (lt_of_le_of_lt b1 a2) (not_lt.2 ((part_le hn hr).2 hc))
    have c2 : ¬ (i + 1 ≤ k) := fun hc => absurd (lt_of_le_of_lt a1 b2) (not_lt.2 ((part_le hn hr).2 hc))
    omega
  unfold binOf InPart
  simp only
  have hcast : ((i : K) + 1) = ((i + 1 : Nat) : K) := by push_cast; rfl
  rw [hcast]
  rcases lt_or_ge x (-r) with hx | hx
  · have hxr : x ≠ r := by intro h; linarith
    rw [if_neg hxr, hlow hx, if_pos rfl]
    constructor
    · intro h; cases h
    · rintro ⟨_, h, _⟩
      have h0 : -r + ((0 : Nat) : K) * (2 * r / n) ≤ -r + (i : K) * (2 * r / n) := (part_le hn hr).2 (Nat.zero_le _)
      simp only [Nat.cast_zero, zero_mul, add_zero] at h0
      linarith
  rcases lt_trichotomy x r with hx2 | hx2 | hx2
  · obtain ⟨k, hk, h1, h2⟩ := hex hx hx2
    rw [if_neg hx2.ne, hcount k hk.le h1 (Or.inr h2), if_neg (by omega), if_neg (by omega)]
    simp only [Nat.add_sub_cancel, Option.some.injEq]
    constructor
    · rintro rfl
      exact ⟨hk, h1, Or.inl h2⟩
    · rintro ⟨_, b1, b2 | b2⟩
      · exact (huniq h1 h2 b1 b2).symm
      · exact absurd b2.2 hx2.ne
  · rw [if_pos hx2, hcount n le_rfl (by rw [hlast, hx2]) (Or.inl rfl), if_neg (by omega), if_neg (by omega)]
    simp only [Nat.add_sub_cancel, Option.some.injEq]
    constructor
    · intro h
      refine ⟨by omega, ?_, Or.inr ⟨by omega, hx2⟩⟩
      rw [hx2]
      conv_rhs => rw [← hlast]
      exact (part_le hn hr).2 (by omega)
    · rintro ⟨hi, _, b | b⟩
      · have : -r + ((i + 1 : Nat) : K) * (2 * r / n) ≤ -r + (n : K) * (2 * r / n) := (part_le hn hr).2 (by omega)
        rw [hlast] at this
        linarith
      · omega
  · rw [if_neg hx2.ne', hcount n le_rfl (by rw [hlast]; exact hx2.le) (Or.inl rfl), if_neg (by omega), if_pos rfl]
    constructor
    · intro h; cases h
    · rintro ⟨hi, _, b | b⟩
      · have : -r + ((i + 1 : Nat) : K) * (2 * r / n) ≤ -r + (n : K) * (2 * r / n) := (part_le hn hr).2 (by omega)
        rw [hlast] at this
        linarith
      · linarith [b.2]

/-- C76: the parts of the interval share no point, and every point of the interval is in one of them. -/
theorem C76_parts {n : Nat} (hn : 0 < n) {r : K} (hr : 0 < r) (x : K) :
    (|x| ≤ r → ∃ i < n, InPart n r i x) ∧ (¬ |x| ≤ r → ∀ i < n, ¬ InPart n r i x) ∧
    ∀ i < n, ∀ j < n, InPart n r i x → InPart n r j x → i = j := by
  have hlast := last_edge hn r
  refine ⟨?_, ?_, ?_⟩
  · intro hx
    have hx' := abs_le.1 hx
    have hnn : (n : K) ≠ 0 := Nat.cast_ne_zero.2 hn.ne'
    by_cases hxr : x = r
    · refine ⟨n - 1, by omega, ?_, Or.inr ⟨by omega, hxr⟩⟩
      rw [hxr]
      conv_rhs => rw [← hlast]
      exact (part_le hn hr).2 (by omega)
    · have hlt : x < r := lt_of_le_of_ne hx'.2 hxr
      have hfin : ∃ k, x < -r + ((k + 1 : Nat) : K) * (2 * r / n) :=
        ⟨n - 1, by rw [Nat.sub_add_cancel hn, hlast]; exact hlt⟩
      classical
      refine ⟨Nat.find hfin, ?_, ?_, Or.inl ?_⟩
      · have : Nat.find hfin ≤ n - 1 := Nat.find_min' hfin (by rw [Nat.sub_add_cancel hn, hlast]; exact hlt)
        omega
      · rcases Nat.eq_zero_or_pos (Nat.find hfin) with h0 | h0
        · rw [h0]; simpa using hx'.1
        · have := Nat.find_min hfin (m := Nat.find hfin - 1) (by omega)
          rw [Nat.sub_add_cancel h0] at this
          exact not_lt.1 this
      · have := Nat.find_spec hfin
        rwa [Nat.cast_add, Nat.cast_one] at this
  · intro hx i hi h
    apply hx
    rw [abs_le]
    constructor
    · have h0 : -r + ((0 : Nat) : K) * (2 * r / n) ≤ -r + (i : K) * (2 * r / n) := (part_le hn hr).2 (Nat.zero_le _)
      simp only [Nat.cast_zero, zero_mul, add_zero] at h0
      exact le_trans h0 h.1
    · rcases h.2 with b | b
      · have : -r + ((i + 1 : Nat) : K) * (2 * r / n) ≤ -r + (n : K) * (2 * r / n) := (part_le hn hr).2 (by omega)
        rw [hlast] at this
        push_cast at this
        linarith
      · exact b.2.le
  · intro i hi j hj h1 h2
    have a := (binOf_iff hn hr x i).2 ⟨hi, h1⟩
    have b := (binOf_iff hn hr x j).2 ⟨hj, h2⟩
    rw [a] at b
    exact Option.some.inj b

/-- C76: the returned edges are one more than the bins, equally spaced from one end of the range to the other. -/
theorem C76_edges {n : Nat} (hn : 0 < n) (r : K) : (binEdges n r).length = n + 1 ∧ (binEdges n r)[0]? = some (-r) ∧ (binEdges n r)[n]? = some r ∧
    ∀ i ≤ n, (binEdges n r)[i]? = some (-r + (i : K) * (2 * r / n)) := by
  have h : ∀ i ≤ n, (binEdges n r)[i]? = some (-r + (i : K) * (2 * r / n)) := by
    intro i hi
    unfold binEdges
    rw [List.getElem?_map, List.getElem?_range (by omega), Option.map_some, show (r - -r) / (n : K) = 2 * r / n by ring]
  refine ⟨by simp [binEdges], ?_, ?_, h⟩
  · rw [h 0 (by omega)]; simp
  · rw [h n le_rfl, last_edge hn]

open Classical in
/-- C76: the cell `(i, j)` of the histogram holds the energy recorded at points whose local coordinates are in the `i`-th part of the
width and the `j`-th part of the height. -/
theorem C76_cell {frame : Tf K} (hf : frame.rot.det ≠ 0) {w l : K} (hw : 0 < w) (hl : 0 < l) {bins : Nat} (hb : 0 < bins) {acc : Account K}
    {energy : List K} {pts : List (V3 K)} (h : acc.getAllHits = .ok (energy, pts)) :
    ∃ H, histogramHits frame (w, l) bins acc = .ok (H, binEdges bins (w / 2), binEdges bins (l / 2)) ∧
      H.length = bins ∧ (∀ row ∈ H, row.length = bins) ∧
      ∀ i < bins, ∀ j < bins, ∃ row, H[i]? = some row ∧ row[j]? = some
        (((List.zip (pts.map frame.inv.point) energy).filter fun p =>
          decide (InPart bins (w / 2) i p.1.x ∧ InPart bins (l / 2) j p.1.y)).map Prod.snd).sum := by
  unfold histogramHits
  rw [h]
  simp only [globalToLocal, if_neg hf, if_neg hb.ne']
  refine ⟨_, rfl, by simp [histogram2d], ?_, ?_⟩
  · intro row hr
    unfold histogram2d at hr
    obtain ⟨i, _, rfl⟩ := List.mem_map.1 hr
    simp
  · intro i hi j hj
    unfold histogram2d
    refine ⟨_, by rw [List.getElem?_map, List.getElem?_range hi]; rfl, ?_⟩
    rw [List.getElem?_map, List.getElem?_range hj]
    simp only [Option.map_some, Option.some.injEq]
    congr 1
    clear h
    induction pts generalizing energy with
    | nil => simp
    | cons p pts ih =>
      cases energy with
      | nil => simp
      | cons e energy =>
        simp only [List.map_cons, List.zipWith_cons_cons, List.zip_cons_cons, List.filter_cons]
        have hx : (decide (binOf bins (w / 2) (frame.inv.point p).x = some i) && decide (binOf bins (l / 2) (frame.inv.point p).y = some j)) =
            decide (InPart bins (w / 2) i (frame.inv.point p).x ∧ InPart bins (l / 2) j (frame.inv.point p).y) := by
          rw [← Bool.decide_and, decide_eq_decide, binOf_iff hb (half_pos hw), binOf_iff hb (half_pos hl)]
          exact ⟨fun h => ⟨h.1.2, h.2.2⟩, fun h => ⟨⟨hi, h.1⟩, hj, h.2⟩⟩
        rw [hx]
        split
        · rw [List.map_cons, List.map_cons, ih]
        · exact ih

theorem sum_indicator {n a : Nat} (ha : a < n) (e : K) : ((List.range n).map fun i => if a = i then e else 0).sum = e := by
  induction n with
  | zero => omega
  | succ n ih =>
    rw [List.range_succ, List.map_append, List.sum_append]
    rcases Nat.lt_or_ge a n with h | h
    · rw [ih h]
      simp [h.ne]
    · have hz : ((List.range n).map fun i => if a = i then e else 0).sum = 0 := by
        apply List.sum_eq_zero
        intro y hy
        obtain ⟨i, hi, rfl⟩ := List.mem_map.1 hy
        rw [if_neg (by have := List.mem_range.1 hi; omega)]
      rw [hz]
      simp [show a = n by omega]

theorem cellTotal_hist {bins : Nat} {rx ry : K} {pts : List (K × K × K)}
    (hp : ∀ p ∈ pts, (∃ i < bins, binOf bins rx p.1 = some i) ∧ ∃ j < bins, binOf bins ry p.2.1 = some j) :
    cellTotal (histogram2d bins rx ry pts) = (pts.map fun p => p.2.2).sum := by
  induction pts with
  | nil => simp [cellTotal, histogram2d]
  | cons p pts ih =>
    obtain ⟨⟨⟨i, hi, hi'⟩, j, hj, hj'⟩, hp⟩ := List.forall_mem_cons.1 hp
    rw [List.map_cons, List.sum_cons, ← ih hp]
    unfold cellTotal histogram2d
    rw [List.map_map, List.map_map]
    have key : ∀ i' j', ((((p :: pts).filter fun p => decide (binOf bins rx p.1 = some i') && decide (binOf bins ry p.2.1 = some j')).map
        fun p => p.2.2).sum) = (if i = i' then (if j = j' then p.2.2 else 0) else 0) +
        (((pts.filter fun p => decide (binOf bins rx p.1 = some i') && decide (binOf bins ry p.2.1 = some j')).map
        fun p => p.2.2).sum) := by
      intro i' j'
      rw [List.filter_cons, hi', hj']
      by_cases e1 : i = i' <;> by_cases e2 : j = j' <;> simp [e1, e2]
    have hrow : ∀ i', (((List.range bins).map fun j' => (((p :: pts).filter fun p => decide (binOf bins rx p.1 = some i') &&
        decide (binOf bins ry p.2.1 = some j')).map fun p => p.2.2).sum)).sum = (if i = i' then p.2.2 else 0) +
        (((List.range bins).map fun j' => ((pts.filter fun p => decide (binOf bins rx p.1 = some i') &&
        decide (binOf bins ry p.2.1 = some j')).map fun p => p.2.2).sum)).sum := by
      intro i'
      simp only [key]
      rw [List.sum_map_add]
      congr 1
      split
      · exact sum_indicator hj _
      · simp
    simp only [Function.comp_def, hrow]
    rw [List.sum_map_add, sum_indicator hi]

/-- C76: if every recorded point is on the plate, the cells sum up to the recorded energy. -/
theorem C76_total {frame : Tf K} (hf : frame.Rigid) {w l : K} (hw : 0 < w) (hl : 0 < l) {bins : Nat} (hb : 0 < bins) {acc : Account K}
    {energy : List K} {pts : List (V3 K)} (h : acc.getAllHits = .ok (energy, pts)) (hlen : energy.length = pts.length)
    (hp : ∀ p ∈ pts, Placed frame (rectXY w l) p) :
    ∃ H, histogramHits frame (w, l) bins acc = .ok (H, binEdges bins (w / 2), binEdges bins (l / 2)) ∧ cellTotal H = energy.sum := by
  have hdet := M3.IsRotation.det_ne hf
  unfold histogramHits
  rw [h]
  simp only [globalToLocal, if_neg hdet, if_neg hb.ne']
  refine ⟨_, rfl, ?_⟩
  rw [cellTotal_hist]
  · congr 1
    rw [List.map_zipWith]
    clear h hp
    induction pts generalizing energy with
    | nil =>
      have : energy = [] := List.length_eq_zero_iff.1 (by simpa using hlen)
      simp [this]
    | cons p pts ih =>
      cases energy with
      | nil => simp at hlen
      | cons e energy =>
        simp only [List.map_cons, List.zipWith_cons_cons]
        rw [ih (by simpa using hlen)]
  · intro q hq
    have hq' : ∃ p ∈ pts, q.1 = (frame.inv.point p).x ∧ q.2.1 = (frame.inv.point p).y := by
      clear h hp hlen
      induction pts generalizing energy with
      | nil => simp at hq
      | cons p pts ih =>
        cases energy with
        | nil => simp at hq
        | cons e energy =>
          simp only [List.map_cons, List.zipWith_cons_cons, List.mem_cons] at hq
          rcases hq with rfl | hq
          · exact ⟨p, List.mem_cons_self, rfl, rfl⟩
          · obtain ⟨p', hp', hh⟩ := ih hq
            exact ⟨p', List.mem_cons_of_mem _ hp', hh⟩
    obtain ⟨p, hpm, e1, e2⟩ := hq'
    obtain ⟨c, hc, rfl⟩ := hp p hpm
    rw [Tf.inv_point_point hdet] at e1 e2
    rw [e1, e2]
    obtain ⟨i, hi, hi'⟩ := (C76_parts hb (half_pos hw) c.x).1 hc.2.1
    obtain ⟨j, hj, hj'⟩ := (C76_parts hb (half_pos hl) c.y).1 hc.2.2
    exact ⟨⟨i, hi, (binOf_iff hb (half_pos hw) _ _).2 ⟨hi, hi'⟩⟩, j, hj, (binOf_iff hb (half_pos hl) _ _).2 ⟨hj, hj'⟩⟩

/-! ### After a trace -/

/-- A memory whose entries come in pairs, energy and point, the points in `S`, without empty calls. -/
def Account.PairedIn (S : V3 K → Prop) (acc : Account K) : Prop :=
  ∃ calls : List (List (K × V3 K)), (∀ c ∈ calls, c ≠ [] ∧ ∀ x ∈ c, S x.2) ∧
    acc = ⟨calls.map (List.map Prod.fst), calls.map (List.map Prod.snd)⟩

theorem reset_paired (S : V3 K → Prop) : (Account.reset : Account K).PairedIn S := ⟨[], by simp, rfl⟩

theorem paired_getAllHits {S : V3 K → Prop} {acc : Account K} (h : acc.PairedIn S) :
    ∃ energy pts, acc.getAllHits = .ok (energy, pts) ∧ energy.length = pts.length ∧ (∀ p ∈ pts, S p) ∧
      energy = acc.absorbed.flatten ∧ pts = acc.hits.flatten := by
  obtain ⟨calls, hc, rfl⟩ := h
  have hlen : (calls.map (List.map Prod.fst)).flatten.length = (calls.map (List.map Prod.snd)).flatten.length := by
    simp [List.length_flatten, Function.comp_def]
  have hS : ∀ p ∈ (calls.map (List.map Prod.snd)).flatten, S p := by
    intro p hp
    rw [List.mem_flatten] at hp
    obtain ⟨l, hl, hpl⟩ := hp
    obtain ⟨c, hcm, rfl⟩ := List.mem_map.1 hl
    obtain ⟨x, hx, rfl⟩ := List.mem_map.1 hpl
    exact (hc c hcm).2 x hx
  refine ⟨_, _, ?_, hlen, hS, rfl, rfl⟩
  rcases List.eq_nil_or_concat calls with rfl | ⟨cs, c, rfl⟩
  · rfl
  · have hcne := (hc c (by simp)).1
    have := readable_append (acc := ⟨cs.map (List.map Prod.fst), cs.map (List.map Prod.snd)⟩)
      (l := c.map Prod.fst) (l' := c.map Prod.snd) (by simpa using hcne) (by simpa using hcne)
    unfold Account.Readable at this
    simpa using this

/-- A call of a receiver on a rectangular plate. -/
theorem paired_call {get : σ → Account K} {set : Account K → σ → σ} (hgs : ∀ acc w, get (set acc w) = acc) {frame : Tf K}
    (hf : frame.Rigid) {w l : K} {g : Geometry K E} (hg : rectPlateGM w l = .ok g) {a : K} {opt : Optics σ K E}
    (hk : KeepsMemory get opt) {w1 w2 : σ} {rays : Bundle K E} {sel : List Nat} {out : Bundle K E} (hsel : sel ≠ [])
    (hout : (mkSurf g (accountant a get set opt) frame).outgoing w1 rays sel = .ok (out, w2))
    (h : (get w1).PairedIn (Placed frame (rectXY w l))) : (get w2).PairedIn (Placed frame (rectXY w l)) := by
  obtain ⟨recs, hr1, hr2⟩ := mkSurf_ok hout
  obtain ⟨hidx, hrec⟩ := hitRecs_ok hr1
  obtain ⟨calls, hc, hacc⟩ := h
  unfold accountant at hr2
  have hw := hk _ _ _ _ _ hr2
  refine ⟨calls ++ [recs.map fun h => (h.ray.energy * a, h.point)], ?_, ?_⟩
  · intro c hcm
    rcases List.mem_append.1 hcm with hcm | hcm
    · exact hc c hcm
    · rw [List.mem_singleton] at hcm
      subst hcm
      constructor
      · intro hnil
        have : recs = [] := by simpa using hnil
        rw [this] at hidx
        exact hsel hidx.symm
      · intro x hx
        obtain ⟨q, hq, rfl⟩ := List.mem_map.1 hx
        obtain ⟨hray, t, ht, hpt, _⟩ := hrec q hq
        obtain ⟨p, hp1, hp2, hp3⟩ := C31_rect_plate hf hg rays q.idx q.ray hray
        rw [ht] at hp1
        cases hp1
        have hpar : 1 / 10 ^ 10 < |V3.dot q.ray.dir frame.rot.c3| := by
          by_contra hc
          have := hp3 (not_lt.1 hc)
          cases this
        simp only
        rw [hpt]
        exact (hp2 hpar).2.1
  · rw [hw, hgs, hacc]
    simp [Function.comp_def]

variable {objs : List (Obj σ K E)} {w : σ} {b : Bundle K E} {reps : Nat} {minE : K} {res : TraceResult σ K E}

/-- C76: after any trace of any scene in which a memory, empty at the start, is written only by receivers on one rectangular plate, the
histogram of that plate can be made, with any positive number of bins, and its cells sum up to all that was recorded. -/
theorem C76_trace {get : σ → Account K} {set : Account K → σ → σ} (hgs : ∀ acc w, get (set acc w) = acc) {frame : Tf K} (hf : frame.Rigid)
    {x y : K} {g : Geometry K E} (hg : rectPlateGM x y = .ok g)
    (hs : AllSurfs (fun s => s.Ignores get ∨ ∃ (a : K) (opt : Optics σ K E),
      KeepsMemory get opt ∧ s = mkSurf g (accountant a get set opt) frame) objs)
    (h : rayTracer objs w b reps minE true = .ok res) (h0 : get w = Account.reset) {bins : Nat} (hb : 0 < bins) :
    ∃ H, histogramHits frame (x, y) bins (get res.world) = .ok (H, binEdges bins (x / 2), binEdges bins (y / 2)) ∧
      cellTotal H = (get res.world).absorbed.flatten.sum := by
  have hxy : 0 < x ∧ 0 < y := by
    by_contra hc
    have := (C31_constructor (K := K) (E := E) x y).2 (by
      by_contra h'
      push Not at h'
      exact hc h')
    rw [hg] at this
    cases this
  have hP : (get res.world).PairedIn (Placed frame (rectXY x y)) := by
    refine trace_inv (P := fun w => (get w).PairedIn (Placed frame (rectXY x y))) ?_ h (by rw [h0]; exact reset_paired _)
    intro o ho s hso w1 rays sel out w2 hsel hout h1
    rcases hs o ho s hso with hi | ⟨a, opt, hk, rfl⟩
    · rw [hi _ _ _ _ _ hout]; exact h1
    · exact paired_call hgs hf hg hk hsel hout h1
  obtain ⟨energy, pts, e1, e2, e3, e4, _⟩ := paired_getAllHits hP
  obtain ⟨H, h1, h2⟩ := C76_total hf hxy.1 hxy.2 hb e1 e2 e3
  exact ⟨H, h1, by rw [h2, e4]⟩

end

section Collector
open Real
variable {E σ : Type _}

theorem new_sub_set_getObjects {P Q : Type _} (objs : List (ObjNode ℝ P Q)) (sub : Asm ℝ P Q) (junk : M3 ℝ) (T : Tf ℝ) :
    ((Asm.new objs [sub] 0 1 junk).set (.transform T)).getObjects =
      (sub.transformChildren T).getObjects ++ objs.map (·.transformChildren T) := by
  unfold Asm.new Asm.set
  simp only [Asm.transformChildren, Asm.set, Change.apply, Asm.transformAll, Asm.getObjects, Asm.getObjectsAll,
    List.nil_append, List.append_nil, List.map_map, transform_twice, Tf.one_mul']
  congr 1
  apply List.map_congr_left
  intro o _
  simp only [Function.comp, obj_transform_twice]

theorem mirror_keeps (a : ℝ) (get : σ → Account ℝ) : KeepsMemory get (absorberReflector a : Optics σ ℝ E) := by
  intro w up hits out w' h
  simp only [absorberReflector, Except.ok.injEq, Prod.mk.injEq] at h
  rw [h.2]

theorem keeps_ignores {get : σ → Account ℝ} {g : Geometry ℝ E} {opt : Optics σ ℝ E} {frame : Tf ℝ} (h : KeepsMemory get opt) :
    (mkSurf g opt frame).Ignores get := by
  intro w rays sel out w' hout
  obtain ⟨recs, _, h2⟩ := mkSurf_ok hout
  exact h _ _ _ _ _ h2

/-- The objects of a collector that has been put somewhere. -/
theorem collector_objects (reflector : SceneSurf σ ℝ E) (pos : ℝ) {x y depth : ℝ} (hx : 0 < x) (hy : 0 < y) (hd : 0 < depth)
    (eff : ℝ) (get : σ → Account ℝ) (set : Account ℝ → σ → σ) (junk : M3 ℝ) (T : Tf ℝ) :
    ∃ a g, homogenizedLocalReceiver reflector pos (x, y) depth eff get set junk = .ok a ∧ rectPlateGM x y = .ok g ∧
      ∃ walls receiver refl, (a.set (.transform T)).getObjects = walls ++ [receiver, refl] ∧ walls.length = 4 ∧
        (∀ o ∈ walls, ∃ (own : Tf ℝ) (g' : Geometry ℝ E), own.Rigid ∧ (own.rot.c3.z = 0 ∧ ∃ W L, rectPlateGM W L = .ok g') ∧
          o.surfs = [⟨1, T * (translate 0 0 pos * rotx π) * own * 1, (g', absorberReflector (1 - eff))⟩] ∧
          o.data = (Obj.defaultOwn, Obj.skipNext 1)) ∧
        receiver.surfs = [⟨1, T * (translate 0 0 pos * rotx π) * 1, (g, reflectiveReceiver 1 get set)⟩,
          ⟨⟨1, ⟨0, 0, -(1 / 10 ^ 10)⟩⟩, T * (translate 0 0 pos * rotx π) * ⟨1, ⟨0, 0, -(1 / 10 ^ 10)⟩⟩, (g, reflective 1)⟩] ∧
        receiver.data = (Obj.defaultOwn, Obj.skipNext 2) ∧
        refl.surfs = [⟨reflector.own, T * 1 * reflector.own, reflector.data⟩] ∧
        refl.data = (Obj.defaultOwn, Obj.defaultNext 1) := by
  obtain ⟨g, hg⟩ := (C31_constructor (K := ℝ) (E := E) x y).1 ⟨hx, hy⟩
  obtain ⟨g1, hg1⟩ := (C31_constructor (K := ℝ) (E := E) depth y).1 ⟨hd, hy⟩
  obtain ⟨g2, hg2⟩ := (C31_constructor (K := ℝ) (E := E) x depth).1 ⟨hx, hd⟩
  have hm1 : (rectOneSidedMirror depth y (1 - eff) : Except Err (SceneObj σ ℝ E)) = .ok
      (ObjNode.new [Surface.new g1 (absorberReflector (1 - eff)) 1] 1 (Obj.defaultOwn, Obj.skipNext 1)) := by
    unfold rectOneSidedMirror; rw [hg1]
  have hm2 : (rectOneSidedMirror x depth (1 - eff) : Except Err (SceneObj σ ℝ E)) = .ok
      (ObjNode.new [Surface.new g2 (absorberReflector (1 - eff)) 1] 1 (Obj.defaultOwn, Obj.skipNext 1)) := by
    unfold rectOneSidedMirror; rw [hg2]
  have hrec : (oneSidedReceiver (σ := σ) (E := E) x y 1 get set) = .ok
      (Surface.new g (reflectiveReceiver 1 get set) 1,
        ObjNode.new [Surface.new g (reflectiveReceiver 1 get set) 1,
          Surface.new g (reflective 1) ⟨1, ⟨0, 0, -(1 / 10 ^ 10)⟩⟩] 1 (Obj.defaultOwn, Obj.skipNext 2)) := by
    unfold oneSidedReceiver; rw [hg]
  have rx := fun θ => (C26_rigid θ 0 0 0).1
  have ry := fun θ => (C26_rigid θ 0 0 0).2.1
  have rt := fun a b c => (C26_rigid 0 a b c).2.2.2.1
  have hhom : ∃ ms : List (SceneObj σ ℝ E), rectHomogenizer x y depth eff junk = .ok (Asm.new ms [] 0 1 junk) ∧
      ms.length = 4 ∧
      ∀ o ∈ ms, ∃ (own : Tf ℝ) (g' : Geometry ℝ E), own.Rigid ∧ (own.rot.c3.z = 0 ∧ ∃ W L, rectPlateGM W L = .ok g') ∧ ∀ F : Tf ℝ,
        (o.transformChildren F).surfs = [⟨1, F * own * 1, (g', absorberReflector (1 - eff))⟩] ∧
        o.data = (Obj.defaultOwn, Obj.skipNext 1) := by
    refine ⟨_, by unfold rectHomogenizer; simp only [hm1, hm2]; rfl, rfl, ?_⟩
    exact List.forall_mem_cons.2 ⟨⟨_, g1, (rt _ _ _).mul (ry _), ⟨by simp [translate, roty, neg_div], _, _, hg1⟩, fun F => ⟨rfl, rfl⟩⟩,
      List.forall_mem_cons.2 ⟨⟨_, g1, (rt _ _ _).mul (ry _), ⟨by simp [translate, roty, neg_div], _, _, hg1⟩, fun F => ⟨rfl, rfl⟩⟩,
      List.forall_mem_cons.2 ⟨⟨_, g2, (rt _ _ _).mul (rx _), ⟨by simp [translate, rotx, neg_div], _, _, hg2⟩, fun F => ⟨rfl, rfl⟩⟩,
      List.forall_mem_cons.2 ⟨⟨_, g2, (rt _ _ _).mul (rx _), ⟨by simp [translate, rotx, neg_div], _, _, hg2⟩, fun F => ⟨rfl, rfl⟩⟩, List.forall_mem_nil _⟩⟩⟩⟩
  obtain ⟨ms, hh, hlen, hms⟩ := hhom
  have hok : homogenizedLocalReceiver reflector pos (x, y) depth eff get set junk = .ok (Asm.new
      [((ObjNode.new [Surface.new g (reflectiveReceiver 1 get set) 1,
          Surface.new g (reflective 1) ⟨1, ⟨0, 0, -(1 / 10 ^ 10)⟩⟩] 1 (Obj.defaultOwn, Obj.skipNext 2) :
            SceneObj σ ℝ E).set (.transform (translate 0 0 pos * rotx π))),
        ObjNode.new [reflector] 1 (Obj.defaultOwn, Obj.defaultNext 1)]
      [(Asm.new ms [] 0 1 junk).set (.transform (translate 0 0 pos * rotx π))] 0 1 junk) := by
    unfold homogenizedLocalReceiver
    rw [hrec, hh]
  have hwalls : (((Asm.new ms [] 0 1 junk).set (.transform (translate 0 0 pos * rotx π))).transformChildren T).getObjects =
      ms.map (·.transformChildren (T * (translate 0 0 pos * rotx π))) := by
    unfold Asm.new Asm.set
    simp only [Asm.transformChildren, Asm.set, Change.apply, Asm.transformAll, Asm.getObjects, Asm.getObjectsAll,
      List.nil_append, List.map_map]
    apply List.map_congr_left
    intro o _
    simp only [Function.comp, obj_transform_twice]
  refine ⟨_, g, hok, hg, _, _, _, by rw [new_sub_set_getObjects, hwalls]; rfl, by rw [List.length_map, hlen], ?_, rfl, rfl, rfl, rfl⟩
  intro o ho
  obtain ⟨m, hm, rfl⟩ := List.mem_map.1 ho
  obtain ⟨own, g', h1, h2, h3⟩ := hms m hm
  exact ⟨own, g', h1, h2, (h3 _).1, (h3 1).2⟩

/-- C76: a collector with a homogenized receiver is put anywhere, among any objects that leave its receiver's memory alone, and light is
traced.  The histogram of its receiver can then be made, and its cells sum up to all the energy the receiver has written down. -/
theorem C76_collector (reflector : SceneSurf σ ℝ E) (pos : ℝ) {x y depth : ℝ} (hx : 0 < x) (hy : 0 < y) (hd : 0 < depth)
    (eff : ℝ) {get : σ → Account ℝ} {set : Account ℝ → σ → σ} (hgs : ∀ acc w, get (set acc w) = acc)
    (hrefl : KeepsMemory get reflector.data.2) (junk : M3 ℝ) {T : Tf ℝ} (hT : T.Rigid) :
    ∃ a, homogenizedLocalReceiver reflector pos (x, y) depth eff get set junk = .ok a ∧
      ∃ o ∈ (a.set (.transform T)).getObjects, ∃ receiver ∈ o.surfs, receiver.data.2 = reflectiveReceiver 1 get set ∧
        ∀ (others : List (Obj σ ℝ E)), AllSurfs (fun s => s.Ignores get) others →
        ∀ (w : σ) (b : Bundle ℝ E) (reps : Nat) (minE : ℝ) (res : TraceResult σ ℝ E), get w = Account.reset →
          rayTracer ((a.set (.transform T)).scene ++ others) w b reps minE true = .ok res →
          ∀ bins : Nat, 0 < bins → ∃ H,
            histogramHits receiver.temp (x, y) bins (get res.world) = .ok (H, binEdges bins (x / 2), binEdges bins (y / 2)) ∧
            cellTotal H = (get res.world).absorbed.flatten.sum := by
  obtain ⟨a, g, ha, hg, walls, rec, refl, ho, _, hw, hr, _, hl, _⟩ := collector_objects reflector pos hx hy hd eff get set junk T
  refine ⟨a, ha, rec, by rw [ho]; simp, ⟨1, T * (translate 0 0 pos * rotx π) * 1, (g, reflectiveReceiver 1 get set)⟩, by rw [hr]; simp, rfl, ?_⟩
  intro others hoth w b reps minE res h0 h bins hb
  refine C76_trace hgs ((hT.mul (receiverFrame_rigid pos)).mul Tf.Rigid.one) hg ?_ h h0 hb
  intro o' ho' s' hs'
  rcases List.mem_append.1 ho' with ho' | ho'
  · unfold Asm.scene at ho'
    obtain ⟨n, hn, rfl⟩ := List.mem_map.1 ho'
    obtain ⟨m, hm, rfl⟩ := List.mem_map.1 hs'
    rw [ho, List.mem_append] at hn
    rcases hn with hn | hn
    · obtain ⟨own, g', _, _, hsu, _⟩ := hw n hn
      rw [hsu, List.mem_singleton] at hm
      subst hm
      exact .inl (keeps_ignores (mirror_keeps _ _))
    · rw [List.mem_cons, List.mem_singleton] at hn
      rcases hn with rfl | rfl
      · rw [hr, List.mem_cons, List.mem_singleton] at hm
        rcases hm with rfl | rfl
        · exact .inr ⟨1, reflective 1, (C51_reflective _ _).1, rfl⟩
        · exact .inl (keeps_ignores (C51_reflective _ _).1)
      · rw [hl, List.mem_singleton] at hm
        subst hm
        exact .inl (keeps_ignores hrefl)
  · exact .inl (hoth o' ho' s' hs')

/-- The surfaces of a collector. -/
theorem collector_library (reflector : SceneSurf σ ℝ E) (hrg : PlainGeometry reflector.data.1) (hro : OpaqueOptics reflector.data.2)
    (hrf : reflector.own.Rigid) (pos : ℝ) {x y depth : ℝ} (hx : 0 < x) (hy : 0 < y) (hd : 0 < depth)
    (eff : ℝ) (get : σ → Account ℝ) (set : Account ℝ → σ → σ) (junk : M3 ℝ) {T : Tf ℝ} (hT : T.Rigid) :
    ∃ a, homogenizedLocalReceiver reflector pos (x, y) depth eff get set junk = .ok a ∧
      LibraryScene 1 2 (a.set (.transform T)) ∧
      (∀ o ∈ (a.set (.transform T)).getObjects, ∀ s ∈ o.surfs, PlainGeometry s.data.1) ∧
      ∀ o ∈ (a.set (.transform T)).getObjects, ∀ s ∈ o.surfs, OpaqueOptics s.data.2 := by
  obtain ⟨a, g, ha, hg, walls, rec, refl, ho, _, hw, hr, hrd, hl, hld⟩ := collector_objects reflector pos hx hy hd eff get set junk T
  have hF := hT.mul (receiverFrame_rigid pos)
  have hall : ∀ (P : SceneSurf σ ℝ E → Prop),
      (∀ (own : Tf ℝ) (g' : Geometry ℝ E), own.Rigid → PlainGeometry g' →
        P ⟨1, T * (translate 0 0 pos * rotx π) * own * 1, (g', absorberReflector (1 - eff))⟩) →
      P ⟨1, T * (translate 0 0 pos * rotx π) * 1, (g, reflectiveReceiver 1 get set)⟩ →
      P ⟨⟨1, ⟨0, 0, -(1 / 10 ^ 10)⟩⟩, T * (translate 0 0 pos * rotx π) * ⟨1, ⟨0, 0, -(1 / 10 ^ 10)⟩⟩, (g, reflective 1)⟩ →
      P ⟨reflector.own, T * 1 * reflector.own, reflector.data⟩ →
      ∀ o ∈ (a.set (.transform T)).getObjects, ∀ s ∈ o.surfs, P s := by
    intro P p1 p2 p3 p4 n hn m hm
    rw [ho, List.mem_append] at hn
    rcases hn with hn | hn
    · obtain ⟨own, g', k1, ⟨_, _, _, k2⟩, hsu, _⟩ := hw n hn
      rw [hsu, List.mem_singleton] at hm
      subst hm
      exact p1 own g' k1 (.rect _ _ _ k2)
    · rw [List.mem_cons, List.mem_singleton] at hn
      rcases hn with rfl | rfl
      · rw [hr, List.mem_cons, List.mem_singleton] at hm
        rcases hm with rfl | rfl
        · exact p2
        · exact p3
      · rw [hl, List.mem_singleton] at hm
        subst hm
        exact p4
  have hplain := hall (fun s => PlainGeometry s.data.1) (fun _ _ _ h => h) (.rect _ _ _ hg) (.rect _ _ _ hg) hrg
  have hopaque := hall (fun s => OpaqueOptics s.data.2) (fun _ _ _ _ => .oneSided _) (.receiver _ _ _ _ (.mirror _)) (.mirror _) hro
  refine ⟨a, ha, ⟨⟨rec, by rw [ho]; simp, by rw [hr]; simp⟩, ?_, fun o ho' s hs => .plain _ (hplain o ho' s hs),
    fun o ho' s hs => (hopaque o ho' s hs).library 1 2, ?_⟩, hplain, hopaque⟩
  · exact hall (fun s => s.temp.Rigid) (fun _ _ h _ => (hF.mul h).mul Tf.Rigid.one) (hF.mul Tf.Rigid.one) (hF.mul M3.IsRotation.one)
      ((hT.mul Tf.Rigid.one).mul hrf)
  · intro n hn
    rw [ho, List.mem_append] at hn
    rcases hn with hn | hn
    · obtain ⟨own, g', _, _, hsu, hda⟩ := hw n hn
      right; rw [hda, hsu]; rfl
    · rw [List.mem_cons, List.mem_singleton] at hn
      rcases hn with rfl | rfl
      · right; rw [hrd, hr]; rfl
      · left; rw [hld, hl]; rfl

/-- C75: a collector whose reflector is a rigidly placed component of the package that does not refract (not a hemisphere or cut sphere)
is traced, wherever it is put, without an exception from any rays of unit direction. -/
theorem C75_collector (reflector : SceneSurf σ ℝ E) (hrg : PlainGeometry reflector.data.1) (hro : OpaqueOptics reflector.data.2)
    (hrf : reflector.own.Rigid) (pos : ℝ) {x y depth : ℝ} (hx : 0 < x) (hy : 0 < y) (hd : 0 < depth)
    (eff : ℝ) (get : σ → Account ℝ) (set : Account ℝ → σ → σ) (junk : M3 ℝ) {T : Tf ℝ} (hT : T.Rigid) :
    ∃ a, homogenizedLocalReceiver reflector pos (x, y) depth eff get set junk = .ok a ∧
      ∀ (w : σ) (b : Bundle ℝ E) (reps : Nat) (minE : ℝ), (∀ r ∈ b, r.dir.IsUnit) →
        ∃ res, rayTracer (a.set (.transform T)).scene w b reps minE true = .ok res := by
  obtain ⟨a, h1, h2, h3, h4⟩ := collector_library reflector hrg hro hrf pos hx hy hd eff get set junk hT
  exact ⟨a, h1, fun w b reps minE hb => C75_opaque h2 h3 h4 w hb minE (.inl rfl)⟩

/-- What is said of minidishes and PETAL dishes in `C76_dishes`. -/
def HistogramWorks (x y : ℝ) (get : σ → Account ℝ) (set : Account ℝ → σ → σ) (a : SceneAsm σ ℝ E) : Prop :=
  ∃ o ∈ a.getObjects, ∃ receiver ∈ o.surfs, receiver.data.2 = reflectiveReceiver 1 get set ∧
    ∀ (w : σ) (b : Bundle ℝ E) (reps : Nat) (minE : ℝ), get w = Account.reset → (∀ r ∈ b, r.dir.IsUnit) →
      ∃ res, rayTracer a.scene w b reps minE true = .ok res ∧
        ∀ bins : Nat, 0 < bins → ∃ H, histogramHits receiver.temp (x, y) bins (get res.world) =
            .ok (H, binEdges bins (x / 2), binEdges bins (y / 2)) ∧
          cellTotal H = (get res.world).absorbed.flatten.sum

/-- C76: a `MiniDish` or `PETAL` collector is put anywhere and any light (rays of unit direction) is traced through it, however deep.
Nothing raises, and the histogram of the receiver accounts for all the energy the receiver absorbed. -/
theorem C76_dishes {diameter focal side depth aspect : ℝ} (hdia : 0 < diameter) (hf : 0 < focal) (hs : 0 < side) (hd : 0 < depth)
    (ha : 0 < aspect) (dishEff pos homogEff : ℝ) {get : σ → Account ℝ} {set : Account ℝ → σ → σ} (hgs : ∀ acc w, get (set acc w) = acc)
    (junk : M3 ℝ) {T : Tf ℝ} (hT : T.Rigid) :
    (∃ a : SceneAsm σ ℝ E, miniDish diameter focal dishEff pos side depth homogEff aspect get set junk = .ok a ∧
      HistogramWorks side (side * aspect) get set (a.set (.transform T))) ∧
    (∃ a : SceneAsm σ ℝ E, petal diameter focal dishEff pos side depth homogEff aspect get set junk = .ok a ∧
      HistogramWorks side (side * aspect) get set (a.set (.transform T))) := by
  have hsa := mul_pos hs ha
  have key : ∀ g : Geometry ℝ E, PlainGeometry g → ∃ a : SceneAsm σ ℝ E,
      homogenizedLocalReceiver (Surface.new g (reflective (1 - dishEff)) 1) pos (side, side * aspect) depth homogEff get set junk = .ok a ∧
      HistogramWorks side (side * aspect) get set (a.set (.transform T)) := by
    intro g hg
    let refl : SceneSurf σ ℝ E := Surface.new g (reflective (1 - dishEff)) 1
    obtain ⟨a, h1, o, ho, rec, hrec, hd2, hall⟩ := C76_collector refl pos hs hsa hd homogEff hgs (C51_reflective _ _).1 junk hT
    obtain ⟨a', h1', hprog⟩ := C75_collector refl hg (.mirror _) Tf.Rigid.one pos hs hsa hd homogEff get set junk hT
    rw [h1] at h1'
    cases h1'
    refine ⟨a, h1, o, ho, rec, hrec, hd2, ?_⟩
    intro w b reps minE h0 hb
    obtain ⟨res, hres⟩ := hprog w b reps minE hb
    exact ⟨res, hres, fun bins hbins => hall [] (fun o ho => by cases ho) w b reps minE res h0 (by rw [List.append_nil]; exact hres) bins hbins⟩
  exact ⟨key _ (.dish _ _ hdia hf), key _ (.hexagonal _ _ hdia hf)⟩

/-- A minidish of diameter 5 with light from above. -/
example : ∃ a res, miniDish (σ := Account ℝ) (E := Unit) 5 3 (9/10) 4 1 (1/2) (9/10) 1 id (fun a _ => a) 1 = .ok a ∧
    rayTracer (a.set (.transform ⟨1, ⟨0, 0, 7⟩⟩)).scene Account.reset [⟨⟨1, 0, 20⟩, ⟨0, 0, -1⟩, 1, 0, none, ()⟩] 10 0 true = .ok res := by
  obtain ⟨a, h1, _, _, _, _, _, h2⟩ := (C76_dishes (σ := Account ℝ) (E := Unit) (diameter := 5) (focal := 3) (side := 1) (depth := 1/2) (aspect := 1)
    (by norm_num) (by norm_num) (by norm_num) (by norm_num) (by norm_num) (9/10) 4 (9/10) (get := id) (set := fun a _ => a) (fun _ _ => rfl) 1
    (T := ⟨1, ⟨0, 0, 7⟩⟩) M3.IsRotation.one).1
  obtain ⟨res, hres, _⟩ := h2 Account.reset [⟨⟨1, 0, 20⟩, ⟨0, 0, -1⟩, 1, 0, none, ()⟩] 10 0 rfl (by
    intro r hr
    rw [List.mem_singleton] at hr
    subst hr
    unfold V3.IsUnit V3.dot; norm_num)
  exact ⟨a, res, h1, hres⟩

end Collector

/-! ### Examples -/

/-- Two bins each way on a plate of width 4 and height 2: a hit in the middle belongs to the upper cells, one on the far corner to the
last cell, one outside to none. -/
example : histogram2d 2 (2 : ℚ) 1 [(0, 0, 1), (2, 1, 2), (-1, 1/2, 4), (3, 0, 8)] = [[0, 4], [0, 3]] := by decide +kernel

namespace Examples

/-- A receiver on a plate of 4 by 4, two units up. -/
def plateReceiver : List (Obj (Account ℚ) ℚ Unit) :=
  [⟨[mkSurf flatGM (reflective (1/4)) 1], Obj.defaultOwn, Obj.defaultNext 1⟩,
   ⟨[mkSurf (finiteFlatGM (rectOutside 4 4)) (reflectiveReceiver (1/2) id fun a _ => a) ⟨1, ⟨0, 0, 2⟩⟩], Obj.defaultOwn, Obj.defaultNext 1⟩]

end Examples

/-- The hypotheses of `C76_trace` are met by a scene with a mirror and a receiver, and what the receiver records is not nothing. -/
example : ∃ res H, rayTracer Examples.plateReceiver Account.reset Examples.source 4 (1/5) true = .ok res ∧
    histogramHits ⟨1, ⟨0, 0, 2⟩⟩ (4, 4) 3 res.world = .ok (H, binEdges 3 (4 / 2), binEdges 3 (4 / 2)) ∧ 0 < cellTotal H := by
  have hpos : ((rayTracer Examples.plateReceiver Account.reset Examples.source 4 (1/5) true).toOption.map fun r =>
      decide (0 < r.world.absorbed.flatten.sum)) = some true := by decide +kernel
  cases hr : rayTracer Examples.plateReceiver Account.reset Examples.source 4 (1/5) true with
  | error e => rw [hr] at hpos; simp [Except.toOption] at hpos
  | ok res =>
    rw [hr] at hpos
    simp only [Except.toOption, Option.map_some, Option.some.injEq, decide_eq_true_eq] at hpos
    obtain ⟨H, h1, h2⟩ := C76_trace (get := id) (set := fun a _ => a) (g := finiteFlatGM (rectOutside 4 4)) (x := (4 : ℚ)) (y := 4)
      (frame := ⟨1, ⟨0, 0, 2⟩⟩) (fun _ _ => rfl) M3.IsRotation.one (by unfold rectPlateGM; norm_num) (by
        intro o ho s hs
        simp only [Examples.plateReceiver, List.mem_cons, List.not_mem_nil, or_false] at ho
        rcases ho with rfl | rfl <;> simp only [List.mem_cons, List.not_mem_nil, or_false] at hs <;> subst hs
        · left
          intro w rays sel out w' hout
          obtain ⟨recs, _, h2⟩ := mkSurf_ok hout
          exact (C51_reflective (1/4 : ℚ) id).1 _ _ _ _ _ h2
        · exact .inr ⟨1/2, reflective (1/2), (C51_reflective _ _).1, rfl⟩) hr rfl (bins := 3) (by omega)
    exact ⟨res, H, rfl, h1, by rw [h2]; exact hpos⟩

/-- The receiver must not be moved between the trace and the histogram: the recorded points stay where they are, and fall out of it. -/
theorem C76_moved_counterexample : ∃ (acc : Account ℚ) (F F' : Tf ℚ), F.Rigid ∧ F'.Rigid ∧
    (∃ pts, acc.getAllHits = .ok ([1], pts) ∧ ∀ p ∈ pts, Placed F (rectXY 2 2) p) ∧
    ((histogramHits F (2, 2) 2 acc).toOption.map fun r => cellTotal r.1) = some 1 ∧
    ((histogramHits F' (2, 2) 2 acc).toOption.map fun r => cellTotal r.1) = some 0 := by
  refine ⟨⟨[[1]], [[0]]⟩, 1, ⟨1, ⟨10, 0, 0⟩⟩, M3.IsRotation.one, M3.IsRotation.one, ⟨[0], rfl, ?_⟩, by decide +kernel, by decide +kernel⟩
  intro p hp
  rw [List.mem_singleton] at hp
  subst hp
  exact ⟨0, ⟨rfl, by norm_num, by norm_num⟩, by rw [Tf.one_point]⟩

end Tracer
