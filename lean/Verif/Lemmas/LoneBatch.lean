import Verif.Lemmas.OneSurface
import Verif.Lemmas.Np

/-! One iteration in a scene of one surface that is met by all the rays: they are handed over all together, in their order. -/

namespace Tracer

variable {E σ : Type _}

theorem mask_replicate {α : Type _} (l : List α) : Np.mask (List.replicate l.length true) l = l := by
  induction l with
  | nil => rfl
  | cons x l ih => simp only [List.length_cons, List.replicate_succ, Np.mask_true, ih]

theorem scatter_replicate {α : Type _} (v o : List α) (h : v.length = o.length) : Np.scatter (List.replicate o.length true) v o = v := by
  induction o generalizing v with
  | nil => simp at h; subst h; rfl
  | cons x o ih =>
    cases v with
    | nil => simp at h
    | cons y v => simp only [List.length_cons, List.replicate_succ, Np.scatter_true, ih v (by simpa using h)]

theorem nonzero_replicate (n : Nat) : Np.nonzero (List.replicate n true) = List.range n := by
  induction n with
  | zero => rfl
  | succ n ih => rw [List.replicate_succ, Np.nonzero_true, ih, List.range_succ_eq_map]

theorem nonzero_falses (n : Nat) : Np.nonzero (List.replicate n false) = [] := by
  induction n with
  | zero => rfl
  | succ n ih => rw [List.replicate_succ, Np.nonzero_false, ih]; rfl

theorem take_range {α : Type _} (l : List α) : Np.take l (List.range l.length) = .ok l := by
  have := Np.take_nonzero (m := List.replicate l.length true) (l := l) (by simp)
  rwa [nonzero_replicate, mask_replicate] at this

section
variable {s : Surf σ ℝ E} {w w' : σ} {b raw : Bundle ℝ E} {minE : ℝ} {ts : List ℝ}

theorem lone_front (hb : b ≠ []) (hreg : s.register b = ts.map ((↑) : ℝ → WithTop ℝ)) (hlen : ts.length = b.length)
    (hts : ∀ t ∈ ts, 1 / 10 ^ 6 < t) :
    intersectRay b [s] (surfOwnership (lone s)) (List.replicate b.length none) [List.replicate b.length true] =
      .ok ([List.replicate b.length true], [List.replicate b.length true]) := by
  have hown : surfOwnership (lone s) = [0] := rfl
  have howned : ownedMask (List.replicate b.length none) 0 (List.replicate b.length true) = List.replicate b.length true := by
    unfold ownedMask
    rw [List.zipWith_replicate']
    simp
  have hpos : 0 < b.length := List.length_pos_iff.2 hb
  have hany : (List.replicate b.length true).any id = true := by
    rw [List.any_replicate]
    simp [hb]
  have hnone : (List.replicate b.length true).any (! ·) = false := by
    rw [List.any_replicate]
    simp
  have hrow : stackRow b s (List.replicate b.length true) = ts.map ((↑) : ℝ → WithTop ℝ) := by
    unfold stackRow
    rw [if_pos hany, hnone]
    have := scatter_replicate (ts.map ((↑) : ℝ → WithTop ℝ)) (List.replicate b.length 0) (by simp [hlen])
    rw [List.length_replicate] at this
    simp only [Bool.false_eq_true, if_false, hreg]
    exact this
  have hbig : ∀ c : ℝ, c ≤ 1 / 10 ^ 6 → [ts.map ((↑) : ℝ → WithTop ℝ)].any (fun row => row.any fun p => decide (p ≤ ((c : ℝ) : WithTop ℝ))) = false := by
    intro c hc
    simp only [List.any_cons, List.any_nil, Bool.or_false, List.any_map, List.any_eq_false, Function.comp]
    intro t ht
    have := hts t ht
    simp only [WithTop.coe_le_coe, decide_eq_true_eq, not_le]
    linarith
  have hneg : [ts.map ((↑) : ℝ → WithTop ℝ)].any (fun row => row.any fun p => decide (p < (((-negTol : ℝ)) : WithTop ℝ))) = false := by
    simp only [List.any_cons, List.any_nil, Bool.or_false, List.any_map, List.any_eq_false, Function.comp]
    intro t ht
    have := hts t ht
    have hn : (0 : ℝ) < negTol := by unfold negTol; norm_num
    have h0 : (0 : ℝ) < 1 / 10 ^ 6 := by norm_num
    simp only [WithTop.coe_lt_coe, decide_eq_true_eq, not_lt]
    linarith
  have hdrop : dropSelfHits [ts.map ((↑) : ℝ → WithTop ℝ)] = [ts.map ((↑) : ℝ → WithTop ℝ)] := by
    unfold dropSelfHits
    rw [hbig selfTol (by unfold selfTol; norm_num)]
    rfl
  have hmask : frontMask b.length [ts.map ((↑) : ℝ → WithTop ℝ)] = [List.replicate b.length true] := by
    unfold frontMask colMin
    simp only [List.map_cons, List.map_nil, List.foldr_cons, List.foldr_nil]
    rw [← hlen]
    congr 1
    clear hreg hlen hts hrow hbig hneg hdrop
    induction ts with
    | nil => rfl
    | cons t ts ih =>
      simp only [List.map_cons, List.length_cons, List.replicate_succ, List.zipWith_cons_cons, ih]
      simp
  unfold intersectRay
  rw [hown]
  simp only [List.zipWith_cons_cons, List.zipWith_nil_right, howned, hrow]
  rw [hneg]
  simp only [Bool.false_eq_true, if_false, List.isEmpty_cons, Bool.false_and]
  rw [hdrop, hmask]

/-- All rays meet the surface, none before 1e-6: the iteration hands all of them to the optics manager at once. -/
theorem lone_iterate (hb : b ≠ []) (hreg : s.register b = ts.map ((↑) : ℝ → WithTop ℝ)) (hlen : ts.length = b.length)
    (hts : ∀ t ∈ ts, 1 / 10 ^ 6 < t) (hout : s.outgoing w b (List.range b.length) = .ok (raw, w'))
    (hpar : raw.map Ray.parent = List.range b.length) :
    ∃ st' gen rcd, iterate (lone s) [s] minE (initState (lone s) b w) = .ok (st', gen, rcd) ∧ st'.world = w' ∧
      ((∀ r ∈ raw, minE < r.energy) → st' = initState (lone s) raw w' ∧ gen = raw ∧ rcd = raw) := by
  have hlr : raw.length = b.length := by simpa using congrArg List.length hpar
  have hinit : initState (lone s) b w = ⟨b, List.replicate b.length none, [List.replicate b.length true], w⟩ := rfl
  have hf := lone_front hb hreg hlen hts
  have hnone : (List.replicate b.length true).any (! ·) = false := by
    rw [List.any_replicate]
    simp
  have hself : Np.mask (List.replicate b.length true) (List.replicate b.length true) = List.replicate b.length true := by
    have := mask_replicate (List.replicate b.length true)
    rwa [List.length_replicate] at this
  have hany : (List.replicate b.length true).any id = true := by
    rw [List.any_replicate]
    simp [hb]
  have hfix : fixParents (List.replicate b.length true) raw = .ok raw := by
    unfold fixParents
    rw [nonzero_replicate, hpar]
    have := take_range (List.range b.length)
    rw [List.length_range] at this
    rw [this]
    show Except.ok _ = _
    congr 1
    rw [← hpar]
    clear hpar hlr hout
    induction raw with
    | nil => rfl
    | cons r raw ih => simp only [List.map_cons, List.zipWith_cons_cons, ih]
  have hown : surfOwnership (lone s) = [0] := rfl
  have huntil : surfsUntilObj (lone s) = [0, 1] := rfl
  have hcon : ∃ c : Contribution ℝ E, contribute (lone s) minE b w 0 s (List.replicate b.length true) (List.replicate b.length true) = .ok (c, w') ∧
      c.record = raw ∧ c.weak = raw.map (fun r => decide (r.energy ≤ minE)) ∧
      ((∀ r ∈ raw, minE < r.energy) → c.outg = raw ∧ c.own = List.replicate raw.length none ∧ c.relev = [List.replicate raw.length true]) := by
    unfold contribute
    simp only [hself, hnone, nonzero_replicate, Bool.false_eq_true, if_false, hout, hfix]
    rw [hown, huntil]
    refine ⟨_, rfl, rfl, rfl, fun hE => ?_⟩
    have hweak : (raw.map fun r => decide (r.energy ≤ minE)).any id = false := by
      simp only [List.any_map, List.any_eq_false, Function.comp, id]
      intro r hr
      simpa using hE r hr
    simp only [hweak, Bool.false_eq_true, if_false]
    refine ⟨trivial, ?_, ?_⟩
    · unfold Obj.defaultOwn
      rw [List.map_replicate]
      rfl
    · rfl
  obtain ⟨c, hc, hrec, hweak, hstrong⟩ := hcon
  have hloop : surfLoop (lone s) minE b w 0 [s] [List.replicate b.length true] [List.replicate b.length true] = .ok ([c], w') := by
    unfold surfLoop
    rw [hself, if_pos hany, hc]
    rfl
  rw [hinit]
  unfold iterate
  simp only [hf, hloop]
  simp only [List.flatMap_cons, List.flatMap_nil, List.append_nil, hrec, hweak]
  rw [Np.take_nonzero (by simp)]
  refine ⟨_, _, _, rfl, rfl, fun hE => ?_⟩
  obtain ⟨h1, h2, h3⟩ := hstrong hE
  have hmask : Np.mask (raw.map fun r => decide (r.energy ≤ minE)) raw = [] := by
    rw [Np.mask_map_self]
    rw [List.filter_eq_nil_iff]
    intro r hr
    simpa using hE r hr
  refine ⟨?_, rfl, ?_⟩
  · rw [h1, h2]
    simp only [List.map_cons, List.map_nil, h3, List.length_singleton]
    unfold initState Np.hstackRows
    simp [lone]
  · rw [h1, hmask, List.append_nil]

end

end Tracer
