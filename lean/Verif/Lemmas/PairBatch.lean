import Verif.Lemmas.LoneBatch

/-! One iteration in a scene of two surfaces of which all the rays meet the first, and none the second. -/

namespace Tracer

variable {E σ : Type _}

/-- A scene of two surfaces, each of its own object. -/
def pair (s s' : Surf σ ℝ E) : List (Obj σ ℝ E) :=
  [⟨[s], Obj.defaultOwn, Obj.defaultNext 1⟩, ⟨[s'], Obj.defaultOwn, Obj.defaultNext 1⟩]

section
variable {s s' : Surf σ ℝ E} {w w' : σ} {b raw : Bundle ℝ E} {minE : ℝ} {ts : List ℝ}

theorem pair_front (hb : b ≠ []) (hreg : s.register b = ts.map ((↑) : ℝ → WithTop ℝ)) (hreg' : s'.register b = List.replicate b.length ⊤)
    (hlen : ts.length = b.length) (hts : ∀ t ∈ ts, 1 / 10 ^ 6 < t) :
    intersectRay b [s, s'] (surfOwnership (pair s s')) (List.replicate b.length none) [List.replicate b.length true, List.replicate b.length true] =
      .ok ([List.replicate b.length true, List.replicate b.length false], [List.replicate b.length true, List.replicate b.length true]) := by
  have hown : surfOwnership (pair s s') = [0, 1] := rfl
  have howned : ∀ k, ownedMask (List.replicate b.length none) k (List.replicate b.length true) = List.replicate b.length true := by
    intro k
    unfold ownedMask
    rw [List.zipWith_replicate']
    simp
  have hany : (List.replicate b.length true).any id = true := by
    rw [List.any_replicate]
    simp [hb]
  have hnone : (List.replicate b.length true).any (! ·) = false := by
    rw [List.any_replicate]
    simp
  have hrow : ∀ (s : Surf σ ℝ E) (l : List (WithTop ℝ)), s.register b = l → l.length = b.length → stackRow b s (List.replicate b.length true) = l := by
    intro s l h hl
    unfold stackRow
    rw [if_pos hany, hnone]
    have := scatter_replicate l (List.replicate b.length 0) (by simp [hl])
    rw [List.length_replicate] at this
    simp only [Bool.false_eq_true, if_false, h]
    exact this
  have hrow1 := hrow s _ hreg (by simp [hlen])
  have hrow2 := hrow s' _ hreg' (by simp)
  have hbig : ∀ c : ℝ, c ≤ 1 / 10 ^ 6 →
      [ts.map ((↑) : ℝ → WithTop ℝ), List.replicate b.length ⊤].any (fun row => row.any fun p => decide (p ≤ ((c : ℝ) : WithTop ℝ))) = false := by
    intro c hc
    simp only [List.any_cons, List.any_nil, Bool.or_false, List.any_map, List.any_replicate, Bool.or_eq_false_iff]
    refine ⟨?_, by simp⟩
    simp only [List.any_eq_false, Function.comp]
    intro t ht
    have := hts t ht
    simp only [WithTop.coe_le_coe, decide_eq_true_eq, not_le]
    linarith
  have hneg : [ts.map ((↑) : ℝ → WithTop ℝ), List.replicate b.length ⊤].any (fun row => row.any fun p => decide (p < (((-negTol : ℝ)) : WithTop ℝ))) = false := by
    simp only [List.any_cons, List.any_nil, Bool.or_false, List.any_map, List.any_replicate, Bool.or_eq_false_iff]
    refine ⟨?_, by simp⟩
    simp only [List.any_eq_false, Function.comp]
    intro t ht
    have := hts t ht
    have hn : (0 : ℝ) < negTol := by unfold negTol; norm_num
    have h0 : (0 : ℝ) < 1 / 10 ^ 6 := by norm_num
    simp only [WithTop.coe_lt_coe, decide_eq_true_eq, not_lt]
    linarith
  have hdrop : dropSelfHits [ts.map ((↑) : ℝ → WithTop ℝ), List.replicate b.length ⊤] = [ts.map ((↑) : ℝ → WithTop ℝ), List.replicate b.length ⊤] := by
    unfold dropSelfHits
    rw [hbig selfTol (by unfold selfTol; norm_num)]
    rfl
  have hmask : frontMask b.length [ts.map ((↑) : ℝ → WithTop ℝ), List.replicate b.length ⊤] =
      [List.replicate b.length true, List.replicate b.length false] := by
    unfold frontMask colMin
    simp only [List.map_cons, List.map_nil, List.foldr_cons, List.foldr_nil]
    rw [← hlen]
    clear hreg hreg' hlen hts hrow hrow1 hrow2 hbig hneg hdrop
    induction ts with
    | nil => rfl
    | cons t ts ih =>
      rw [List.cons.injEq, List.cons.injEq] at ih
      simp only [List.map_cons, List.length_cons, List.replicate_succ, List.zipWith_cons_cons, ih.1, ih.2.1]
      simp
  unfold intersectRay
  rw [hown]
  simp only [List.zipWith_cons_cons, List.zipWith_nil_right, howned, hrow1, hrow2]
  rw [hneg]
  simp only [Bool.false_eq_true, if_false, List.isEmpty_cons, Bool.false_and]
  rw [hdrop, hmask]

/-- All rays meet the first surface, none before 1e-6, and none meets the second: the iteration hands all of them to the first optics manager at
once, and goes on with what it sends. -/
theorem pair_iterate (hb : b ≠ []) (hreg : s.register b = ts.map ((↑) : ℝ → WithTop ℝ)) (hreg' : s'.register b = List.replicate b.length ⊤)
    (hlen : ts.length = b.length) (hts : ∀ t ∈ ts, 1 / 10 ^ 6 < t) (hout : s.outgoing w b (List.range b.length) = .ok (raw, w'))
    (hpar : raw.map Ray.parent = List.range b.length) (hE : ∀ r ∈ raw, minE < r.energy) :
    iterate (pair s s') [s, s'] minE (initState (pair s s') b w) = .ok (initState (pair s s') raw w', raw, raw) := by
  have hinit : initState (pair s s') b w = ⟨b, List.replicate b.length none, [List.replicate b.length true, List.replicate b.length true], w⟩ := rfl
  have hf := pair_front hb hreg hreg' hlen hts
  have hnone : (List.replicate b.length true).any (! ·) = false := by
    rw [List.any_replicate]
    simp
  have hself : ∀ l : List Bool, l.length = b.length → Np.mask (List.replicate b.length true) l = l := by
    intro l hl
    have := mask_replicate l
    rwa [hl] at this
  have hany : (List.replicate b.length true).any id = true := by
    rw [List.any_replicate]
    simp [hb]
  have hfix : fixParents (List.replicate b.length true) raw = .ok raw := by
    unfold fixParents
    rw [nonzero_replicate, hpar]
    have := take_range (List.range b.length)
    rw [List.length_range] at this
    rw [this]
    show Except.ok _ = _
    congr 1
    rw [← hpar]
    clear hpar hout hE
    induction raw with
    | nil => rfl
    | cons r raw ih => simp only [List.map_cons, List.zipWith_cons_cons, ih]
  have hown : surfOwnership (pair s s') = [0, 1] := rfl
  have huntil : surfsUntilObj (pair s s') = [0, 1, 2] := rfl
  have hweak : (raw.map fun r => decide (r.energy ≤ minE)).any id = false := by
    simp only [List.any_map, List.any_eq_false, Function.comp, id]
    intro r hr
    simpa using hE r hr
  have hcon : contribute (pair s s') minE b w 0 s (List.replicate b.length true) (List.replicate b.length true) =
      .ok (⟨raw, raw, raw.map (fun r => decide (r.energy ≤ minE)), List.replicate raw.length none,
        [List.replicate raw.length true, List.replicate raw.length true]⟩, w') := by
    unfold contribute
    simp only [hself _ (List.length_replicate ..), hnone, nonzero_replicate, Bool.false_eq_true, if_false, hout, hfix, hweak]
    rw [hown, huntil]
    simp only [pair, List.getElem?_cons_zero, Obj.defaultOwn, List.map_replicate]
    rfl
  have hloop : surfLoop (pair s s') minE b w 0 [s, s'] [List.replicate b.length true, List.replicate b.length false]
      [List.replicate b.length true, List.replicate b.length true] =
      .ok ([⟨raw, raw, raw.map (fun r => decide (r.energy ≤ minE)), List.replicate raw.length none,
        [List.replicate raw.length true, List.replicate raw.length true]⟩], w') := by
    unfold surfLoop
    rw [hself _ (List.length_replicate ..), if_pos hany, hcon]
    simp only
    unfold surfLoop
    rw [hself _ (List.length_replicate ..), if_neg (by rw [List.any_replicate]; simp)]
    simp only [surfLoop]
  rw [hinit]
  unfold iterate
  simp only [hf, hloop]
  simp only [List.flatMap_cons, List.flatMap_nil, List.append_nil]
  rw [Np.take_nonzero (by simp)]
  have hmask : Np.mask (raw.map fun r => decide (r.energy ≤ minE)) raw = [] := by
    rw [Np.mask_map_self]
    rw [List.filter_eq_nil_iff]
    intro r hr
    simpa using hE r hr
  rw [hmask]
  unfold initState Np.hstackRows
  simp [pair]

end

end Tracer
