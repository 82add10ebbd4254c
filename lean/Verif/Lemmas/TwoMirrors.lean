import Verif.Model.Windows

/-! Two one-sided mirrors and two rays, each reflected by one and then by the other. -/

namespace Tracer

variable {K E σ : Type _} [Field K] [LinearOrder K] [IsStrictOrderedRing K]

theorem selfTol_pos : (0 : K) < selfTol := by unfold selfTol; positivity

theorem negTol_nonneg : (0 : K) ≤ negTol := by unfold negTol; positivity

theorem dropTol_pos : (0 : K) < dropTol := by unfold dropTol; positivity

omit [IsStrictOrderedRing K] in
theorem not_top_le_coe (x : K) : ¬ (⊤ : WithTop K) ≤ (x : WithTop K) := by simp

section steps

variable {s1 s2 : Surf σ K E}

theorem front_first {a0 b0 : Ray K E} {ta tb : K} (h1 : s1.register [a0, b0] = [(ta : WithTop K), ⊤]) (h2 : s2.register [a0, b0] = [⊤, (tb : WithTop K)])
    (hta : selfTol < ta) (htb : selfTol < tb) :
    intersectRay [a0, b0] [s1, s2] [0, 1] [none, none] [[true, true], [true, true]] =
      .ok ([[true, false], [false, true]], [[true, true], [true, true]]) := by
  have k1 : ¬ (ta : WithTop K) < ((-negTol : K) : WithTop K) := by
    rw [WithTop.coe_lt_coe]; linarith [negTol_nonneg (K := K), selfTol_pos (K := K)]
  have k2 : ¬ (tb : WithTop K) < ((-negTol : K) : WithTop K) := by
    rw [WithTop.coe_lt_coe]; linarith [negTol_nonneg (K := K), selfTol_pos (K := K)]
  have k3 : ¬ (ta : WithTop K) ≤ ((selfTol : K) : WithTop K) := by rw [WithTop.coe_le_coe]; exact not_le.2 hta
  have k4 : ¬ (tb : WithTop K) ≤ ((selfTol : K) : WithTop K) := by rw [WithTop.coe_le_coe]; exact not_le.2 htb
  simp [intersectRay, ownedMask, stackRow, h1, h2, Np.scatter, dropSelfHits, k3, k4, frontMask, colMin]
  exact ⟨decide_eq_false (by simpa using k1), decide_eq_false (by simpa using k2)⟩

theorem front_second {a1 b1 : Ray K E} {ta tb : K} (h1 : s1.register [b1] = [(tb : WithTop K)]) (h2 : s2.register [a1] = [(ta : WithTop K)])
    (hta : dropTol < ta) (htb : dropTol < tb) :
    intersectRay [a1, b1] [s1, s2] [0, 1] [none, none] [[false, true], [true, false]] =
      .ok ([[false, true], [true, false]], [[false, true], [true, false]]) := by
  have k1 : ¬ (ta : WithTop K) < ((-negTol : K) : WithTop K) := by
    rw [WithTop.coe_lt_coe]; linarith [negTol_nonneg (K := K), dropTol_pos (K := K)]
  have k2 : ¬ (tb : WithTop K) < ((-negTol : K) : WithTop K) := by
    rw [WithTop.coe_lt_coe]; linarith [negTol_nonneg (K := K), dropTol_pos (K := K)]
  have k3 : ¬ (ta : WithTop K) ≤ ((dropTol : K) : WithTop K) := by rw [WithTop.coe_le_coe]; exact not_le.2 hta
  have k4 : ¬ (tb : WithTop K) ≤ ((dropTol : K) : WithTop K) := by rw [WithTop.coe_le_coe]; exact not_le.2 htb
  have k5 : (0 : WithTop K) ≤ ((selfTol : K) : WithTop K) := by rw [← WithTop.coe_zero, WithTop.coe_le_coe]; exact selfTol_pos.le
  have k6 : (0 : WithTop K) ≤ ((dropTol : K) : WithTop K) := by rw [← WithTop.coe_zero, WithTop.coe_le_coe]; exact dropTol_pos.le
  simp [intersectRay, ownedMask, stackRow, h1, h2, Np.scatter, Np.mask, dropSelfHits, k3, k4, k5, k6, frontMask, colMin]
  exact ⟨⟨negTol_nonneg, decide_eq_false (by simpa using k2)⟩, decide_eq_false (by simpa using k1), negTol_nonneg⟩

theorem front_third {a2 b2 : Ray K E} (h1 : s1.register [a2] = [⊤]) (h2 : s2.register [b2] = [⊤]) :
    intersectRay [b2, a2] [s1, s2] [0, 1] [none, none] [[false, true], [true, false]] =
      .ok ([[false, false], [false, false]], [[false, true], [true, false]]) := by
  have k5 : (0 : WithTop K) ≤ ((selfTol : K) : WithTop K) := by rw [← WithTop.coe_zero, WithTop.coe_le_coe]; exact selfTol_pos.le
  have k6 : (0 : WithTop K) ≤ ((dropTol : K) : WithTop K) := by rw [← WithTop.coe_zero, WithTop.coe_le_coe]; exact dropTol_pos.le
  simp [intersectRay, ownedMask, stackRow, h1, h2, Np.scatter, Np.mask, negTol_nonneg, dropSelfHits, k5, k6, frontMask, colMin]

end steps

/-- Two objects of one surface each whose children are not tested against it. -/
def mirrorPair (s1 s2 : Surf σ K E) : List (Obj σ K E) :=
  [⟨[s1], Obj.defaultOwn, Obj.skipNext 1⟩, ⟨[s2], Obj.defaultOwn, Obj.skipNext 1⟩]

theorem two_reflections {s1 s2 : Surf σ K E} {w : σ} {a0 b0 a1 b1 a2 b2 : Ray K E} {ta tb ta' tb' : K} {minE : K} (n : Nat)
    (h1 : s1.register [a0, b0] = [(ta : WithTop K), ⊤]) (h2 : s2.register [a0, b0] = [⊤, (tb : WithTop K)])
    (hta : selfTol < ta) (htb : selfTol < tb)
    (o1 : s1.outgoing w [a0, b0] [0] = .ok ([a1], w)) (o2 : s2.outgoing w [a0, b0] [1] = .ok ([b1], w))
    (p1 : a1.parent = 0) (p2 : b1.parent = 1)
    (h3 : s1.register [b1] = [(tb' : WithTop K)]) (h4 : s2.register [a1] = [(ta' : WithTop K)]) (hta' : dropTol < ta') (htb' : dropTol < tb')
    (o3 : s1.outgoing w [b1] [0] = .ok ([b2], w)) (o4 : s2.outgoing w [a1] [0] = .ok ([a2], w))
    (p3 : b2.parent = 0) (p4 : a2.parent = 0)
    (h5 : s1.register [a2] = [⊤]) (h6 : s2.register [{ b2 with parent := 1 }] = [⊤])
    (e1 : minE < a1.energy) (e2 : minE < b1.energy) (e3 : minE < a2.energy) (e4 : minE < b2.energy) :
    rayTracer (mirrorPair s1 s2) w [a0, b0] (n + 3) minE true = .ok ⟨[], [], [[a0, b0], [a1, b1], [{ b2 with parent := 1 }, a2]], w⟩ := by
  have q1 : ({ a1 with parent := 0 } : Ray K E) = a1 := by rw [← p1]
  have q2 : ({ b1 with parent := 1 } : Ray K E) = b1 := by rw [← p2]
  have q4 : ({ a2 with parent := 0 } : Ray K E) = a2 := by rw [← p4]
  have g0 : (mirrorPair s1 s2)[0]? = some ⟨[s1], Obj.defaultOwn, Obj.skipNext 1⟩ := rfl
  have g1 : (mirrorPair s1 s2)[1]? = some ⟨[s2], Obj.defaultOwn, Obj.skipNext 1⟩ := rfl
  have hown : surfOwnership (mirrorPair s1 s2) = [0, 1] := rfl
  have huntil : surfsUntilObj (mirrorPair s1 s2) = [0, 1, 2] := rfl
  have i1 : iterate (mirrorPair s1 s2) [s1, s2] minE ⟨[a0, b0], [none, none], [[true, true], [true, true]], w⟩ =
      .ok (⟨[a1, b1], [none, none], [[false, true], [true, false]], w⟩, [a1, b1], [a1, b1]) := by
    unfold iterate
    rw [hown]
    simp only
    rw [front_first h1 h2 hta htb]
    simp [surfLoop, Np.mask, contribute, Np.nonzero, o1, o2, fixParents, Np.take, p1, p2, not_le.2 e1, not_le.2 e2, hown, huntil, Np.scatter,
      g0, g1, Obj.defaultOwn, Obj.skipNext, Np.hstackRows, q1, q2]
  have i2 : iterate (mirrorPair s1 s2) [s1, s2] minE ⟨[a1, b1], [none, none], [[false, true], [true, false]], w⟩ =
      .ok (⟨[{ b2 with parent := 1 }, a2], [none, none], [[false, true], [true, false]], w⟩, [{ b2 with parent := 1 }, a2],
        [{ b2 with parent := 1 }, a2]) := by
    unfold iterate
    rw [hown]
    simp only
    rw [front_second h3 h4 hta' htb']
    simp [surfLoop, Np.mask, contribute, Np.nonzero, o3, o4, fixParents, Np.take, p3, p4, not_le.2 e3, not_le.2 e4, hown, huntil, Np.scatter,
      g0, g1, Obj.defaultOwn, Obj.skipNext, Np.hstackRows, q4]
  have i3 : iterate (mirrorPair s1 s2) [s1, s2] minE ⟨[{ b2 with parent := 1 }, a2], [none, none], [[false, true], [true, false]], w⟩ =
      .ok (⟨[], [], [[], []], w⟩, [], []) := by
    unfold iterate
    rw [hown]
    simp only
    rw [front_third h5 h6]
    simp [surfLoop, Np.mask, Np.nonzero, Np.take, Np.hstackRows]
  have hs : getSurfaces (mirrorPair s1 s2) = .ok [s1, s2] := rfl
  have hinit : initState (mirrorPair s1 s2) [a0, b0] w = ⟨[a0, b0], [none, none], [[true, true], [true, true]], w⟩ := rfl
  unfold rayTracer
  rw [hs, hinit]
  simp [traceLoop, i1, i2, i3]

/-- One ray passes both, and the other is absorbed by the first. -/
theorem one_absorbed {s1 s2 : Surf σ K E} {w : σ} {a0 b0 c : Ray K E} {t u : K} {minE : K} (n : Nat)
    (h1 : s1.register [a0, b0] = [⊤, (t : WithTop K)]) (h2 : s2.register [a0, b0] = [⊤, (u : WithTop K)])
    (ht : selfTol < t) (htu : t < u) (o1 : s1.outgoing w [a0, b0] [1] = .ok ([c], w)) (p1 : c.parent = 1) (e1 : c.energy ≤ minE) :
    rayTracer (mirrorPair s1 s2) w [a0, b0] (n + 1) minE true = .ok ⟨[], [], [[a0, b0], [c]], w⟩ := by
  have q1 : ({ c with parent := 1 } : Ray K E) = c := by rw [← p1]
  have k1 : ¬ (t : WithTop K) < ((-negTol : K) : WithTop K) := by
    rw [WithTop.coe_lt_coe]; linarith [negTol_nonneg (K := K), selfTol_pos (K := K)]
  have k2 : ¬ (u : WithTop K) < ((-negTol : K) : WithTop K) := by
    rw [WithTop.coe_lt_coe]; linarith [negTol_nonneg (K := K), selfTol_pos (K := K)]
  have k3 : ¬ (t : WithTop K) ≤ ((selfTol : K) : WithTop K) := by rw [WithTop.coe_le_coe]; exact not_le.2 ht
  have k4 : ¬ (u : WithTop K) ≤ ((selfTol : K) : WithTop K) := by rw [WithTop.coe_le_coe]; exact not_le.2 (lt_trans ht htu)
  have hfront : intersectRay [a0, b0] [s1, s2] [0, 1] [none, none] [[true, true], [true, true]] =
      .ok ([[false, true], [false, false]], [[true, true], [true, true]]) := by
    simp [intersectRay, ownedMask, stackRow, h1, h2, Np.scatter, dropSelfHits, k3, k4, frontMask, colMin, htu.le, htu.ne']
    exact ⟨decide_eq_false (by simpa using k1), decide_eq_false (by simpa using k2)⟩
  have g0 : (mirrorPair s1 s2)[0]? = some ⟨[s1], Obj.defaultOwn, Obj.skipNext 1⟩ := rfl
  have hown : surfOwnership (mirrorPair s1 s2) = [0, 1] := rfl
  have huntil : surfsUntilObj (mirrorPair s1 s2) = [0, 1, 2] := rfl
  have i1 : iterate (mirrorPair s1 s2) [s1, s2] minE ⟨[a0, b0], [none, none], [[true, true], [true, true]], w⟩ =
      .ok (⟨[], [], [[], []], w⟩, [c], [c]) := by
    unfold iterate
    rw [hown]
    simp only
    rw [hfront]
    simp [surfLoop, Np.mask, contribute, Np.nonzero, o1, fixParents, Np.take, p1, e1, hown, huntil, Np.scatter, Np.delete, Np.deleteFrom,
      g0, Obj.defaultOwn, Obj.skipNext, Np.hstackRows, q1]
  have hs : getSurfaces (mirrorPair s1 s2) = .ok [s1, s2] := rfl
  have hinit : initState (mirrorPair s1 s2) [a0, b0] w = ⟨[a0, b0], [none, none], [[true, true], [true, true]], w⟩ := rfl
  unfold rayTracer
  rw [hs, hinit]
  simp [traceLoop, i1]

end Tracer
