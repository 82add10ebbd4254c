import Verif.Lemmas.WindowScene

/-! The generations of rays in a pane. -/

namespace Tracer

open Real

variable {E σ : Type _} {T : Tf ℝ} {h width height n1 n2 : ℝ} {r : Ray ℝ E} {t : ℝ} {e : V3 ℝ} {k : ℕ}

theorem panePoint_zero (m p e : V3 ℝ) (h : ℝ) : panePoint m p e h 0 = p := by
  unfold panePoint
  apply V3.ext <;> simp

theorem panePoint_height {m p e c : V3 ℝ} (hm : m.IsUnit) (hp : V3.dot (p - c) m = 0) (h : ℝ) (j : ℕ) :
    V3.dot (panePoint m p e h j - c) m = -(if Odd j then h else 0) := by
  unfold V3.IsUnit at hm
  unfold panePoint
  generalize (if Odd j then h else 0) = q
  generalize (j : ℝ) * (h / |V3.dot e m|) = s
  simp only [V3.dot, V3.add_x, V3.add_y, V3.add_z, V3.sub_x, V3.sub_y, V3.sub_z, V3.smul_x, V3.smul_y, V3.smul_z] at *
  linear_combination hp + (-q - s * (e.x * m.x + e.y * m.y + e.z * m.z)) * hm

/-- The way from one face to the other. -/
theorem panePoint_step {m p e : V3 ℝ} (hneg : V3.dot e m < 0) (h : ℝ) (j : ℕ) :
    panePoint m p e h j + (h / |V3.dot e m|) • (if Odd (j + 1) then e else flipAlong m e) = panePoint m p e h (j + 1) := by
  have hu : h / |V3.dot e m| * V3.dot e m = -h := by
    rw [abs_of_neg hneg, div_neg, neg_mul, div_mul_cancel₀ _ hneg.ne]
  unfold panePoint flipAlong
  push_cast
  generalize h / |V3.dot e m| = τ at *
  generalize V3.dot e m = u at *
  by_cases hj : Odd j
  · have hj' : ¬ Odd (j + 1) := by rw [Nat.not_odd_iff_even]; exact hj.add_one
    rw [if_pos hj, if_neg hj', if_neg hj']
    apply V3.ext <;> simp only [V3.add_x, V3.add_y, V3.add_z, V3.sub_x, V3.sub_y, V3.sub_z, V3.smul_x, V3.smul_y, V3.smul_z]
    · linear_combination (-m.x) * hu
    · linear_combination (-m.y) * hu
    · linear_combination (-m.z) * hu
  · have hj' : Odd (j + 1) := (Nat.not_odd_iff_even.1 hj).add_one
    rw [if_neg hj, if_pos hj', if_pos hj']
    apply V3.ext <;> simp only [V3.add_x, V3.add_y, V3.add_z, V3.sub_x, V3.sub_y, V3.sub_z, V3.smul_x, V3.smul_y, V3.smul_z]
    · linear_combination m.x * hu
    · linear_combination m.y * hu
    · linear_combination m.z * hu

variable {cut minE : ℝ} {w : σ}

/-- The source ray is split at the upper face. -/
theorem pane_enter (hT : T.Rigid) (hh : 0 < h) (h1 : 0 < n1) (h2 : 0 < n2) (hne : n1 ≠ n2) (hr : EntersPane T width height h n1 n2 r t e (k + 1))
    (hcut : cut ≤ 1 / 10 ^ 6) :
    childrenBeyond cut Surf.single (Surf.alone w) [(upperFace width height n1 n2 T : Surf σ ℝ E), lowerFace width height n1 n2 h T] r =
      [paneOutside h (paneR n1 n2 T.rot.c3 e r) T.rot.c3 (r.at t) e r 1, paneInside n2 h (paneR n1 n2 T.rot.c3 e r) T.rot.c3 (r.at t) e r 1] := by
  have hm : T.rot.c3.IsUnit := ((M3.isRotation_iff T.rot).1 hT).1.2.2.1
  have hover := hr.over 0 (by omega)
  rw [panePoint_zero] at hover
  have hstart := hr.start
  have hdown := hr.down
  obtain ⟨hs, hch⟩ := from_above (σ := σ) (n1 := n1) (n2 := n2) (out := Surf.alone w) (cut := cut) hT hh (by linarith)
    (by linarith [show (0 : ℝ) < 1 / 10 ^ 6 by norm_num]) hr.down hr.reach hover
  rw [hch]
  have hfind : (finiteFlatGM (rectOutside width height) : Geometry ℝ E).find T [r] = [(t : WithTop ℝ)] := by
    change [(upperFace width height n1 n2 T : Surf σ ℝ E).single r] = _
    rw [hs]
  unfold upperFace
  rw [face_alone h1 h2 hne (by simp [toggleRefIdx]) hm rfl w hfind hr.unit hr.medium hr.snell
    (by linarith [show (0 : ℝ) < 1 / 10 ^ 10 by norm_num] : V3.dot r.dir T.rot.c3 < 0).ne]
  simp [paneOutside, paneInside, panePoint_zero, paneR]

/-- Light inside is split at the next face. -/
theorem pane_pass (hT : T.Rigid) (h1 : 0 < n1) (h2 : 0 < n2) (hne : n1 ≠ n2) (hr : EntersPane T width height h n1 n2 r t e (k + 2))
    (hcut0 : 0 ≤ cut) (hcut : cut ≤ 1 / 10 ^ 6) :
    childrenBeyond cut Surf.single (Surf.alone w) [(upperFace width height n1 n2 T : Surf σ ℝ E), lowerFace width height n1 n2 h T]
        (paneInside n2 h (paneR n1 n2 T.rot.c3 e r) T.rot.c3 (r.at t) e r (k + 1)) =
      [paneInside n2 h (paneR n1 n2 T.rot.c3 e r) T.rot.c3 (r.at t) e r (k + 2),
       paneOutside h (paneR n1 n2 T.rot.c3 e r) T.rot.c3 (r.at t) e r (k + 2)] := by
  have hm : T.rot.c3.IsUnit := ((M3.isRotation_iff T.rot).1 hT).1.2.2.1
  have hin := hr.inside
  have hdn := hr.down
  have hthick := hr.thick
  have hneg : V3.dot e T.rot.c3 < 0 := by linarith [show (0 : ℝ) < 1 / 10 ^ 10 by norm_num]
  have hneg' : V3.dot r.dir T.rot.c3 < 0 := by linarith [show (0 : ℝ) < 1 / 10 ^ 10 by norm_num]
  have hover := hr.over (k + 1) (by omega)
  have hstep := panePoint_step (p := r.at t) hneg h k
  have hheight := panePoint_height (e := e) hm hr.reach h k
  have hu : h / |V3.dot e T.rot.c3| * V3.dot e T.rot.c3 = -h := by
    rw [abs_of_neg hneg, div_neg, neg_mul, div_mul_cancel₀ _ hneg.ne]
  have hsn := hr.snell.back hr.unit
  have hR : fresnelMean n2 n1 |V3.dot e T.rot.c3| |V3.dot r.dir T.rot.c3| = paneR n1 n2 T.rot.c3 e r := fresnelMean_comm _ _ _ _
  have htog : toggleRefIdx n1 n2 n2 = n1 := by unfold toggleRefIdx; rw [if_neg hne.symm]
  generalize hRR : paneR n1 n2 T.rot.c3 e r = R at *
  generalize hq : paneInside n2 h R T.rot.c3 (r.at t) e r (k + 1) = q
  have qv : q.vertex = panePoint T.rot.c3 (r.at t) e h k := by rw [← hq]; rfl
  have qd : q.dir = if Odd (k + 1) then e else flipAlong T.rot.c3 e := by rw [← hq]; rfl
  have qr : q.ref = some n2 := by rw [← hq]; rfl
  have qe : q.energy = r.energy * (1 - R) * R ^ k := by rw [← hq]; rfl
  have qx : q.extra = r.extra := by rw [← hq]; rfl
  have qat : q.at (h / |V3.dot e T.rot.c3|) = panePoint T.rot.c3 (r.at t) e h (k + 1) := by
    unfold Ray.at; rw [qv, qd]; exact hstep
  rw [← qat] at hover
  by_cases hk : Odd (k + 1)
  · -- down to the lower face
    have hk' : ¬ Odd k := by rw [Nat.not_odd_iff_even]; exact (Nat.odd_add_one.1 hk |> Nat.not_odd_iff_even.1)
    rw [if_pos hk] at qd
    rw [if_neg hk', neg_zero] at hheight
    obtain ⟨hs, hch⟩ := pass_down (σ := σ) (n1 := n1) (n2 := n2) (out := Surf.alone w) (r := q) hT hcut0 (by linarith : cut < h / |V3.dot e T.rot.c3|)
      (by rw [qd]; exact hin) (by rw [qv]; exact hheight) (by rw [qd]; exact hu) hover
    rw [hch]
    have hfind : (finiteFlatGM (rectOutside width height) : Geometry ℝ E).find (lowerFrame T h) [q] = [((h / |V3.dot e T.rot.c3| : ℝ) : WithTop ℝ)] := by
      change [(lowerFace width height n1 n2 h T : Surf σ ℝ E).single q] = _
      rw [hs]
    unfold lowerFace
    rw [face_alone (F := lowerFrame T h) h2 h1 hne.symm htog hm rfl w hfind (by rw [qd]; exact hr.snell.unit) qr (e := r.dir)
      (by rw [qd]; exact hsn) (by rw [qd]; exact hneg.ne)]
    have hR' : fresnelMean n2 n1 |V3.dot q.dir (lowerFrame T h).rot.c3| |V3.dot r.dir (lowerFrame T h).rot.c3| = R := by rw [qd]; exact hR
    rw [hR', qat]
    have hk2 : ¬ Odd (k + 2) := by rw [Nat.not_odd_iff_even]; exact hk.add_one
    simp only [paneInside, paneOutside, List.cons.injEq, Ray.mk.injEq, qe, qx, qr, qd, if_neg hk2, lowerFrame]
    refine ⟨⟨rfl, trivial, ?_, trivial, trivial, trivial⟩, ⟨rfl, trivial, ?_, trivial, hr.medium.symm, trivial⟩, trivial⟩
    · change _ = r.energy * (1 - R) * R ^ (k + 1); ring
    · rw [if_neg (by omega)]; change _ = r.energy * (1 - R) ^ 2 * R ^ k; ring
  · -- up to the upper face
    have hk' : Odd k := by
      by_contra hc
      exact hk ((Nat.not_odd_iff_even.1 hc).add_one)
    rw [if_neg hk] at qd
    rw [if_pos hk'] at hheight
    obtain ⟨hs, hch⟩ := pass_up (σ := σ) (n1 := n1) (n2 := n2) (out := Surf.alone w) (r := q) hT hcut0 (by linarith : cut < h / |V3.dot e T.rot.c3|)
      (by rw [qd, dot_flipAlong hm]; linarith) (by rw [qv]; exact hheight) (by rw [qd, dot_flipAlong hm]; linarith) hover
    rw [hch]
    have hfind : (finiteFlatGM (rectOutside width height) : Geometry ℝ E).find T [q] = [((h / |V3.dot e T.rot.c3| : ℝ) : WithTop ℝ)] := by
      change [(upperFace width height n1 n2 T : Surf σ ℝ E).single q] = _
      rw [hs]
    unfold upperFace
    rw [face_alone (F := T) h2 h1 hne.symm htog hm rfl w hfind (by rw [qd]; exact flipAlong_unit hm hr.snell.unit) qr (e := flipAlong T.rot.c3 r.dir)
      (by rw [qd]; exact hsn.flip hm) (by rw [qd, dot_flipAlong hm]; exact neg_ne_zero.2 hneg.ne)]
    have hR' : fresnelMean n2 n1 |V3.dot q.dir T.rot.c3| |V3.dot (flipAlong T.rot.c3 r.dir) T.rot.c3| = R := by
      rw [qd, dot_flipAlong hm, dot_flipAlong hm, abs_neg, abs_neg]; exact hR
    rw [hR', qat]
    have hk2 : Odd (k + 2) := by
      obtain ⟨a, ha⟩ := hk'
      exact ⟨a + 1, by omega⟩
    simp only [paneInside, paneOutside, List.cons.injEq, Ray.mk.injEq, qe, qx, qr, qd, if_pos hk2, flipAlong_flipAlong hm]
    refine ⟨⟨rfl, trivial, ?_, trivial, trivial, trivial⟩, ⟨rfl, trivial, ?_, trivial, hr.medium.symm, trivial⟩, trivial⟩
    · change _ = r.energy * (1 - R) * R ^ (k + 1); ring
    · rw [if_neg (by omega)]; change _ = r.energy * (1 - R) ^ 2 * R ^ k; ring

/-- Light outside does not come back. -/
theorem pane_leave (hT : T.Rigid) (hh : 0 < h) (hr : EntersPane T width height h n1 n2 r t e (k + 1)) (R : ℝ) (hcut0 : 0 ≤ cut) :
    childrenBeyond cut Surf.single (Surf.alone w) [(upperFace width height n1 n2 T : Surf σ ℝ E), lowerFace width height n1 n2 h T]
        (paneOutside h R T.rot.c3 (r.at t) e r (k + 1)) = [] := by
  have hm : T.rot.c3.IsUnit := ((M3.isRotation_iff T.rot).1 hT).1.2.2.1
  have hdn := hr.down
  have hneg' : V3.dot r.dir T.rot.c3 < 0 := by linarith [show (0 : ℝ) < 1 / 10 ^ 10 by norm_num]
  have hheight := panePoint_height (e := e) hm hr.reach h k
  refine leaves hT hh hcut0 ?_
  by_cases hk : Odd (k + 1)
  · left
    have hk' : ¬ Odd k := Nat.odd_add_one.1 hk
    rw [if_neg hk', neg_zero] at hheight
    refine ⟨?_, hheight⟩
    simp only [paneOutside, if_pos hk, dot_flipAlong hm]
    linarith
  · right
    have hk' : Odd k := by
      by_contra hc
      exact hk ((Nat.not_odd_iff_even.1 hc).add_one)
    rw [if_pos hk'] at hheight
    refine ⟨?_, hheight⟩
    simp only [paneOutside, if_neg hk]
    exact hneg'

/-- The rays of a generation in the order of the recursion. -/
noncomputable def paneGen (n1 n2 h : ℝ) (T : Tf ℝ) (t : Ray ℝ E → ℝ) (e : Ray ℝ E → V3 ℝ) (k : ℕ) (r : Ray ℝ E) : Bundle ℝ E :=
  if k = 1 then [paneOutside h (paneR n1 n2 T.rot.c3 (e r) r) T.rot.c3 (r.at (t r)) (e r) r k,
    paneInside n2 h (paneR n1 n2 T.rot.c3 (e r) r) T.rot.c3 (r.at (t r)) (e r) r k]
  else [paneInside n2 h (paneR n1 n2 T.rot.c3 (e r) r) T.rot.c3 (r.at (t r)) (e r) r k,
    paneOutside h (paneR n1 n2 T.rot.c3 (e r) r) T.rot.c3 (r.at (t r)) (e r) r k]

theorem flatMap_filter_flatMap {α β : Type _} (l : List α) (p : α → Bool) (f : α → List β) :
    (l.filter p).flatMap f = l.flatMap fun a => if p a then f a else [] := by
  induction l with
  | nil => rfl
  | cons a l ih =>
    by_cases h : p a = true
    · simp [h, ih]
    · simp [h, ih]

variable {b : Bundle ℝ E}

theorem pane_generation {t : Ray ℝ E → ℝ} {e : Ray ℝ E → V3 ℝ} (hT : T.Rigid) (hh : 0 < h) (h1 : 0 < n1) (h2 : 0 < n2) (hne : n1 ≠ n2)
    (hb : ∀ r ∈ b, EntersPane T width height h n1 n2 r (t r) (e r) (k + 1))
    (hE : ∀ r ∈ b, ∀ j, 1 ≤ j → j ≤ k → minE < (paneInside n2 h (paneR n1 n2 T.rot.c3 (e r) r) T.rot.c3 (r.at (t r)) (e r) r j).energy) :
    exactGeneration Surf.single (Surf.alone w) [(upperFace width height n1 n2 T : Surf σ ℝ E), lowerFace width height n1 n2 h T] minE b (k + 1) =
      b.flatMap (paneGen n1 n2 h T t e (k + 1)) := by
  have hcutoff : ∀ rays : Bundle ℝ E, 0 ≤ cutoff Surf.single [(upperFace width height n1 n2 T : Surf σ ℝ E), lowerFace width height n1 n2 h T] rays ∧
      cutoff Surf.single [(upperFace width height n1 n2 T : Surf σ ℝ E), lowerFace width height n1 n2 h T] rays ≤ 1 / 10 ^ 6 := by
    intro rays
    unfold cutoff selfTol dropTol
    split <;> constructor <;> norm_num
  induction k with
  | zero =>
    change nextRays _ _ _ (propagated minE 0 b) = _
    unfold propagated nextRays
    rw [if_pos rfl]
    refine List.flatMap_congr fun r hr => ?_
    rw [pane_enter hT hh h1 h2 hne (hb r hr) (hcutoff b).2]
    unfold paneGen
    rw [if_pos rfl]
  | succ k ih =>
    have hb' : ∀ r ∈ b, EntersPane T width height h n1 n2 r (t r) (e r) (k + 1) :=
      fun r hr => { hb r hr with over := fun j hj => (hb r hr).over j (by omega) }
    change nextRays _ _ _ (propagated minE (k + 1) (exactGeneration _ _ _ minE b (k + 1))) = _
    rw [ih hb' fun r hr j hj hjk => hE r hr j hj (by omega)]
    unfold nextRays
    generalize hcut : cutoff Surf.single [(upperFace width height n1 n2 T : Surf σ ℝ E), lowerFace width height n1 n2 h T] _ = cut
    obtain ⟨hc0, hc1⟩ : 0 ≤ cut ∧ cut ≤ 1 / 10 ^ 6 := hcut ▸ hcutoff _
    unfold propagated
    rw [if_neg (by omega), flatMap_filter_flatMap, List.flatMap_assoc]
    refine List.flatMap_congr fun r hr => ?_
    have hin := pane_pass (w := w) hT h1 h2 hne (hb r hr) hc0 hc1
    have hout := pane_leave (w := w) (σ := σ) hT hh (hb' r hr) (paneR n1 n2 T.rot.c3 (e r) r) hc0
    have hen := hE r hr (k + 1) (by omega) le_rfl
    have hgen : paneGen n1 n2 h T t e (k + 1 + 1) r = [paneInside n2 h (paneR n1 n2 T.rot.c3 (e r) r) T.rot.c3 (r.at (t r)) (e r) r (k + 2),
        paneOutside h (paneR n1 n2 T.rot.c3 (e r) r) T.rot.c3 (r.at (t r)) (e r) r (k + 2)] := by
      unfold paneGen; rw [if_neg (by omega)]
    rw [hgen, ← hin]
    unfold paneGen
    split <;> simp [hout, hen]

end Tracer
