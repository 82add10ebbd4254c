import Verif.Spec.WhiteSphere
import Verif.Lemmas.LoneBatch
import Verif.Lemmas.Cavity
import Verif.Lemmas.SphereMeasure

/-! What happens to rays in a hollow sphere that is white inside. -/

namespace Tracer

open Real

variable {E σ : Type _}

/-- The direction in which a white surface with normal `n` sends a ray on. -/
noncomputable def whiteDir (n : V3 ℝ) (d : ℝ × ℝ) : V3 ℝ := (rotationToZ n).mulVec (pillboxOne (π / 2) d.1 d.2)

/-- The normal of the sphere inside. -/
noncomputable def inward (R : ℝ) (c p : V3 ℝ) : V3 ℝ := (1 / R) • (c - p)

/-- Where a ray that leaves the wall at `p` arrives. -/
noncomputable def nextSpot (R : ℝ) (c p : V3 ℝ) (d : ℝ × ℝ) : V3 ℝ := c + R • (rotationToZ (inward R c p)).mulVec (archPoint d)

section
variable {R : ℝ} {c p : V3 ℝ} {d : ℝ × ℝ}

theorem inward_unit (hR : 0 < R) (hp : V3.dist2 p c = R ^ 2) : (inward R c p).IsUnit := by
  have e : V3.dot (inward R c p) (inward R c p) = (1 / R) ^ 2 * V3.dist2 p c := by
    unfold inward V3.dist2 V3.dot
    simp only [V3.smul_x, V3.smul_y, V3.smul_z, V3.sub_x, V3.sub_y, V3.sub_z]
    ring
  show V3.dot _ _ = 1
  rw [e, hp]
  field_simp

theorem half_pillbox (h0 : 0 ≤ d.2) (h1 : d.2 ≤ 1) :
    pillboxOne (π / 2) d.1 d.2 = ⟨cos d.1 * √d.2, sin d.1 * √d.2, √(1 - d.2)⟩ := by
  have hs := sqrt_nonneg d.2
  have hs1 : √d.2 ≤ 1 := sqrt_le_one.2 h1
  unfold pillboxOne
  simp only [sin_pi_div_two, one_mul]
  rw [sin_arcsin (by linarith) hs1, cos_arcsin, sq_sqrt h0]

/-- From the wall to the wall. -/
theorem white_chord (hR : 0 < R) (hp : V3.dist2 p c = R ^ 2) (hd : d ∈ angleDraws) {r : Ray ℝ E} (hv : r.vertex = p)
    (hu : r.dir = whiteDir (inward R c p) d) :
    r.dir.IsUnit ∧ wayToWall R c r = 2 * R * √(1 - d.2) ∧ r.at (wayToWall R c r) = nextSpot R c p d := by
  obtain ⟨_, h0, h1⟩ := hd
  obtain ⟨r1, r2, _⟩ := C27_rotation_to_z (inward_unit hR hp)
  have hl := half_pillbox h0 h1.le
  have hsq0 : √d.2 ^ 2 = d.2 := sq_sqrt h0
  have hsq1 : √(1 - d.2) ^ 2 = 1 - d.2 := sq_sqrt (by linarith)
  have hz0 : 0 ≤ √(1 - d.2) := sqrt_nonneg _
  have hunit : r.dir.IsUnit := by
    show V3.dot _ _ = 1
    rw [hu]
    unfold whiteDir
    rw [r1.dot, hl]
    have := sin_sq_add_cos_sq d.1
    simp only [V3.dot]
    linear_combination √d.2 ^ 2 * this + hsq0 + hsq1
  have hm3 : (rotationToZ (inward R c p)).c3 = inward R c p := r2
  have hpc : p = c - R • (rotationToZ (inward R c p)).c3 := by
    rw [hm3]
    unfold inward
    have := hR.ne'
    apply V3.ext <;> simp <;> field_simp <;> ring
  have hdot : V3.dot (r.vertex - c) r.dir = -(R * √(1 - d.2)) := by
    rw [hv, hu]
    unfold whiteDir
    have e3 : (rotationToZ (inward R c p)).c3 = (rotationToZ (inward R c p)).mulVec ⟨0, 0, 1⟩ := by apply V3.ext <;> simp [M3.mulVec]
    have : p - c = (rotationToZ (inward R c p)).mulVec ⟨0, 0, -R⟩ := by
      conv_lhs => rw [hpc]
      apply V3.ext <;> simp [M3.mulVec] <;> ring
    rw [this, r1.dot, hl]
    simp [V3.dot]
  have hway : wayToWall R c r = 2 * R * √(1 - d.2) := by
    unfold wayToWall halfChord
    rw [missSq_eq hunit, hdot, hv, hp]
    have : R ^ 2 - (R ^ 2 - (-(R * √(1 - d.2))) ^ 2) = (R * √(1 - d.2)) ^ 2 := by ring
    rw [this, sqrt_sq (mul_nonneg hR.le hz0)]
    ring
  refine ⟨hunit, hway, ?_⟩
  rw [hway]
  unfold Ray.at nextSpot
  rw [hv, hu]
  unfold whiteDir archPoint
  rw [hl, sqrt_mul h0]
  conv_lhs => lhs; rw [hpc]
  apply V3.ext <;> simp [M3.mulVec] <;> ring_nf <;> rw [hsq1] <;> ring

theorem nextSpot_on (hR : 0 < R) (hp : V3.dist2 p c = R ^ 2) (hd : d ∈ angleDraws) : V3.dist2 (nextSpot R c p d) c = R ^ 2 := by
  obtain ⟨_, h0, h1⟩ := hd
  obtain ⟨r1, _⟩ := C27_rotation_to_z (inward_unit hR hp)
  have e : V3.dist2 (nextSpot R c p d) c = R ^ 2 * V3.dot ((rotationToZ (inward R c p)).mulVec (archPoint d)) ((rotationToZ (inward R c p)).mulVec (archPoint d)) := by
    unfold nextSpot V3.dist2 V3.dot
    simp only [V3.sub_x, V3.sub_y, V3.sub_z, V3.add_x, V3.add_y, V3.add_z, V3.smul_x, V3.smul_y, V3.smul_z]
    ring
  rw [e, r1.dot]
  have hq : √(d.2 * (1 - d.2)) ^ 2 = d.2 * (1 - d.2) := sq_sqrt (mul_nonneg h0 (by linarith))
  have := sin_sq_add_cos_sq d.1
  unfold archPoint V3.dot
  simp only
  linear_combination (R ^ 2 * 4 * √(d.2 * (1 - d.2)) ^ 2) * this + R ^ 2 * 4 * hq

/-- The normal that the geometry manager reports for a ray from inside. -/
theorem sphere_inward {g : Geometry ℝ E} {frame : Tf ℝ} {δ : ℝ} {r : Ray ℝ E} (hg : sphereGM R = .ok g) (hin : InCavity δ R frame.loc r) :
    V3.dist2 (r.at (wayToWall R frame.loc r)) frame.loc = R ^ 2 ∧
    g.normal frame (r.at (wayToWall R frame.loc r)) r.dir = inward R frame.loc (r.at (wayToWall R frame.loc r)) := by
  obtain ⟨hn, hR⟩ := sphere_normal hg
  have hc := hin.chord
  have hq : r.at (wayToWall R frame.loc r) - frame.loc = wallPoint R frame.loc r := rfl
  have hlen := hc.len
  have halong := hc.along
  have hs := hc.spos
  rw [hn]
  generalize r.at (wayToWall R frame.loc r) = q at *
  rw [← hq] at hlen halong
  refine ⟨hlen, ?_⟩
  unfold sphereNormal inward
  have hside : (frame.loc - q).x * r.dir.x + (frame.loc - q).y * r.dir.y + (frame.loc - q).z * r.dir.z < 0 := by
    have : V3.dot (q - frame.loc) r.dir = (q - frame.loc).x * r.dir.x + (q - frame.loc).y * r.dir.y + (q - frame.loc).z * r.dir.z := rfl
    simp only [V3.dot, V3.sub_x, V3.sub_y, V3.sub_z] at this halong ⊢
    nlinarith
  simp only [hside, if_true]
  have hnn : √(((-1 : ℝ) • (q - frame.loc)).x ^ 2 + ((-1 : ℝ) • (q - frame.loc)).y ^ 2 + ((-1 : ℝ) • (q - frame.loc)).z ^ 2) = R := by
    have : ((-1 : ℝ) • (q - frame.loc)).x ^ 2 + ((-1 : ℝ) • (q - frame.loc)).y ^ 2 + ((-1 : ℝ) • (q - frame.loc)).z ^ 2 = R ^ 2 := by
      rw [← hlen]
      unfold V3.dot
      simp only [V3.smul_x, V3.smul_y, V3.smul_z]
      ring
    rw [this, sqrt_sq hR.le]
  rw [hnn]
  apply V3.ext <;> simp

end

section trace
variable {R : ℝ} {g : Geometry ℝ E} {frame : Tf ℝ} {n : Nat}

/-- What a surface knows about rays inside the sphere. -/
theorem sphere_finds {opt : Optics σ ℝ E} (hl : g.LengthOk) (hg : sphereGM R = .ok g) (hf : frame.Rigid) {δ : ℝ} {r : Nat → Ray ℝ E}
    (hin : ∀ j < n, InCavity δ R frame.loc (r j)) :
    (mkSurf g opt frame : Surf σ ℝ E).register ((List.range n).map r) = ((List.range n).map fun j => wayToWall R frame.loc (r j)).map ((↑) : ℝ → WithTop ℝ) := by
  show g.find frame ((List.range n).map r) = _
  have hlen := hl frame ((List.range n).map r)
  apply List.ext_getElem?
  intro i
  by_cases hi : i < n
  · have hri : ((List.range n).map r)[i]? = some (r i) := by simp [hi]
    obtain ⟨p, hp, hfirst⟩ := C34_sphere hf hg ((List.range n).map r) i (r i) hri (hin i hi).unit
    rw [hp]
    have hpos : 0 < wayToWall R frame.loc (r i) := lt_of_le_of_lt (hin i hi).nonneg (hin i hi).far
    have : p = ((wayToWall R frame.loc (r i) : ℝ) : WithTop ℝ) := by
      cases p with
      | top => exact absurd ((sphere_placed hf R _).2 (((hin i hi).on_wall _).2 (by ring))) (hfirst _ hpos)
      | coe t =>
        obtain ⟨h1, h2, _⟩ := hfirst
        rw [(hin i hi).ahead h1 ((sphere_placed hf R _).1 h2)]
    simp [hi, this]
  · rw [List.getElem?_eq_none (by rw [hlen]; simp; omega), List.getElem?_eq_none (by simp; omega)]

theorem hitRecs_batch {rays : Bundle ℝ E} {sel : List Nat} {r : Nat → Ray ℝ E} {t : Nat → ℝ}
    (h1 : ∀ i ∈ sel, rays[i]? = some (r i)) (h2 : ∀ i ∈ sel, (g.find frame rays)[i]? = some ((t i : ℝ) : WithTop ℝ)) :
    hitRecs g frame rays sel = .ok (sel.map fun i => ⟨i, r i, (r i).at (t i), g.normal frame ((r i).at (t i)) (r i).dir⟩) := by
  induction sel with
  | nil => rfl
  | cons i sel ih =>
    have e1 := h1 i (by simp)
    have e2 : (g.find frame rays)[i]? = some (some (t i)) := h2 i (by simp)
    unfold hitRecs
    rw [e1, e2, ih (fun j hj => h1 j (by simp [hj])) (fun j hj => h2 j (by simp [hj]))]
    rfl

/-- The ray that a white wall sends on. -/
noncomputable def whiteNext (R : ℝ) (c : V3 ℝ) (a : ℝ) (r : Ray ℝ E) (d : ℝ × ℝ) (j : Nat) : Ray ℝ E :=
  { r with
    vertex := r.at (wayToWall R c r)
    energy := r.energy * (1 - a)
    dir := whiteDir (inward R c (r.at (wayToWall R c r))) d
    parent := j }

variable {ξ : Nat → ℝ × ℝ} {taken : σ → Nat} {draw : Nat → σ → List (ℝ × ℝ) × σ} {get : σ → Account ℝ} {set : Account ℝ → σ → σ} {a : ℝ}

theorem white_outgoing (hl : g.LengthOk) (hg : sphereGM R = .ok g) (hf : frame.Rigid) {δ : ℝ} {r : Nat → Ray ℝ E}
    (hdr : DrawsFrom ξ taken draw get set) (hin : ∀ j < n, InCavity δ R frame.loc (r j)) (w : σ) :
    ∃ w', (mkSurf g (lambertianReceiver a draw get set) frame : Surf σ ℝ E).outgoing w ((List.range n).map r) (List.range n) =
        .ok ((List.range n).map fun j => whiteNext R frame.loc a (r j) (ξ (taken w + j)) j, w') ∧
      taken w' = taken w + n ∧
      get w' = ⟨(get w).absorbed ++ [(List.range n).map fun j => (r j).energy * a],
        (get w).hits ++ [(List.range n).map fun j => (r j).at (wayToWall R frame.loc (r j))]⟩ := by
  have hfind := sphere_finds (opt := lambertianReceiver a draw get set) hl hg hf hin
  change g.find frame ((List.range n).map r) = _ at hfind
  have hrec := hitRecs_batch (g := g) (frame := frame) (rays := (List.range n).map r) (sel := List.range n) (r := r)
    (t := fun j => wayToWall R frame.loc (r j)) (by intro i hi; simp [List.mem_range.1 hi])
    (by intro i hi; rw [hfind]; simp [List.mem_range.1 hi])
  simp only [mkSurf]
  rw [hrec]
  simp only [lambertianReceiver, accountant, lambertian, List.length_map, List.length_range, List.map_map]
  refine ⟨_, congrArg Except.ok (Prod.ext ?_ rfl), ?_, ?_⟩
  · show List.zipWith _ _ _ = _
    rw [hdr.next, hdr.position]
    unfold pillbox
    rw [List.map_map]
    rw [List.zipWith_map, List.zipWith_self]
    apply List.map_congr_left
    intro j hj
    have := (sphere_inward hg (hin j (List.mem_range.1 hj))).2
    simp only [Function.comp, whiteNext, whiteDir, this]
  · rw [hdr.counted, hdr.position]
  · rw [hdr.memory, hdr.written]
    rfl

/-- The places that the rays meet, for places `p` that they meet first. -/
noncomputable def whiteSpots (R : ℝ) (c : V3 ℝ) (ζ : Nat → ℝ × ℝ) (n : Nat) (p : Nat → V3 ℝ) : Nat → Nat → V3 ℝ
  | 0, j => p j
  | k + 1, j => nextSpot R c (whiteSpots R c ζ n p k j) (ζ (k * n + j))

theorem whiteSpots_shift (c : V3 ℝ) (p : Nat → V3 ℝ) (i k j : Nat) :
    whiteSpots R c (fun m => ξ (i + n + m)) n (fun j => nextSpot R c (p j) (ξ (i + j))) k j = whiteSpots R c (fun m => ξ (i + m)) n p (k + 1) j := by
  induction k with
  | zero => simp [whiteSpots]
  | succ k ih =>
    rw [whiteSpots, ih]
    conv_rhs => rw [whiteSpots]
    congr 2
    ring

theorem white_loop (hl : g.LengthOk) (hg : sphereGM R = .ok g) (hf : frame.Rigid) (hdr : DrawsFrom ξ taken draw get set)
    (hξ : ∀ i, ξ i ∈ angleDraws) (hn : 0 < n) (minE : ℝ) (keepTree : Bool) (reps : Nat) (r : Nat → Ray ℝ E) (w : σ) (tree : List (Bundle ℝ E))
    (last : Option (Bundle ℝ E)) (hin : ∀ j < n, InCavity (1 / 10 ^ 6) R frame.loc (r j))
    (hfar : ∀ i < n * reps, 1 / 10 ^ 6 < 2 * R * √(1 - (ξ (taken w + i)).2))
    (hE : ∀ j < n, ∀ k < reps, minE < (r j).energy * (1 - a) ^ (k + 1)) :
    ∃ st tree' rec, traceLoop (lone (mkSurf g (lambertianReceiver a draw get set) frame)) [mkSurf g (lambertianReceiver a draw get set) frame] minE
        keepTree (reps + 1) (initState (lone (mkSurf g (lambertianReceiver a draw get set) frame)) ((List.range n).map r) w) tree last =
          .ok (st, tree', some rec) ∧
      get st.world = ⟨(get w).absorbed ++ (List.range (reps + 1)).map fun k => (List.range n).map fun j => (r j).energy * (1 - a) ^ k * a,
        (get w).hits ++ (List.range (reps + 1)).map fun k => (List.range n).map fun j =>
          whiteSpots R frame.loc (fun m => ξ (taken w + m)) n (fun j => (r j).at (wayToWall R frame.loc (r j))) k j⟩ := by
  induction reps generalizing r w tree last with
  | zero =>
    obtain ⟨w', hout, ht, hmem⟩ := white_outgoing (a := a) hl hg hf hdr hin w
    have hb : ((List.range n).map r) ≠ [] := by simp; omega
    obtain ⟨st, gen, rcd, hit, hw, _⟩ := lone_iterate (minE := minE) hb (sphere_finds (opt := lambertianReceiver a draw get set) hl hg hf hin)
      (by simp) (by
        intro t ht
        simp only [List.mem_map, List.mem_range] at ht
        obtain ⟨j, hj, rfl⟩ := ht
        exact (hin j hj).far) (by rw [List.length_map, List.length_range]; exact hout)
      (by simp [whiteNext, Function.comp_def])
    rw [traceLoop, hit]
    simp only
    split
    · refine ⟨_, _, _, rfl, ?_⟩
      rw [hw, hmem]
      simp [whiteSpots]
    · rw [traceLoop]
      refine ⟨_, _, _, rfl, ?_⟩
      rw [hw, hmem]
      simp [whiteSpots]
  | succ reps ih =>
    obtain ⟨w', hout, ht, hmem⟩ := white_outgoing (a := a) hl hg hf hdr hin w
    have hb : ((List.range n).map r) ≠ [] := by simp; omega
    obtain ⟨st, gen, rcd, hit, hw, hon⟩ := lone_iterate (minE := minE) hb (sphere_finds (opt := lambertianReceiver a draw get set) hl hg hf hin)
      (by simp) (by
        intro t ht
        simp only [List.mem_map, List.mem_range] at ht
        obtain ⟨j, hj, rfl⟩ := ht
        exact (hin j hj).far) (by rw [List.length_map, List.length_range]; exact hout)
      (by simp [whiteNext, Function.comp_def])
    obtain ⟨rfl, rfl, rfl⟩ := hon (by
      intro q hq
      simp only [List.mem_map, List.mem_range] at hq
      obtain ⟨j, hj, rfl⟩ := hq
      have := hE j hj 0 (by omega)
      simpa [whiteNext] using this)
    have hR : 0 < R := (sphere_normal hg).2
    have hchord : ∀ j < n, _ := fun j hj => white_chord (E := E) hR (sphere_inward hg (hin j hj)).1 (hξ (taken w + j))
      (r := whiteNext R frame.loc a (r j) (ξ (taken w + j)) j) rfl rfl
    have hin' : ∀ j < n, InCavity (1 / 10 ^ 6) R frame.loc (whiteNext R frame.loc a (r j) (ξ (taken w + j)) j) := by
      intro j hj
      obtain ⟨h1, h2, _⟩ := hchord j hj
      refine ⟨h1, ((sphere_inward hg (hin j hj)).1).le, ?_, by norm_num⟩
      rw [h2]
      exact hfar j (by nlinarith)
    obtain ⟨st, tree', rec, hloop, hget⟩ := ih (fun j => whiteNext R frame.loc a (r j) (ξ (taken w + j)) j) w'
      (if (keepTree && ! ((List.range n).map fun j => whiteNext R frame.loc a (r j) (ξ (taken w + j)) j).isEmpty) = true then
        tree ++ [(List.range n).map fun j => whiteNext R frame.loc a (r j) (ξ (taken w + j)) j] else tree)
      (some ((List.range n).map fun j => whiteNext R frame.loc a (r j) (ξ (taken w + j)) j)) hin' (by
        intro i hi
        rw [ht, Nat.add_assoc]
        exact hfar (n + i) (by nlinarith)) (by
        intro j hj k hk
        have := hE j hj (k + 1) (by omega)
        simp only [whiteNext]
        rwa [mul_assoc, ← pow_succ'])
    rw [traceLoop, hit]
    simp only
    rw [if_neg (by
      show ¬ (((List.range n).map _).isEmpty = true)
      simp
      omega)]
    refine ⟨st, tree', rec, hloop, ?_⟩
    rw [hget, hmem, ht]
    congr 1
    · rw [List.range_succ_eq_map (n := reps + 1), List.map_cons, List.map_map, List.append_assoc]
      simp only [List.singleton_append, pow_zero, mul_one, whiteNext, Function.comp_def]
      congr 2
      apply List.map_congr_left
      intro k _
      apply List.map_congr_left
      intro j _
      rw [Nat.succ_eq_add_one, pow_succ]
      ring
    · rw [List.range_succ_eq_map (n := reps + 1), List.map_cons, List.map_map, List.append_assoc]
      simp only [List.singleton_append, Function.comp_def]
      congr 2
      apply List.map_congr_left
      intro k _
      apply List.map_congr_left
      intro j hj
      rw [Nat.succ_eq_add_one, ← whiteSpots_shift]
      have hk : ∀ (k j : Nat), j < n → ∀ (ζ : Nat → ℝ × ℝ) (p q : Nat → V3 ℝ), (∀ j < n, p j = q j) →
          whiteSpots R frame.loc ζ n p k j = whiteSpots R frame.loc ζ n q k j := by
        intro k j hj ζ p q hpq
        induction k with
        | zero => exact hpq j hj
        | succ k ih => rw [whiteSpots, whiteSpots, ih]
      exact hk k j (List.mem_range.1 hj) _ _ _ fun j hj => (hchord j hj).2.2

end trace

end Tracer
