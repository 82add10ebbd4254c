import Verif.Props.MonteCarlo
import Verif.Props.Distribution
import Verif.Lemmas.OneSurface
import Verif.Lemmas.Reversal
import Verif.Lemmas.Symmetry
import Verif.Lemmas.Drop
import Mathlib.MeasureTheory.Measure.Lebesgue.EqHaar
import Mathlib.LinearAlgebra.Determinant
import Mathlib.MeasureTheory.Constructions.Polish.Basic
import Mathlib.Probability.Independence.InfinitePi
import Mathlib.Probability.ConditionalProbability
import Mathlib.Probability.ProbabilityMassFunction.Constructions

/-!
# The power that sunlight brings to a plate (C113)

A plate that absorbs a share `a` of the light, in a parallel beam of flux `flux` that covers it, reports with more and more rays
`a` · `flux` · area · cosine of the angle of incidence.
-/

namespace Tracer

open MeasureTheory ProbabilityTheory Filter Topology Real

variable {E σ Ω : Type _}

/-! ### Areas -/

theorem rot_cross {m : M3 ℝ} (h : m.IsRotation) : V3.cross m.c1 m.c2 = m.c3 := by
  have e1 : m.c1 = m.mulVec ⟨1, 0, 0⟩ := by apply V3.ext <;> simp
  have e2 : m.c2 = m.mulVec ⟨0, 1, 0⟩ := by apply V3.ext <;> simp
  have e3 : m.c3 = m.mulVec ⟨0, 0, 1⟩ := by apply V3.ext <;> simp
  have := h.cross ⟨1, 0, 0⟩ ⟨0, 1, 0⟩
  rw [← e1, ← e2] at this
  rw [← this, e3]
  congr 1
  apply V3.ext <;> simp [V3.cross]

/-- The two-by-two minor of a change of orthonormal bases is the cosine between the third vectors. -/
theorem rot_minor {m n : M3 ℝ} (hm : m.IsRotation) (hn : n.IsRotation) :
    V3.dot m.c1 n.c1 * V3.dot m.c2 n.c2 - V3.dot m.c2 n.c1 * V3.dot m.c1 n.c2 = V3.dot m.c3 n.c3 := by
  rw [← rot_cross hm, ← rot_cross hn]
  simp [V3.dot, V3.cross]
  ring

/-- How an affine map changes areas. -/
theorem affine_area (α β γ ε x y : ℝ) (T : Set (ℝ × ℝ)) :
    volume ((fun p : ℝ × ℝ => (x + (α * p.1 + β * p.2), y + (γ * p.1 + ε * p.2))) '' T) = ENNReal.ofReal |α * ε - β * γ| * volume T := by
  set f : ℝ × ℝ →ₗ[ℝ] ℝ × ℝ := Matrix.toLin (Module.Basis.finTwoProd ℝ) (Module.Basis.finTwoProd ℝ) !![α, β; γ, ε] with hf
  have hfv : ∀ p : ℝ × ℝ, f p = (α * p.1 + β * p.2, γ * p.1 + ε * p.2) := by
    intro p
    rw [hf, Matrix.toLin_finTwoProd_apply]
  have himg : ((fun p : ℝ × ℝ => (x + (α * p.1 + β * p.2), y + (γ * p.1 + ε * p.2))) '' T) = (fun q => (x, y) + q) '' (f '' T) := by
    rw [Set.image_image]
    refine Set.image_congr fun p _ => ?_
    rw [hfv]
    rfl
  rw [himg, Set.image_add_left, measure_preimage_add, Measure.addHaar_image_linearMap, hf, LinearMap.det_toLin, Matrix.det_fin_two_of]

theorem affine_injective {α β γ ε : ℝ} (x y : ℝ) (h : α * ε - β * γ ≠ 0) :
    Function.Injective fun p : ℝ × ℝ => (x + (α * p.1 + β * p.2), y + (γ * p.1 + ε * p.2)) := by
  rintro ⟨p, q⟩ ⟨p', q'⟩ he
  simp only [Prod.mk.injEq] at he
  have h1 : (α * ε - β * γ) * (p - p') = 0 := by linear_combination ε * he.1 - β * he.2
  have h2 : (α * ε - β * γ) * (q - q') = 0 := by linear_combination α * he.2 - γ * he.1
  rcases mul_eq_zero.1 h1 with h1 | h1
  · exact absurd h1 h
  rcases mul_eq_zero.1 h2 with h2 | h2
  · exact absurd h2 h
  exact Prod.ext (by simpa using sub_eq_zero.1 h1) (by simpa using sub_eq_zero.1 h2)

/-- The area of a disk. -/
theorem disk_area {R : ℝ} (hR : 0 < R) : volume (disk R) = ENNReal.ofReal (π * R ^ 2) := by
  have h := polar_volume hR MeasurableSet.univ
  simp only [Set.preimage_univ, Set.univ_inter] at h
  have hd : draws = Set.Ico (0 : ℝ) 1 ×ˢ Set.Ico 0 (2 * π) := by ext d; simp [draws]
  rw [← h, hd, Measure.volume_eq_prod, Measure.prod_prod, Real.volume_Ico, Real.volume_Ico, ← ENNReal.ofReal_mul (by norm_num),
    ← ENNReal.ofReal_mul (by positivity)]
  congr 1
  ring

/-! ### The shadow of a plate -/

/-- Points of the plate, given by their local coordinates, seen along the beam. -/
def shadowOf (center direction : V3 ℝ) (F : Tf ℝ) (T : Set (ℝ × ℝ)) : Set (ℝ × ℝ) :=
  (fun p : ℝ × ℝ => (V3.dot (F.point ⟨p.1, p.2, 0⟩ - center) (rotationToZ direction).c1,
    V3.dot (F.point ⟨p.1, p.2, 0⟩ - center) (rotationToZ direction).c2)) '' T

section
variable {center direction : V3 ℝ} {F : Tf ℝ} {T A S : Set (ℝ × ℝ)} {outside : Tf ℝ → V3 ℝ → Bool}

theorem shadow_point (p : ℝ × ℝ) : (V3.dot (F.point ⟨p.1, p.2, 0⟩ - center) (rotationToZ direction).c1,
    V3.dot (F.point ⟨p.1, p.2, 0⟩ - center) (rotationToZ direction).c2) =
    (V3.dot (F.loc - center) (rotationToZ direction).c1 +
        (V3.dot F.rot.c1 (rotationToZ direction).c1 * p.1 + V3.dot F.rot.c2 (rotationToZ direction).c1 * p.2),
      V3.dot (F.loc - center) (rotationToZ direction).c2 +
        (V3.dot F.rot.c1 (rotationToZ direction).c2 * p.1 + V3.dot F.rot.c2 (rotationToZ direction).c2 * p.2)) := by
  refine Prod.ext ?_ ?_ <;> simp [Tf.point, M3.mulVec, V3.dot] <;> ring

theorem shadow_eq : shadowOf center direction F T =
    (fun p : ℝ × ℝ => (V3.dot (F.loc - center) (rotationToZ direction).c1 +
        (V3.dot F.rot.c1 (rotationToZ direction).c1 * p.1 + V3.dot F.rot.c2 (rotationToZ direction).c1 * p.2),
      V3.dot (F.loc - center) (rotationToZ direction).c2 +
        (V3.dot F.rot.c1 (rotationToZ direction).c2 * p.1 + V3.dot F.rot.c2 (rotationToZ direction).c2 * p.2))) '' T := by
  unfold shadowOf
  exact Set.image_congr fun p _ => shadow_point p

theorem shadow_area (hd : direction.IsUnit) (hF : F.Rigid) :
    volume (shadowOf center direction F T) = ENNReal.ofReal |V3.dot direction F.rot.c3| * volume T := by
  obtain ⟨r1, r2, _⟩ := C27_rotation_to_z hd
  rw [shadow_eq, affine_area, rot_minor hF r1, r2, V3.dot_comm']

theorem shadow_measurable (hd : direction.IsUnit) (hF : F.Rigid) (hcos : V3.dot direction F.rot.c3 ≠ 0) (hT : MeasurableSet T) :
    MeasurableSet (shadowOf center direction F T) := by
  obtain ⟨r1, r2, _⟩ := C27_rotation_to_z hd
  rw [shadow_eq]
  refine hT.image_of_continuousOn_injOn (Continuous.continuousOn (by fun_prop)) (Function.Injective.injOn (affine_injective _ _ ?_))
  rw [rot_minor hF r1, r2, V3.dot_comm']
  exact hcos

theorem shadow_injective (hd : direction.IsUnit) (hF : F.Rigid) (hcos : V3.dot direction F.rot.c3 ≠ 0) :
    Function.Injective fun p : ℝ × ℝ => (V3.dot (F.point ⟨p.1, p.2, 0⟩ - center) (rotationToZ direction).c1,
      V3.dot (F.point ⟨p.1, p.2, 0⟩ - center) (rotationToZ direction).c2) := by
  obtain ⟨r1, r2, _⟩ := C27_rotation_to_z hd
  have e : (fun p : ℝ × ℝ => (V3.dot (F.point ⟨p.1, p.2, 0⟩ - center) (rotationToZ direction).c1,
      V3.dot (F.point ⟨p.1, p.2, 0⟩ - center) (rotationToZ direction).c2)) = _ := funext fun p => shadow_point p
  rw [e]
  refine affine_injective _ _ ?_
  rw [rot_minor hF r1, r2, V3.dot_comm']
  exact hcos

theorem rot_expand {m : M3 ℝ} (h : m.IsRotation) (v : V3 ℝ) : m.mulVec ⟨V3.dot v m.c1, V3.dot v m.c2, V3.dot v m.c3⟩ = v := by
  have e : (⟨V3.dot v m.c1, V3.dot v m.c2, V3.dot v m.c3⟩ : V3 ℝ) = m.inv.mulVec v := by
    rw [h.inv_eq]
    apply V3.ext <;> simp [V3.dot, M3.transpose] <;> ring
  rw [e, M3.mulVec_inv_mulVec h.det_ne]

theorem rot_third {m : M3 ℝ} (h : m.IsRotation) (v : V3 ℝ) : V3.dot (m.mulVec v) m.c3 = v.z := by
  have e3 : m.c3 = m.mulVec ⟨0, 0, 1⟩ := by apply V3.ext <;> simp
  conv_lhs => rw [e3]
  rw [h.dot]
  simp [V3.dot]

theorem rot_split (m : M3 ℝ) (x y s : ℝ) : m.mulVec ⟨x, y, s⟩ = m.mulVec ⟨x, y, 0⟩ + s • m.c3 := by
  apply V3.ext <;> simp <;> ring

/-- A ray of the beam meets the plate if its start is in the plate's shadow, and only then. -/
theorem plate_hit (hA : ∀ p, outside F p = false ↔ ((F.inv.point p).x, (F.inv.point p).y) ∈ A)
    (hd : direction.IsUnit) (hF : F.Rigid) (hcos : 1 / 10 ^ 10 < |V3.dot direction F.rot.c3|)
    (hfront : ∀ q ∈ A, 1 / 10 ^ 6 < V3.dot (F.point ⟨q.1, q.2, 0⟩ - center) direction) (x y : ℝ) :
    (∀ u v, (u, v) ∈ A → (x, y) ∈ shadowOf center direction F {(u, v)} → ∃ t : ℝ, finiteParam outside F
      ((rotationToZ direction).mulVec ⟨x, y, 0⟩ + center) direction = (t : WithTop ℝ) ∧ 1 / 10 ^ 6 < t ∧
      (rotationToZ direction).mulVec ⟨x, y, 0⟩ + center + t • direction = F.point ⟨u, v, 0⟩) ∧
    ((x, y) ∉ shadowOf center direction F A →
      finiteParam outside F ((rotationToZ direction).mulVec ⟨x, y, 0⟩ + center) direction = ⊤) := by
  obtain ⟨r1, r2, _⟩ := C27_rotation_to_z hd
  have hrot := (M3.isRotation_iff _).1 r1
  constructor
  · rintro u v huvA ⟨_, rfl, huv⟩
    have hf := hfront _ huvA
    simp only [Prod.mk.injEq] at huv
    have hp := rot_expand r1 (F.point ⟨u, v, 0⟩ - center)
    rw [huv.1, huv.2, r2] at hp
    set s := V3.dot (F.point ⟨u, v, 0⟩ - center) direction with hs
    have hpt : (rotationToZ direction).mulVec ⟨x, y, 0⟩ + center + s • direction = F.point ⟨u, v, 0⟩ := by
      have e : (rotationToZ direction).mulVec ⟨x, y, s⟩ = (rotationToZ direction).mulVec ⟨x, y, 0⟩ + s • direction := by
        rw [rot_split, r2]
      rw [e] at hp
      have hx := congrArg V3.x hp
      have hy := congrArg V3.y hp
      have hz := congrArg V3.z hp
      simp only [V3.add_x, V3.add_y, V3.add_z, V3.sub_x, V3.sub_y, V3.sub_z] at hx hy hz
      apply V3.ext <;> simp only [V3.add_x, V3.add_y, V3.add_z] <;> linarith
    refine ⟨s, finiteParam_iff.2 ⟨hcos, ?_, by linarith [show (0 : ℝ) < 1 / 10 ^ 6 by norm_num], ?_⟩, hf, hpt⟩
    · have h0 : V3.dot (F.point ⟨u, v, 0⟩ - F.loc) F.rot.c3 = 0 := by
        have e : F.point ⟨u, v, 0⟩ - F.loc = F.rot.mulVec ⟨u, v, 0⟩ := by
          unfold Tf.point
          apply V3.ext <;> simp
        rw [e, rot_third hF]
      rw [← hpt] at h0
      simp only [V3.dot, V3.add_x, V3.add_y, V3.add_z, V3.sub_x, V3.sub_y, V3.sub_z, V3.smul_x, V3.smul_y, V3.smul_z] at h0 ⊢
      linarith
    · rw [hpt, hA, Tf.inv_point_point (M3.IsRotation.det_ne hF)]
      exact huvA
  · intro hno
    generalize hfp : finiteParam outside F ((rotationToZ direction).mulVec ⟨x, y, 0⟩ + center) direction = P
    cases P with
    | top => rfl
    | coe t =>
      exfalso
      apply hno
      obtain ⟨_, h2, h3, h4⟩ := finiteParam_iff.1 hfp
      set p := (rotationToZ direction).mulVec ⟨x, y, 0⟩ + center + t • direction with hp
      have hl : F.point (F.inv.point p) = p := Tf.point_inv_point (M3.IsRotation.det_ne hF) p
      have hz : (F.inv.point p).z = 0 := by
        have h0 : V3.dot (p - F.loc) F.rot.c3 = 0 := by
          rw [hp]
          simp only [V3.dot, V3.add_x, V3.add_y, V3.add_z, V3.sub_x, V3.sub_y, V3.sub_z, V3.smul_x, V3.smul_y, V3.smul_z] at h2 ⊢
          linarith
        rw [← hl] at h0
        have e : F.point (F.inv.point p) - F.loc = F.rot.mulVec (F.inv.point p) := by
          unfold Tf.point
          apply V3.ext <;> simp
        rw [e, rot_third hF] at h0
        exact h0
      refine ⟨((F.inv.point p).x, (F.inv.point p).y), (hA p).1 h4, ?_⟩
      have e : (⟨(F.inv.point p).x, (F.inv.point p).y, 0⟩ : V3 ℝ) = F.inv.point p := V3.ext rfl rfl hz.symm
      have e1 : p - center = (rotationToZ direction).mulVec ⟨x, y, t⟩ := by
        rw [hp, rot_split _ x y t, r2]
        apply V3.ext <;> simp <;> ring
      show (V3.dot (F.point ⟨(F.inv.point p).x, (F.inv.point p).y, 0⟩ - center) _, V3.dot (F.point ⟨(F.inv.point p).x, (F.inv.point p).y, 0⟩ - center) _) = _
      rw [e, hl, e1, (rot_coords r1 _).1, (rot_coords r1 _).2]

/-- In a scene with one flat surface, only the first flight counts. -/
theorem lone_flow {φ : V3 ℝ → ℝ} {s : Surf σ ℝ E} {w : σ} {minE : ℝ} (hs : FlatMirror s) (n : Nat) (g : Going ℝ E) :
    flow φ Surf.single (Surf.alone w) (plainPolicy (lone s)) (sites (lone s)) minE ⟨0, 0, s⟩ (n + 1) [g] =
      brings φ Surf.single (plainPolicy (lone s)) (sites (lone s)) ⟨0, 0, s⟩ g := by
  classical
  have no : ∀ c : Going ℝ E, s.single c.ray = ((0 : ℝ) : WithTop ℝ) →
      ¬ c.Meets dropTol Surf.single (plainPolicy (lone s)) (sites (lone s)) ⟨0, 0, s⟩ := by
    rintro c hc ⟨_, t, ht, hlt, _⟩
    have := WithTop.coe_injective (hc.symm.trans ht)
    rw [← this] at hlt
    have h6 : (0 : ℝ) < dropTol := by unfold dropTol; norm_num
    linarith
  have zero : ∀ n (c : Going ℝ E), s.single c.ray = ((0 : ℝ) : WithTop ℝ) →
      flow φ Surf.single (Surf.alone w) (plainPolicy (lone s)) (sites (lone s)) minE ⟨0, 0, s⟩ n [c] = 0 := by
    intro n c hc
    cases n with
    | zero => rfl
    | succ n =>
      rw [flow_step]
      unfold brings
      rw [if_neg (no c hc), lone_sites, List.map_singleton, List.sum_singleton]
      rw [lone_sites] at no
      rw [if_neg (no c hc), add_zero]
  rw [flow_step]
  refine (add_eq_left).2 ?_
  rw [lone_sites, List.map_singleton, List.sum_singleton, ← lone_sites]
  split
  · refine List.sum_eq_zero fun v hv => ?_
    obtain ⟨c, hc, rfl⟩ := List.mem_map.1 hv
    obtain ⟨q, hq, rfl⟩ := List.mem_map.1 (List.mem_of_mem_filter hc)
    exact zero n _ ((hs.spec w).2.2.2.2 _ q hq)
  · rfl

open Classical in
/-- The weight 1 for the points of a surface whose local coordinates x, y are in `S`, and 0 for the others. -/
noncomputable def cell (F : Tf ℝ) (S : Set (ℝ × ℝ)) (p : V3 ℝ) : ℝ := if ((F.inv.point p).x, (F.inv.point p).y) ∈ S then 1 else 0

theorem cell_weights (F : Tf ℝ) (hS : MeasurableSet S) : Weights (cell F S) := by
  classical
  constructor
  · have h : Measurable fun p : ℝ × ℝ × ℝ => ((F.inv.point ⟨p.1, p.2.1, p.2.2⟩).x, (F.inv.point ⟨p.1, p.2.1, p.2.2⟩).y) := by
      have hid : V3M fun p : ℝ × ℝ × ℝ => (⟨p.1, p.2.1, p.2.2⟩ : V3 ℝ) :=
        ⟨measurable_fst, measurable_fst.comp measurable_snd, measurable_snd.comp measurable_snd⟩
      have := (V3M.mulVec F.inv.rot hid).add (V3M.const F.inv.loc)
      exact this.x.prodMk this.y
    exact Measurable.ite (h hS) measurable_const measurable_const
  · refine ⟨1, fun p => ?_⟩
    unfold cell
    split <;> norm_num

theorem beam_map [MeasurableSpace Ω] {μ : Measure Ω} [IsProbabilityMeasure μ] {radius flux a minE : ℝ} {g : Geometry ℝ E}
    {get : σ → Account ℝ} {set : Account ℝ → σ → σ} (hgs : ∀ acc w, get (set acc w) = acc) {w : σ} (h0 : get w = Account.reset)
    (hgeo : g = finiteFlatGM outside) (hfg : FlatGeometry g) (hA : ∀ p, outside F p = false ↔ ((F.inv.point p).x, (F.inv.point p).y) ∈ A)
    (hAm : MeasurableSet A) (hS : MeasurableSet S) (hF : F.Rigid) (hd : direction.IsUnit) (hR : 0 < radius)
    (hcos : 1 / 10 ^ 10 < |V3.dot direction F.rot.c3|)
    (hfront : ∀ q ∈ A, 1 / 10 ^ 6 < V3.dot (F.point ⟨q.1, q.2, 0⟩ - center) direction)
    (hcover : ∀ q ∈ A, V3.dist2 (F.point ⟨q.1, q.2, 0⟩) center < radius ^ 2 + V3.dot (F.point ⟨q.1, q.2, 0⟩ - center) direction ^ 2)
    (extra : E) {reps : Nat} (hreps : 0 < reps)
    {D : Nat → Ω → angleDraws ×ˢ draws} (hD : ∀ i, Measurable (D i)) (hind : Pairwise fun i j => IndepFun (D i) (D j) μ)
    (hid : ∀ i, IdentDistrib (D i) (D 0) μ μ) (heven : ∀ S, MeasurableSet S → μ {ω | (D 0 ω).1.2 ∈ S} = fraction draws S)
    {got : Nat → Ω → ℝ}
    (hgot : ∀ n ω, 0 < n → ∃ src b, solarDisk center direction radius 0 (some flux) ((List.range n).map fun i => (D i ω).1.1)
      ((List.range n).map fun i => (D i ω).1.2) = .ok src ∧ src.rays extra = .ok b ∧
      Collects (lone (mkSurf g (accountant a get set (reflective a)) F)) w get (cell F S) b reps minE (got n ω)) :
    ∀ᵐ ω ∂μ, Tendsto (fun n => got n ω) atTop (𝓝 (a * flux * (|V3.dot direction F.rot.c3| * (volume (S ∩ A)).toReal))) := by
  classical
  obtain ⟨r1, r2, _⟩ := C27_rotation_to_z hd
  have hcos0 : V3.dot direction F.rot.c3 ≠ 0 := by
    intro h
    rw [h, abs_zero] at hcos
    norm_num at hcos
  set s : Surf σ ℝ E := mkSurf g (accountant a get set (reflective a)) F with hs
  have hfl : FlatMirror s := ⟨g, _, F, rfl, hfg, .receiver _ _ _ _ (.mirror _), ((M3.isRotation_iff _).1 hF).1.2.2.1⟩
  have hw : WatchedScene (lone s) w get a := by
    refine ⟨lone_plain s, lone_mirrors hfg.plain (.receiver _ _ _ _ (.mirror _)), h0, ⟨0, 0, s⟩, ?_, g, _, F, set, rfl, hgs,
      (C51_reflective a get).1, ?_⟩
    · rw [lone_sites]; exact List.mem_singleton_self _
    · intro y hy hne
      rw [lone_sites, List.mem_singleton] at hy
      exact absurd ⟨by rw [hy], by rw [hy]⟩ hne
  -- the rays
  set ray : angleDraws ×ˢ draws → Ray ℝ E := fun d => sunRay center direction radius 0 flux extra d.1 with hray
  have hdir : ∀ d, (ray d).dir = direction := by
    intro d
    show (rotationToZ direction).mulVec (pillboxOne 0 _ _) = _
    unfold pillboxOne
    simp only [sin_zero, zero_mul, arcsin_zero, mul_zero, cos_zero]
    conv_rhs => rw [← r2]
    apply V3.ext <;> simp
  have hsingle : ∀ d, s.single (ray d) = finiteParam outside F
      ((rotationToZ direction).mulVec ⟨(polarPoint radius d.1.2).1, (polarPoint radius d.1.2).2, 0⟩ + center) direction := by
    intro d
    unfold Surf.single
    rw [hs, hgeo, mkSurf_perRay (finiteFlatGM_perRay _) _ F]
    show finiteParam _ F (ray d).vertex (ray d).dir = _
    rw [hdir]
    rfl
  have hhit := plate_hit (center := center) hA hd hF hcos hfront
  have hyes : ∀ d : angleDraws ×ˢ draws, polarPoint radius d.1.2 ∈ shadowOf center direction F A → ∃ u v t, (u, v) ∈ A ∧
      polarPoint radius d.1.2 ∈ shadowOf center direction F {(u, v)} ∧ s.single (ray d) = ((t : ℝ) : WithTop ℝ) ∧ 1 / 10 ^ 6 < t ∧
      (ray d).at t = F.point ⟨u, v, 0⟩ := by
    rintro d ⟨⟨u, v⟩, huv, he⟩
    obtain ⟨t, h1, h2, h3⟩ := (hhit (polarPoint radius d.1.2).1 (polarPoint radius d.1.2).2).1 u v huv ⟨_, rfl, he⟩
    refine ⟨u, v, t, huv, ⟨_, rfl, he⟩, (hsingle d).trans h1, h2, ?_⟩
    unfold Ray.at
    rw [hdir]
    exact h3
  have hno : ∀ d : angleDraws ×ˢ draws, polarPoint radius d.1.2 ∉ shadowOf center direction F A → s.single (ray d) = ⊤ := fun d h =>
    (hsingle d).trans ((hhit (polarPoint radius d.1.2).1 (polarPoint radius d.1.2).2).2 h)
  have hset : ∀ d m, GoingsSettled Surf.single (Surf.alone w) (plainPolicy (lone s)) (sites (lone s)) m [ray d] reps := by
    intro d m
    refine flat_settled (lone_plain s) (fun o ho t ht => ?_) fun o ho t ht u hu => ?_
    · rw [lone, List.mem_singleton] at ho
      subst ho
      rw [List.mem_singleton] at ht
      rw [ht]
      exact hfl
    · rw [lone, List.mem_singleton] at ho
      subst ho
      rw [List.mem_singleton] at ht
      rw [ht] at hu
      by_cases h : polarPoint radius d.1.2 ∈ shadowOf center direction F A
      · obtain ⟨_, _, t', _, _, ht', hlt, _⟩ := hyes d h
        rw [← WithTop.coe_injective (ht'.symm.trans hu)]
        exact Or.inr hlt
      · exact absurd ((hno d h).symm.trans hu) WithTop.top_ne_coe
  -- what one ray brings
  set B := shadowOf center direction F (S ∩ A) with hB
  set c : ℝ := a * (π * radius ^ 2 * flux) with hc
  have hpower : ∀ d m e, Collects (lone s) w get (cell F S) [ray d] reps m e → e = if polarPoint radius d.1.2 ∈ B then c else 0 := by
    intro d m e he
    obtain ⟨x, hx, hflow⟩ := collects_flow (cell F S) (reps := reps) hw
    rw [lone_sites, List.mem_singleton] at hx
    have h1 := hflow _ _ _ (by intro r hr; rw [List.mem_singleton] at hr; rw [hr]; exact hset d m) he
    obtain ⟨k, rfl⟩ : ∃ k, reps = k + 1 := ⟨reps - 1, by omega⟩
    rw [hx, List.map_singleton, lone_flow hfl] at h1
    rw [h1]
    unfold brings
    by_cases h : polarPoint radius d.1.2 ∈ shadowOf center direction F A
    · obtain ⟨u, v, t, huv, hsh, ht, hlt, hat⟩ := hyes d h
      have hm := lone_meets (s := s) (g := ⟨ray d, none⟩) (cut := dropTol) ht hlt le_rfl
      rw [if_pos hm]
      have hspot : spot Surf.single (⟨0, 0, s⟩ : Site σ ℝ E) (ray d) = F.point ⟨u, v, 0⟩ := by
        unfold spot
        rw [ht, WithTop.untopD_coe, hat]
      have hcell : cell F S (spot Surf.single (⟨0, 0, s⟩ : Site σ ℝ E) (ray d)) = if polarPoint radius d.1.2 ∈ B then 1 else 0 := by
        rw [hspot]
        unfold cell
        rw [Tf.inv_point_point (M3.IsRotation.det_ne hF)]
        refine if_congr ?_ rfl rfl
        obtain ⟨_, rfl, hq⟩ := hsh
        constructor
        · exact fun hin => ⟨(u, v), ⟨hin, huv⟩, hq⟩
        · rintro ⟨q', ⟨hq1, hq2⟩, he⟩
          have : q' = (u, v) := by
            refine shadow_injective (center := center) hd hF hcos0 (he.trans hq.symm)
          rw [← this]
          exact hq1
      show a * ((ray d).energy * cell F S (spot Surf.single (⟨0, 0, s⟩ : Site σ ℝ E) (ray d))) = _
      rw [hcell]
      have he : (ray d).energy = π * radius ^ 2 * flux := rfl
      rw [he, hc]
      split <;> simp
    · have hm := lone_misses (s := s) (g := ⟨ray d, none⟩) (cut := dropTol) (hno d h)
      rw [if_neg hm, mul_zero, if_neg]
      rintro ⟨q, hq, he⟩
      exact h ⟨q, hq.2, he⟩
  have hcoll : ∀ d m, Collects (lone s) w get (cell F S) [ray d] reps m (if polarPoint radius d.1.2 ∈ B then c else 0) := by
    intro d m
    obtain ⟨e, he⟩ := C113_exists hw (cell F S) [ray d] reps m
    rw [← hpower d m e he]
    exact he
  -- with threshold 0
  have hex : ∀ n ω, ∃ e, Collects (lone s) w get (cell F S) (drawnBundle ray (fun i => D i ω) n) reps (0 / n) e :=
    fun n ω => C113_exists hw _ _ _ _
  choose got0 hgot0 using hex
  have hsame : ∀ n ω, 0 < n → got n ω = got0 n ω := by
    intro n ω hn
    have e0 := C113_average hw ray (fun i => D i ω) (fun d => hset d 0) (fun d => hcoll d 0) hn (hgot0 n ω)
    obtain ⟨src, b, h1, h2, h3⟩ := hgot n ω hn
    rw [solarDisk_drawn center direction radius 0 flux extra (fun i => (D i ω).1) hn h1 h2] at h3
    have hn' : (n : ℝ) ≠ 0 := by positivity
    have em : minE = n * minE / n := by field_simp
    rw [em] at h3
    rw [e0]
    exact C113_average hw ray (fun i => D i ω) (fun d => hset d _) (fun d => hcoll d _) hn h3
  have hrm : RayM ray := by
    have h := sunRay_measurable center direction radius 0 flux extra
    exact ⟨⟨h.vertex.x.comp measurable_subtype_coe, h.vertex.y.comp measurable_subtype_coe, h.vertex.z.comp measurable_subtype_coe⟩,
      ⟨h.dir.x.comp measurable_subtype_coe, h.dir.y.comp measurable_subtype_coe, h.dir.z.comp measurable_subtype_coe⟩,
      h.energy.comp measurable_subtype_coe⟩
  have hlim := (C113_converges (m := 0) (reps := reps) hw (cell_weights F hS) hrm (B := |π * radius ^ 2 * flux|) (fun d => le_rfl)
    (fun d => hset d 0) (fun d => hcoll d 0) hD hind hid fun n ω _ => hgot0 n ω).2
  -- the mean
  have hBm : MeasurableSet B := shadow_measurable hd hF hcos0 (hS.inter hAm)
  have hBd : B ∩ disk radius = B := by
    refine Set.inter_eq_left.2 ?_
    rintro q ⟨⟨u, v⟩, ⟨_, huv⟩, rfl⟩
    have h := hcover _ huv
    have he := rot_expand r1 (F.point ⟨u, v, 0⟩ - center)
    have hsq : V3.dist2 (F.point ⟨u, v, 0⟩) center = V3.dot (F.point ⟨u, v, 0⟩ - center) (rotationToZ direction).c1 ^ 2 +
        V3.dot (F.point ⟨u, v, 0⟩ - center) (rotationToZ direction).c2 ^ 2 + V3.dot (F.point ⟨u, v, 0⟩ - center) (rotationToZ direction).c3 ^ 2 := by
      unfold V3.dist2
      conv_lhs => rw [← he]
      rw [r1.dot]
      simp only [V3.dot]
      ring
    rw [hsq, r2] at h
    show _ ^ 2 + _ ^ 2 < radius ^ 2
    linarith
  have hpp := measurable_polarPoint radius
  have hH : MeasurableSet {ω | (D 0 ω).1.2 ∈ polarPoint radius ⁻¹' B} :=
    (measurable_snd.comp (measurable_subtype_coe.comp (hD 0))) (hpp hBm)
  have hmean : ∫ ω, (if polarPoint radius (D 0 ω).1.2 ∈ B then c else 0) ∂μ =
      a * flux * (|V3.dot direction F.rot.c3| * (volume (S ∩ A)).toReal) := by
    have e : (fun ω => if polarPoint radius (D 0 ω).1.2 ∈ B then c else 0) =
        Set.indicator {ω | (D 0 ω).1.2 ∈ polarPoint radius ⁻¹' B} fun _ => c := by
      funext ω
      rw [Set.indicator_apply]
      rfl
    rw [e, integral_indicator_const _ hH]
    unfold Measure.real
    rw [heven _ (hpp hBm), polar_fraction hR hBm]
    unfold fraction
    rw [hBd, shadow_area hd hF, disk_area hR, ENNReal.toReal_div, ENNReal.toReal_mul, ENNReal.toReal_ofReal (abs_nonneg _),
      ENNReal.toReal_ofReal (by positivity), smul_eq_mul, hc]
    have hp := pi_pos.ne'
    have hr := hR.ne'
    field_simp
  rw [hmean] at hlim
  filter_upwards [hlim] with ω hω
  refine hω.congr' ?_
  filter_upwards [eventually_gt_atTop 0] with n hn
  exact (hsame n ω hn).symm

/-- C113: the flux map of a plate in sunlight.  A rectangular plate that absorbs a share `a` of the light stands, as the only surface, in the
parallel beam of `solar_disk_bundle(n, center, direction, radius, 0, flux)`, which covers it.  With more and more rays the energies that its
receiver reports in any part `S` of the plate add up to `a` times the flux times the area of this part times the cosine of the angle of
incidence.  The energy threshold does not matter. -/
theorem C113_plate [MeasurableSpace Ω] {μ : Measure Ω} [IsProbabilityMeasure μ] {width height radius flux a minE : ℝ} {g : Geometry ℝ E}
    {get : σ → Account ℝ} {set : Account ℝ → σ → σ} (hgs : ∀ acc w, get (set acc w) = acc) {w : σ} (h0 : get w = Account.reset)
    (hg : rectPlateGM width height = .ok g) (hS : MeasurableSet S) (hF : F.Rigid) (hd : direction.IsUnit) (hR : 0 < radius)
    (hcos : 1 / 10 ^ 10 < |V3.dot direction F.rot.c3|)
    (hfront : ∀ u v, |u| ≤ width / 2 → |v| ≤ height / 2 → 1 / 10 ^ 6 < V3.dot (F.point ⟨u, v, 0⟩ - center) direction)
    (hcover : ∀ u v, |u| ≤ width / 2 → |v| ≤ height / 2 →
      V3.dist2 (F.point ⟨u, v, 0⟩) center < radius ^ 2 + V3.dot (F.point ⟨u, v, 0⟩ - center) direction ^ 2)
    (extra : E) {reps : Nat} (hreps : 0 < reps)
    {D : Nat → Ω → angleDraws ×ˢ draws} (hD : ∀ i, Measurable (D i)) (hind : Pairwise fun i j => IndepFun (D i) (D j) μ)
    (hid : ∀ i, IdentDistrib (D i) (D 0) μ μ) (heven : ∀ S, MeasurableSet S → μ {ω | (D 0 ω).1.2 ∈ S} = fraction draws S)
    {got : Nat → Ω → ℝ}
    (hgot : ∀ n ω, 0 < n → ∃ src b, solarDisk center direction radius 0 (some flux) ((List.range n).map fun i => (D i ω).1.1)
      ((List.range n).map fun i => (D i ω).1.2) = .ok src ∧ src.rays extra = .ok b ∧
      Collects (lone (mkSurf g (accountant a get set (reflective a)) F)) w get (cell F S) b reps minE (got n ω)) :
    ∀ᵐ ω ∂μ, Tendsto (fun n => got n ω) atTop (𝓝 (a * flux * (|V3.dot direction F.rot.c3| *
      (volume (S ∩ {q | |q.1| ≤ width / 2 ∧ |q.2| ≤ height / 2})).toReal))) := by
  refine beam_map (A := {q | |q.1| ≤ width / 2 ∧ |q.2| ≤ height / 2}) hgs h0 (rect_eq hg) (.rect _ _ _ hg) (fun p => ?_) ?_ hS hF hd hR hcos
    (fun q hq => hfront _ _ hq.1 hq.2) (fun q hq => hcover _ _ hq.1 hq.2) extra hreps hD hind hid heven hgot
  · unfold rectOutside toLocal
    simp
  · exact (measurableSet_le (absM measurable_fst) measurable_const).inter (measurableSet_le (absM measurable_snd) measurable_const)

/-- C113: the flux map of a round plate in sunlight. -/
theorem C113_round_plate [MeasurableSpace Ω] {μ : Measure Ω} [IsProbabilityMeasure μ] {R radius flux a minE : ℝ} {g : Geometry ℝ E}
    {get : σ → Account ℝ} {set : Account ℝ → σ → σ} (hgs : ∀ acc w, get (set acc w) = acc) {w : σ} (h0 : get w = Account.reset)
    (hg : roundPlateGM R = .ok g) (hS : MeasurableSet S) (hF : F.Rigid) (hd : direction.IsUnit) (hR : 0 < radius)
    (hcos : 1 / 10 ^ 10 < |V3.dot direction F.rot.c3|)
    (hfront : ∀ u v, u ^ 2 + v ^ 2 ≤ R ^ 2 → 1 / 10 ^ 6 < V3.dot (F.point ⟨u, v, 0⟩ - center) direction)
    (hcover : ∀ u v, u ^ 2 + v ^ 2 ≤ R ^ 2 →
      V3.dist2 (F.point ⟨u, v, 0⟩) center < radius ^ 2 + V3.dot (F.point ⟨u, v, 0⟩ - center) direction ^ 2)
    (extra : E) {reps : Nat} (hreps : 0 < reps)
    {D : Nat → Ω → angleDraws ×ˢ draws} (hD : ∀ i, Measurable (D i)) (hind : Pairwise fun i j => IndepFun (D i) (D j) μ)
    (hid : ∀ i, IdentDistrib (D i) (D 0) μ μ) (heven : ∀ S, MeasurableSet S → μ {ω | (D 0 ω).1.2 ∈ S} = fraction draws S)
    {got : Nat → Ω → ℝ}
    (hgot : ∀ n ω, 0 < n → ∃ src b, solarDisk center direction radius 0 (some flux) ((List.range n).map fun i => (D i ω).1.1)
      ((List.range n).map fun i => (D i ω).1.2) = .ok src ∧ src.rays extra = .ok b ∧
      Collects (lone (mkSurf g (accountant a get set (reflective a)) F)) w get (cell F S) b reps minE (got n ω)) :
    ∀ᵐ ω ∂μ, Tendsto (fun n => got n ω) atTop (𝓝 (a * flux * (|V3.dot direction F.rot.c3| *
      (volume (S ∩ {q | q.1 ^ 2 + q.2 ^ 2 ≤ R ^ 2})).toReal))) := by
  refine beam_map (A := {q | q.1 ^ 2 + q.2 ^ 2 ≤ R ^ 2}) hgs h0 (round_eq hg) (.round _ _ hg) (fun p => ?_) ?_ hS hF hd hR hcos
    (fun q hq => hfront q.1 q.2 (by simpa using hq)) (fun q hq => hcover q.1 q.2 (by simpa using hq)) extra hreps hD hind hid heven hgot
  · unfold roundOutside toLocal
    simp
  · exact measurableSet_le ((measurable_fst.pow_const 2).add (measurable_snd.pow_const 2)) measurable_const

/-- C113: what sunlight brings to a plate.  The energies that the receiver of the plate reports add up, with more and more rays, to `a` times
the flux times the plate's area times the cosine of the angle of incidence. -/
theorem C113_plate_total [MeasurableSpace Ω] {μ : Measure Ω} [IsProbabilityMeasure μ] {width height radius flux a minE : ℝ} {g : Geometry ℝ E}
    {get : σ → Account ℝ} {set : Account ℝ → σ → σ} (hgs : ∀ acc w, get (set acc w) = acc) {w : σ} (h0 : get w = Account.reset)
    (hg : rectPlateGM width height = .ok g) (hF : F.Rigid) (hd : direction.IsUnit) (hR : 0 < radius)
    (hcos : 1 / 10 ^ 10 < |V3.dot direction F.rot.c3|)
    (hfront : ∀ u v, |u| ≤ width / 2 → |v| ≤ height / 2 → 1 / 10 ^ 6 < V3.dot (F.point ⟨u, v, 0⟩ - center) direction)
    (hcover : ∀ u v, |u| ≤ width / 2 → |v| ≤ height / 2 →
      V3.dist2 (F.point ⟨u, v, 0⟩) center < radius ^ 2 + V3.dot (F.point ⟨u, v, 0⟩ - center) direction ^ 2)
    (extra : E) {reps : Nat} (hreps : 0 < reps)
    {D : Nat → Ω → angleDraws ×ˢ draws} (hD : ∀ i, Measurable (D i)) (hind : Pairwise fun i j => IndepFun (D i) (D j) μ)
    (hid : ∀ i, IdentDistrib (D i) (D 0) μ μ) (heven : ∀ S, MeasurableSet S → μ {ω | (D 0 ω).1.2 ∈ S} = fraction draws S)
    {got : Nat → Ω → ℝ}
    (hgot : ∀ n ω, 0 < n → ∃ src b, solarDisk center direction radius 0 (some flux) ((List.range n).map fun i => (D i ω).1.1)
      ((List.range n).map fun i => (D i ω).1.2) = .ok src ∧ src.rays extra = .ok b ∧
      Collects (lone (mkSurf g (accountant a get set (reflective a)) F)) w get (fun _ => 1) b reps minE (got n ω)) :
    ∀ᵐ ω ∂μ, Tendsto (fun n => got n ω) atTop (𝓝 (a * flux * (width * height * |V3.dot direction F.rot.c3|))) := by
  have hpos : 0 < width ∧ 0 < height := by
    unfold rectPlateGM at hg
    split at hg
    · cases hg
    · split at hg
      · cases hg
      · rename_i h1 h2
        exact ⟨not_le.1 h1, not_le.1 h2⟩
  have e1 : (fun _ : V3 ℝ => (1 : ℝ)) = cell F Set.univ := by
    funext p
    unfold cell
    rw [if_pos (Set.mem_univ _)]
  rw [e1] at hgot
  have h := C113_plate hgs h0 hg MeasurableSet.univ hF hd hR hcos hfront hcover extra hreps hD hind hid heven hgot
  have e2 : (volume (Set.univ ∩ {q : ℝ × ℝ | |q.1| ≤ width / 2 ∧ |q.2| ≤ height / 2})).toReal = width * height := by
    have e : {q : ℝ × ℝ | |q.1| ≤ width / 2 ∧ |q.2| ≤ height / 2} = Set.Icc (-(width / 2)) (width / 2) ×ˢ Set.Icc (-(height / 2)) (height / 2) := by
      ext q
      simp only [Set.mem_setOf_eq, Set.mem_prod, Set.mem_Icc, abs_le]
    rw [Set.univ_inter, e, Measure.volume_eq_prod, Measure.prod_prod, Real.volume_Icc, Real.volume_Icc, ENNReal.toReal_mul,
      ENNReal.toReal_ofReal (by linarith [hpos.1]), ENNReal.toReal_ofReal (by linarith [hpos.2])]
    ring
  rw [e2, mul_comm |_|] at h
  exact h

end

/-- Draws that are independent of each other, all from the same distribution. -/
theorem draws_exist {X : Type} [MeasurableSpace X] (ν : Measure X) [IsProbabilityMeasure ν] :
    ∃ (μ : Measure (Nat → X)) (_ : IsProbabilityMeasure μ), (∀ i, Measurable fun ω : Nat → X => ω i) ∧
      (Pairwise fun i j => IndepFun (fun ω : Nat → X => ω i) (fun ω : Nat → X => ω j) μ) ∧
      (∀ i, IdentDistrib (fun ω : Nat → X => ω i) (fun ω : Nat → X => ω 0) μ μ) ∧ ∀ S, MeasurableSet S → μ {ω | ω 0 ∈ S} = ν S := by
  refine ⟨Measure.infinitePi fun _ => ν, inferInstance, fun i => measurable_pi_apply i, fun i j hij => ?_, fun i => ?_, fun S hS => ?_⟩
  · exact (iIndepFun_infinitePi (P := fun _ : Nat => ν) (X := fun _ x => x) (fun _ => measurable_id)).indepFun hij
  · refine ⟨(measurable_pi_apply i).aemeasurable, (measurable_pi_apply 0).aemeasurable, ?_⟩
    have h := fun i => (measurePreserving_eval_infinitePi (fun _ : Nat => ν) i).map_eq
    exact (h i).trans (h 0).symm
  · exact (measurePreserving_eval_infinitePi (fun _ : Nat => ν) 0).measure_preimage hS.nullMeasurableSet

/-- Draws as `solar_disk_bundle` makes them. -/
theorem even_draws : ∃ ν : Measure (angleDraws ×ˢ draws), IsProbabilityMeasure ν ∧ ∀ S, MeasurableSet S → ν {d | d.1.2 ∈ S} = fraction draws S := by
  have hd : draws = Set.Ico (0 : ℝ) 1 ×ˢ Set.Ico (0 : ℝ) (2 * π) := rfl
  have hm : MeasurableSet draws := measurableSet_Ico.prod measurableSet_Ico
  have hv : volume draws ≠ 0 ∧ volume draws ≠ ⊤ := by
    rw [hd, Measure.volume_eq_prod, Measure.prod_prod, Real.volume_Ico, Real.volume_Ico, ← ENNReal.ofReal_mul (by norm_num)]
    have := Real.pi_pos
    refine ⟨?_, ENNReal.ofReal_ne_top⟩
    rw [Ne, ENNReal.ofReal_eq_zero, not_le]
    linarith
  have h0 : ((0, 0) : ℝ × ℝ) ∈ angleDraws := by
    have := Real.pi_pos
    refine ⟨⟨le_rfl, ?_⟩, le_rfl, one_pos⟩
    show (0 : ℝ) < 2 * Real.pi
    positivity
  have : IsProbabilityMeasure (cond volume draws) := cond_isProbabilityMeasure_of_finite hv.1 hv.2
  let f : draws → (angleDraws ×ˢ draws : Set ((ℝ × ℝ) × (ℝ × ℝ))) := fun d => ⟨((0, 0), d.1), ⟨h0, d.2⟩⟩
  have hf : Measurable f := Measurable.subtype_mk (measurable_const.prodMk measurable_subtype_coe)
  have hval : ∀ S, MeasurableSet S → (Measure.comap Subtype.val (cond volume draws)) {d : draws | d.1 ∈ S} = fraction draws S := by
    intro S hS
    rw [comap_subtype_coe_apply hm]
    have e : (Subtype.val '' {d : draws | d.1 ∈ S}) = S ∩ draws := by
      ext p
      constructor
      · rintro ⟨d, hd, rfl⟩; exact ⟨hd, d.2⟩
      · rintro ⟨h1, h2⟩; exact ⟨⟨p, h2⟩, h1, rfl⟩
    rw [e, cond_apply hm]
    unfold fraction
    rw [ENNReal.div_eq_inv_mul]
    rw [Set.inter_comm S draws, ← Set.inter_assoc, Set.inter_self]
  have hp : IsProbabilityMeasure (Measure.comap Subtype.val (cond volume draws) : Measure draws) := by
    refine ⟨?_⟩
    have := hval Set.univ MeasurableSet.univ
    simp only [Set.mem_univ, Set.setOf_true] at this
    rw [this]
    unfold fraction
    rw [Set.univ_inter, ENNReal.div_self hv.1 hv.2]
  refine ⟨Measure.map f (Measure.comap Subtype.val (cond volume draws)), Measure.isProbabilityMeasure_map hf.aemeasurable, fun S hS => ?_⟩
  have hS' : MeasurableSet {d : (angleDraws ×ˢ draws : Set ((ℝ × ℝ) × (ℝ × ℝ))) | d.1.2 ∈ S} := (measurable_snd.comp measurable_subtype_coe) hS
  rw [Measure.map_apply hf hS']
  exact hval S hS

/-- A plate of 2 by 2, which absorbs half the light, 5 under a sun of radius 2 and flux 1000 in the zenith, collects 2000. -/
example (reps : Nat) (hreps : 0 < reps) (minE : ℝ) : ∃ (g : Geometry ℝ Unit) (μ : Measure (Nat → (angleDraws ×ˢ draws : Set ((ℝ × ℝ) × (ℝ × ℝ)))))
    (got : Nat → (Nat → (angleDraws ×ˢ draws : Set ((ℝ × ℝ) × (ℝ × ℝ)))) → ℝ), rectPlateGM 2 2 = .ok g ∧ IsProbabilityMeasure μ ∧
    (∀ n ω, 0 < n → ∃ src b, solarDisk ⟨0, 0, 5⟩ ⟨0, 0, -1⟩ 2 0 (some 1000) ((List.range n).map fun i => (ω i).1.1)
      ((List.range n).map fun i => (ω i).1.2) = .ok src ∧ src.rays () = .ok b ∧
      Collects (lone (mkSurf g (accountant (1 / 2) id (fun a _ => a) (reflective (1 / 2))) 1)) Account.reset id (fun _ => 1) b reps minE (got n ω)) ∧
    ∀ᵐ ω ∂μ, Tendsto (fun n => got n ω) atTop (𝓝 2000) := by
  obtain ⟨ν, hν, heven⟩ := even_draws
  obtain ⟨μ, hμ, hD, hind, hid, hlaw⟩ := draws_exist ν
  obtain ⟨g, hg⟩ : ∃ g : Geometry ℝ Unit, rectPlateGM 2 2 = .ok g := ⟨_, by unfold rectPlateGM; rw [if_neg (by norm_num), if_neg (by norm_num)]⟩
  set s : Surf (Account ℝ) ℝ Unit := mkSurf g (accountant (1 / 2) id (fun a _ => a) (reflective (1 / 2))) 1 with hs
  have hw : WatchedScene (lone s) Account.reset id (1 / 2) := by
    refine ⟨lone_plain s, lone_mirrors (.rect _ _ _ hg) (.receiver _ _ _ _ (.mirror _)), rfl, ⟨0, 0, s⟩, ?_, g, _, 1, _, rfl, fun _ _ => rfl,
      (C51_reflective _ id).1, ?_⟩
    · rw [lone_sites]; exact List.mem_singleton_self _
    · intro y hy hne
      rw [lone_sites, List.mem_singleton] at hy
      exact absurd ⟨by rw [hy], by rw [hy]⟩ hne
  have hex : ∀ n ω, ∃ e, 0 < n → ∃ src b, solarDisk ⟨0, 0, 5⟩ ⟨0, 0, -1⟩ 2 0 (some 1000) ((List.range n).map fun i => ((ω : Nat → (angleDraws ×ˢ draws : Set ((ℝ × ℝ) × (ℝ × ℝ)))) i).1.1)
      ((List.range n).map fun i => (ω i).1.2) = .ok src ∧ src.rays () = .ok b ∧ Collects (lone s) Account.reset id (fun _ => 1) b reps minE e := by
    intro n ω
    rcases Nat.eq_zero_or_pos n with rfl | hn
    · exact ⟨0, fun h => absurd h (lt_irrefl _)⟩
    · obtain ⟨src, h1⟩ : ∃ src, solarDisk ⟨0, 0, 5⟩ ⟨0, 0, -1⟩ 2 0 (some 1000) ((List.range n).map fun i => (ω i).1.1)
          ((List.range n).map fun i => (ω i).1.2) = .ok src := ⟨_, by unfold solarDisk; rw [if_neg (by simp; omega)]⟩
      obtain ⟨b, h2⟩ : ∃ b, src.rays () = .ok b := by
        unfold solarDisk at h1
        rw [if_neg (by simp; omega)] at h1
        cases h1
        exact ⟨_, rfl⟩
      obtain ⟨e, he⟩ := C113_exists hw (fun _ => 1) b reps minE
      exact ⟨e, fun _ => ⟨src, b, h1, h2, he⟩⟩
  choose got hgot using hex
  refine ⟨g, μ, got, hg, hμ, hgot, ?_⟩
  have h := C113_plate_total (center := ⟨0, 0, 5⟩) (direction := ⟨0, 0, -1⟩) (F := 1) (width := 2) (height := 2) (radius := 2) (flux := 1000)
    (get := id) (set := fun a _ => a) (μ := μ) (D := fun i ω => ω i) (got := got) (a := 1 / 2) (minE := minE)
    (fun _ _ => rfl) rfl hg Tf.Rigid.one (by unfold V3.IsUnit; norm_num [V3.dot]) (by norm_num) (by norm_num [V3.dot]) ?_ ?_ () hreps hD hind hid ?_ hgot
  · have e : (1 / 2 : ℝ) * 1000 * (2 * 2 * |V3.dot (⟨0, 0, -1⟩ : V3 ℝ) (1 : Tf ℝ).rot.c3|) = 2000 := by
      norm_num [V3.dot]
    rw [e] at h
    exact h
  · intro u v _ _
    norm_num [V3.dot, Tf.point]
  · intro u v hu hv
    have := abs_le.1 hu
    have := abs_le.1 hv
    norm_num [V3.dot, V3.dist2, Tf.point]
    nlinarith
  · intro S hS
    rw [← heven S hS]
    exact hlaw {d | d.1.2 ∈ S} ((measurable_snd.comp measurable_subtype_coe) hS)

theorem one_weights : Weights fun _ => 1 := ⟨measurable_const, 1, fun _ => by norm_num⟩

/-- A source that sends each ray up or down by the toss of a coin: the result converges to its mean, and its error is bounded. -/
example : ∃ (μ : Measure (Nat → Bool)) (power : Bool → ℝ) (got : Nat → (Nat → Bool) → ℝ), IsProbabilityMeasure μ ∧
    (∀ c, Collects Examples.lowAndHigh Account.reset id (fun _ => 1) [if c then Examples.fallingRay else Examples.risingRay] 2 0 (power c)) ∧
    (∀ n ω, 0 < n → Collects Examples.lowAndHigh Account.reset id (fun _ => 1) (drawnBundle (fun c : Bool => if c then Examples.fallingRay else Examples.risingRay) ω n)
      2 (0 / n) (got n ω)) ∧
    (∀ᵐ ω ∂μ, Tendsto (fun n => got n ω) atTop (𝓝 (∫ ω, power (ω 0) ∂μ))) ∧
    (∀ n, 0 < n → ∫ ω, got n ω ∂μ = ∫ ω, power (ω 0) ∂μ) ∧
    ∀ n, 0 < n → μ {ω | 1 / 10 ≤ |got n ω - ∫ ω, power (ω 0) ∂μ|} ≤ ENNReal.ofReal (variance (fun ω => power (ω 0)) μ / (n * (1 / 10) ^ 2)) := by
  obtain ⟨μ, hμ, hD, hind, hid, _⟩ := draws_exist ((PMF.bernoulli (1 / 2 : NNReal) (by norm_num [div_le_iff₀])).toMeasure)
  have hw := Examples.lowAndHigh_watched
  set ray : Bool → Ray ℝ Unit := fun c => if c then Examples.fallingRay else Examples.risingRay with hray
  have hex := fun c => C113_exists hw (fun _ => 1) [ray c] 2 0
  choose power hpow using hex
  have hex := fun n (ω : Nat → Bool) => C113_exists hw (fun _ => 1) (drawnBundle ray ω n) 2 (0 / n)
  choose got hgot using hex
  have hset : ∀ c, GoingsSettled Surf.single (Surf.alone Account.reset) (plainPolicy Examples.lowAndHigh) (sites Examples.lowAndHigh) 0 [ray c] 2 := by
    intro c
    refine flat_settled hw.plain Examples.lowAndHigh_flat fun o ho s hs t ht => ?_
    simp only [Examples.lowAndHigh, List.mem_cons, List.not_mem_nil, or_false] at ho
    cases c
    · have e : ray false = Examples.risingRay := rfl
      rw [e] at ht
      rcases ho with rfl | rfl <;> rw [List.mem_singleton] at hs <;> subst hs
      · rw [← WithTop.coe_injective (Examples.low_up.symm.trans ht)]
        norm_num
      · rw [← WithTop.coe_injective (Examples.high_up.symm.trans ht)]
        norm_num
    · have e : ray true = Examples.fallingRay := rfl
      rw [e] at ht
      rcases ho with rfl | rfl <;> rw [List.mem_singleton] at hs <;> subst hs
      · rw [← WithTop.coe_injective (Examples.low_down.symm.trans ht)]
        norm_num
      · exact absurd (Examples.high_down.symm.trans ht) WithTop.top_ne_coe
  have hm : RayM ray := ⟨⟨measurable_of_finite _, measurable_of_finite _, measurable_of_finite _⟩,
    ⟨measurable_of_finite _, measurable_of_finite _, measurable_of_finite _⟩, measurable_of_finite _⟩
  have hB : ∀ c, |(ray c).energy| ≤ 1 := by
    intro c
    cases c <;> simp [hray, Examples.risingRay, Examples.fallingRay]
  exact ⟨μ, power, got, hμ, hpow, fun n ω _ => hgot n ω, (C113_converges hw one_weights hm hB hset hpow hD hind hid fun n ω _ => hgot n ω).2,
    fun n hn => C113_unbiased hw one_weights hm hB hset hpow hD hid (fun n ω _ => hgot n ω) hn,
    fun n hn => C113_error hw one_weights hm hB hset hpow hD hind hid (fun n ω _ => hgot n ω) hn (by norm_num)⟩

end Tracer
