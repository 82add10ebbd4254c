import Verif.Props.Chance
import Verif.Props.Confidence

/-!
# Flat scenes under the sun: how many rays are enough (C119), and what it costs to stop a trace early (C114)

With the rays of `solar_disk_bundle` ties have probability zero in scenes of flat surfaces (C118), so nothing has to be assumed about them.
-/

namespace Tracer

open MeasureTheory ProbabilityTheory Filter Real

variable {E σ Ω ι : Type _}

section
variable {objs : List (Obj σ ℝ E)} {pl : Fin (objs.flatMap Obj.surfs).length → Plane ℝ}
  {pp : Fin (objs.flatMap Obj.surfs).length → Fin (objs.flatMap Obj.surfs).length → Plane ℝ × Plane ℝ}

/-- The ray lies on the image of the source ray `p` in some of the planes. -/
def OnImage (pl : Fin (objs.flatMap Obj.surfs).length → Plane ℝ) (p r : Ray ℝ E) : Prop :=
  ∃ path : List (Fin (objs.flatMap Obj.surfs).length), r.dir = turnedAfter (path.map pl) p.dir ∧
    ∃ L : ℝ, r.vertex = imageAfter (path.map pl) p.vertex + L • r.dir

theorem onImage_noTie (hp : ScenePlanes (objs.flatMap Obj.surfs) pl pp) {p r : Ray ℝ E} (hb : ¬ Unlucky pl pp p.vertex p.dir) (h : OnImage pl p r) :
    NoTie Surf.single (objs.flatMap Obj.surfs) r := by
  obtain ⟨path, hd, L, hv⟩ := h
  intro i j s s' t hs hs' ht ht'
  by_contra hij
  obtain ⟨hi, rfl⟩ := List.getElem?_eq_some_iff.1 hs
  obtain ⟨hj, rfl⟩ := List.getElem?_eq_some_iff.1 hs'
  rcases hp.two ⟨i, hi⟩ ⟨j, hj⟩ (fun e => hij (congrArg Fin.val e)) with hn | ⟨g, opt, F, g', opt', F', e, e', hg, hg', eP, eQ, hne⟩
  · exact hn r t ht ht'
  · simp only [Fin.getElem_fin] at e e'
    rw [e] at ht
    rw [e'] at ht'
    obtain ⟨hP, xP⟩ := flat_met hg ht
    obtain ⟨hQ, xQ⟩ := flat_met hg' ht'
    have hP' : V3.dot (turnedAfter (path.map pl) p.dir) (pp ⟨i, hi⟩ ⟨j, hj⟩).1.normal ≠ 0 := by rw [← hd, ← eP]; exact hP
    have hQ' : V3.dot (turnedAfter (path.map pl) p.dir) (pp ⟨i, hi⟩ ⟨j, hj⟩).2.normal ≠ 0 := by rw [← hd, ← eQ]; exact hQ
    rw [eP] at xP
    rw [eQ] at xQ
    refine hb ⟨path, ⟨i, hi⟩, ⟨j, hj⟩, slope_ne hP' hQ' xP xQ hne, ?_⟩
    rw [hd] at hv xP xQ
    exact gap_meets hv xP xQ

theorem onImage_child (hp : ScenePlanes (objs.flatMap Obj.surfs) pl pp) {p r q : Ray ℝ E} (h : OnImage pl p r) {s : Surf σ ℝ E}
    (hs : s ∈ objs.flatMap Obj.surfs) {t : ℝ} (ht : s.single r = (t : WithTop ℝ)) {w : σ} (hq : q ∈ s.alone w r) : OnImage pl p q := by
  obtain ⟨path, hd, L, hv⟩ := h
  obtain ⟨i, hi, rfl⟩ := List.getElem_of_mem hs
  obtain ⟨-, g, opt, F, e, hg, hopt, eP⟩ := hp.one ⟨i, hi⟩
  simp only [Fin.getElem_fin] at e
  rw [e] at ht hq
  obtain ⟨e1, e2, -, e4⟩ := mirror_child hg hopt ht hq
  refine ⟨path ++ [⟨i, hi⟩], ?_, L + t, ?_⟩
  · rw [e2, hd, List.map_append]
    unfold turnedAfter
    rw [List.foldl_append, List.map_singleton, ← eP]
    rfl
  · have hat : r.at t = imageAfter (path.map pl) p.vertex + (L + t) • r.dir := by
      unfold Ray.at
      rw [hv]
      apply V3.ext <;> simp <;> ring
    have himg := imageIn_self (c := F.loc) (m := F.rot.c3) e4
    rw [e1, ← himg, hat, imageIn_along, e2, List.map_append]
    unfold imageAfter
    rw [List.foldl_append, List.map_singleton, ← eP]
    rfl

/-- If a ray of the source is not unlucky, it and its descendants have one nearest surface at most. -/
theorem lucky_untied (hp : ScenePlanes (objs.flatMap Obj.surfs) pl pp) {w : σ} {m : ℝ} {reps : Nat} {p : Ray ℝ E} (hb : ¬ Unlucky pl pp p.vertex p.dir) :
    GoingsUntied Surf.single (Surf.alone w) (plainPolicy objs) (sites objs) m [p] reps := by
  have hon : ∀ k, ∀ g ∈ goingGeneration Surf.single (Surf.alone w) (plainPolicy objs) (sites objs) m [p] k, OnImage pl p g.ray := by
    intro k
    induction k with
    | zero =>
      intro g hg
      have hg : g ∈ [(⟨p, none⟩ : Going ℝ E)] := hg
      rw [List.mem_singleton] at hg
      subst hg
      refine ⟨[], rfl, 0, ?_⟩
      apply V3.ext <;> simp [imageAfter]
    | succ k ih =>
      intro c hc
      rw [goingGeneration_succ] at hc
      obtain ⟨g, hg, hc⟩ := List.mem_flatMap.1 hc
      obtain ⟨y, hy, hc⟩ := List.mem_flatMap.1 hc
      split at hc
      · rename_i hm
        obtain ⟨q, hq, rfl⟩ := List.mem_map.1 hc
        obtain ⟨-, t, ht, -, -⟩ := hm
        refine onImage_child hp (ih g (setOut_mem hg)) ?_ ht hq
        rw [← sites_surf]
        exact List.mem_map.2 ⟨y, hy, rfl⟩
      · exact absurd hc List.not_mem_nil
  rintro k _ g hg y hy z hz ⟨my, t, ht, hct, hmin⟩ ⟨mz, t', ht', hct', hmin'⟩
  have e : t = t' := le_antisymm (hmin z hz mz t' ht' hct') (hmin' y hy my t ht hct)
  rw [← e] at ht'
  obtain ⟨i, hi⟩ := List.getElem?_of_mem hy
  obtain ⟨j, hj⟩ := List.getElem?_of_mem hz
  have := onImage_noTie hp hb (hon k g (setOut_mem hg)) i j y.surf z.surf t (by rw [← sites_surf, List.getElem?_map, hi]; rfl)
    (by rw [← sites_surf, List.getElem?_map, hj]; rfl) ht ht'
  subst this
  rw [hi] at hj
  exact Option.some.inj hj
end

/-- C119: flat mirrors and receivers, any two of them in different planes or apart, under the rays of `solar_disk_bundle`; no surface is
1e-10 to 1e-6 in front of the disk.  With at least `B^2/(2 ε^2) log(2 N/η)` rays, where `B = π radius^2 flux` is the power of the disk, the
reports of all the `N` cells of a flux map of the receiver are right within `ε` with a probability of at least `1 - η`, after any number of
reflections. -/
theorem C119_sun [MeasurableSpace Ω] {μ : Measure Ω} [IsProbabilityMeasure μ] {objs : List (Obj σ ℝ E)} {w : σ} {get : σ → Account ℝ} {a ρ m : ℝ}
    {reps : Nat} (h : CountedScene ρ objs w get a) (hfl : AllSurfs FlatMirror objs) (hd : Distinct objs)
    {center direction : V3 ℝ} {radius ang flux : ℝ} (hdir : direction.IsUnit) (hr : 0 < radius) (h0 : 0 ≤ ang) (h1 : ang < π / 2) (hflux : 0 < flux) (extra : E)
    (hstart : ∀ d ∈ angleDraws ×ˢ draws, ∀ o ∈ objs, ∀ s ∈ o.surfs, ∀ t : ℝ, s.single (sunRay center direction radius ang flux extra d) = (t : WithTop ℝ) →
      t ≤ 1 / 10 ^ 10 ∨ 1 / 10 ^ 6 < t)
    {D : Nat → Ω → angleDraws ×ˢ draws} (hD : ∀ i, Measurable (D i)) (hind : iIndepFun D μ) (hid : ∀ i, IdentDistrib (D i) (D 0) μ μ)
    (heven : ∀ S, MeasurableSet S → μ {ω | (D 0 ω).1 ∈ S} = volume (S ∩ angleDraws ×ˢ draws) / volume (angleDraws ×ˢ draws))
    (cells : Finset ι) {φ : ι → V3 ℝ → ℝ} (hφ : ∀ c ∈ cells, Weights (φ c)) (hφ1 : ∀ c ∈ cells, ∀ p, 0 ≤ φ c p ∧ φ c p ≤ 1)
    {power : ι → angleDraws ×ˢ draws → ℝ}
    (hpow : ∀ c ∈ cells, ∀ d : angleDraws ×ˢ draws, Collects objs w get (φ c) [sunRay center direction radius ang flux extra d.1] reps m (power c d))
    {n : Nat} (hn : 0 < n) {got : ι → Ω → ℝ}
    (hgot : ∀ c ∈ cells, ∀ ω, ∃ src b, solarDisk center direction radius ang (some flux) ((List.range n).map fun i => (D i ω).1.1)
      ((List.range n).map fun i => (D i ω).1.2) = .ok src ∧ src.rays extra = .ok b ∧ Collects objs w get (φ c) b reps (m / n) (got c ω))
    {ε η : ℝ} (hε : 0 < ε) (hη : 0 < η) (henough : (π * radius ^ 2 * flux) ^ 2 / (2 * ε ^ 2) * log (2 * cells.card / η) ≤ n) :
    μ.real {ω | ∃ c ∈ cells, ε ≤ |got c ω - ∫ ω, power c (D 0 ω) ∂μ|} ≤ η := by
  obtain ⟨pl, pp, hp⟩ := scene_planes hfl hd
  have hm := sunRay_measurable center direction radius ang flux extra
  have hnull : μ {ω | Unlucky pl pp (sunRay center direction radius ang flux extra (D 0 ω).1).vertex (sunRay center direction radius ang flux extra (D 0 ω).1).dir} = 0 := by
    have := heven _ (unlucky_measurable (pl := pl) (pp := pp) hm.vertex hm.dir)
    rw [unlucky_disk (fun i => (hp.one i).1) extra hdir hr h0 h1, ENNReal.zero_div] at this
    exact this
  have hun : ∀ᵐ ω ∂μ, GoingsUntied Surf.single (Surf.alone w) (plainPolicy objs) (sites objs) m [sunRay center direction radius ang flux extra (D 0 ω).1] reps := by
    have : ∀ᵐ ω ∂μ, ¬ Unlucky pl pp (sunRay center direction radius ang flux extra (D 0 ω).1).vertex (sunRay center direction radius ang flux extra (D 0 ω).1).dir := by
      rw [ae_iff]
      simpa using hnull
    filter_upwards [this] with ω hω
    exact lucky_untied hp hω
  have hrm : RayM fun d : (angleDraws ×ˢ draws : Set ((ℝ × ℝ) × (ℝ × ℝ))) => sunRay center direction radius ang flux extra d.1 :=
    ⟨⟨hm.vertex.x.comp measurable_subtype_coe, hm.vertex.y.comp measurable_subtype_coe, hm.vertex.z.comp measurable_subtype_coe⟩,
      ⟨hm.dir.x.comp measurable_subtype_coe, hm.dir.y.comp measurable_subtype_coe, hm.dir.z.comp measurable_subtype_coe⟩,
      hm.energy.comp measurable_subtype_coe⟩
  refine C119_enough h hrm (B := π * radius ^ 2 * flux) (fun d => ⟨by show 0 ≤ π * radius ^ 2 * flux; positivity, le_rfl⟩)
    (fun d => flat_settled h.plain hfl (hstart d.1 d.2)) hun hD hind hid cells hφ hφ1 hpow hn (fun c hc ω => ?_) hε hη (by positivity) henough
  obtain ⟨src, b, e1, e2, e3⟩ := hgot c hc ω
  rw [solarDisk_drawn center direction radius ang flux extra (fun i => (D i ω).1) hn e1 e2] at e3
  exact e3

/-- C114: flat mirrors and receivers, any two of them in different planes or apart, under the rays of `solar_disk_bundle`; no surface is 1e-10 to 1e-6 in front of the
disk.  Almost surely, whatever the number of rays: a higher threshold makes the report of a receiver (in total or of a cell) smaller, by at most the threshold for
each ray; more iterations make it greater, by at most the share of the power that is left after so many reflections. -/
theorem C114_sun [MeasurableSpace Ω] {μ : Measure Ω} {objs : List (Obj σ ℝ E)} {w : σ} {get : σ → Account ℝ} {a ρ : ℝ}
    (h : CountedScene ρ objs w get a) (hfl : AllSurfs FlatMirror objs) (hd : Distinct objs)
    {center direction : V3 ℝ} {radius ang flux : ℝ} (hdir : direction.IsUnit) (hr : 0 < radius) (h0 : 0 ≤ ang) (h1 : ang < π / 2) (hflux : 0 ≤ flux) (extra : E)
    (hstart : ∀ d ∈ angleDraws ×ˢ draws, ∀ o ∈ objs, ∀ s ∈ o.surfs, ∀ t : ℝ, s.single (sunRay center direction radius ang flux extra d) = (t : WithTop ℝ) →
      t ≤ 1 / 10 ^ 10 ∨ 1 / 10 ^ 6 < t)
    {D : Nat → Ω → angleDraws ×ˢ draws}
    (heven : ∀ i S, MeasurableSet S → μ {ω | (D i ω).1 ∈ S} = volume (S ∩ angleDraws ×ˢ draws) / volume (angleDraws ×ˢ draws)) :
    ∀ᵐ ω ∂μ, ∀ (n : Nat) (src : SourceBundle) (b : Bundle ℝ E), 0 < n →
      solarDisk center direction radius ang (some flux) ((List.range n).map fun i => (D i ω).1.1) ((List.range n).map fun i => (D i ω).1.2) = .ok src →
      src.rays extra = .ok b → ∀ (φ : V3 ℝ → ℝ), (∀ p, 0 ≤ φ p ∧ φ p ≤ 1) →
      (∀ (reps : Nat) (m m' e e' : ℝ), m ≤ m' → 0 ≤ m' → Collects objs w get φ b reps m e → Collects objs w get φ b reps m' e' → e' ≤ e ∧ e ≤ e' + n * m') ∧
      (∀ (reps reps' : Nat) (m e e' : ℝ), reps ≤ reps' → Collects objs w get φ b reps m e → Collects objs w get φ b reps' m e' →
        e ≤ e' ∧ e' ≤ e + ρ ^ reps * (π * radius ^ 2 * flux)) := by
  obtain ⟨pl, pp, hp⟩ := scene_planes hfl hd
  have hm := sunRay_measurable center direction radius ang flux extra
  have hall : ∀ᵐ ω ∂μ, ∀ i, ¬ Unlucky pl pp (sunRay center direction radius ang flux extra (D i ω).1).vertex (sunRay center direction radius ang flux extra (D i ω).1).dir := by
    rw [ae_all_iff]
    intro i
    rw [ae_iff]
    have := heven i _ (unlucky_measurable (pl := pl) (pp := pp) hm.vertex hm.dir)
    rw [unlucky_disk (fun i => (hp.one i).1) extra hdir hr h0 h1, ENNReal.zero_div] at this
    simpa using this
  filter_upwards [hall] with ω hω n src b hn hs hb φ hφ
  have hbd := solarDisk_drawn center direction radius ang flux extra (fun i => (D i ω).1) hn hs hb
  obtain ⟨e1, -, -⟩ := mirror_scale_hyps h.watched (1 / (n : ℝ))
  have hray : ∀ r ∈ b, ∃ i, r = (sunRay center direction radius ang flux extra (D i ω).1).scale (1 / (n : ℝ)) := by
    intro r hr
    rw [hbd] at hr
    obtain ⟨i, -, rfl⟩ := List.mem_map.1 hr
    exact ⟨i, rfl⟩
  have hpos : ∀ r ∈ b, 0 ≤ r.energy := by
    intro r hr
    obtain ⟨i, rfl⟩ := hray r hr
    simp only [sunRay, Ray.scale]
    positivity
  have hset : ∀ m reps, ∀ r ∈ b, GoingsSettled Surf.single (Surf.alone w) (plainPolicy objs) (sites objs) m [r] reps := by
    intro m reps r hr
    obtain ⟨i, rfl⟩ := hray r hr
    refine flat_settled h.plain hfl fun o ho s hs t ht => hstart _ (D i ω).2 o ho s hs t ?_
    obtain ⟨y, hy, rfl⟩ := List.mem_map.1 ((sites_surf objs).symm ▸ List.mem_flatMap.2 ⟨o, ho, hs⟩ : s ∈ (sites objs).map Site.surf)
    rw [← e1 y hy]
    exact ht
  have hun : ∀ m reps, ∀ r ∈ b, GoingsUntied Surf.single (Surf.alone w) (plainPolicy objs) (sites objs) m [r] reps := by
    intro m reps r hr
    obtain ⟨i, rfl⟩ := hray r hr
    exact lucky_untied hp (hω i)
  have hlen : b.length = n := by rw [hbd]; simp [drawnBundle]
  have htotal : (b.map Ray.energy).sum = π * radius ^ 2 * flux := by
    rw [hbd]
    unfold drawnBundle
    have hn' : (n : ℝ) ≠ 0 := by exact_mod_cast hn.ne'
    simp only [List.map_map, Function.comp_def, sunRay, Ray.scale, List.map_const', List.sum_replicate, List.length_range, nsmul_eq_mul]
    field_simp
  refine ⟨fun reps m m' e e' hmm hm0 he he' => ?_, fun reps reps' m e e' hrr he he' => ?_⟩
  · have := C114_threshold h hφ hpos hmm hm0 (hset _ _) (hun _ _) he he'
    rwa [hlen] at this
  · have := C114_iterations h hφ hpos hrr (hset _ _) (hun _ _) he he'
    rwa [htotal] at this

/-! ### A mirror on the ground and a receiver on a wall -/

/-- The wall is a receiver of the kind of C114. -/
theorem corner_counted : CountedScene 1 corner (fun _ => Account.reset) (fun w => w 0) (1 / 2) := by
  refine ⟨corner_plain, corner_all ⟨_, _, _, rfl, .flat, .mirror _ (by norm_num) (by norm_num)⟩ ⟨_, _, _, rfl, .flat,
    .receiver (1 / 2) (fun w : Receivers ℝ => w 0) (fun acc w => Function.update w 0 acc) _ (.mirror _ (by norm_num) (by norm_num))⟩, by norm_num, rfl,
    ⟨1, 0, mkSurf flatGM (receiverAt 0 (1 / 2)) wallFrame⟩, List.mem_cons_of_mem _ List.mem_cons_self, flatGM, reflective (1 / 2), wallFrame,
    fun acc w => Function.update w 0 acc, rfl, Or.inl rfl, fun acc w => by simp, ?_⟩
  intro y hy hne w p hits raw w' h
  have hs : sites corner = [⟨0, 0, mkSurf flatGM (reflective 0) 1⟩, ⟨1, 0, mkSurf flatGM (receiverAt 0 (1 / 2)) wallFrame⟩] := rfl
  rw [hs] at hy
  simp only [List.mem_cons, List.not_mem_nil, or_false] at hy
  rcases hy with rfl | rfl
  · obtain ⟨recs, _, h2⟩ := mkSurf_ok h
    exact (C51_reflective 0 fun w : Receivers ℝ => w 0).1 _ _ _ _ _ h2
  · exact absurd ⟨rfl, rfl⟩ hne

/-- A disk of radius 1 in the zenith of (10, 0, 10) is far from the mirror and the wall. -/
theorem corner_start : ∀ d ∈ angleDraws ×ˢ draws, ∀ o ∈ corner, ∀ s ∈ o.surfs, ∀ t : ℝ, s.single (sunRay ⟨10, 0, 10⟩ ⟨0, 0, -1⟩ 1 (π / 6) 1000 () d) = (t : WithTop ℝ) →
    t ≤ 1 / 10 ^ 10 ∨ 1 / 10 ^ 6 < t := by
  intro d hd
  obtain ⟨r1, r2, -⟩ := C27_rotation_to_z (v := (⟨0, 0, -1⟩ : V3 ℝ)) (by unfold V3.IsUnit; norm_num [V3.dot])
  set q := sunRay ⟨10, 0, 10⟩ ⟨0, 0, -1⟩ 1 (π / 6) 1000 () d with hq
  set mm := rotationToZ (⟨0, 0, -1⟩ : V3 ℝ) with hmm
  have hu : V3.dot q.dir q.dir = 1 := by
    show V3.dot (mm.mulVec _) (mm.mulVec _) = 1
    rw [r1.dot]
    exact pillbox_unit _ _ _
  set x := 1 * √d.2.1 * cos d.2.2 with hx
  set y := 1 * √d.2.1 * sin d.2.2 with hy
  have hv : q.vertex = mm.mulVec ⟨x, y, 0⟩ + ⟨10, 0, 10⟩ := rfl
  have hxy : x ^ 2 + y ^ 2 ≤ 1 := by
    have hd2 : d.2.1 ∈ Set.Ico (0 : ℝ) 1 := hd.2.1
    have e : x ^ 2 + y ^ 2 = √d.2.1 ^ 2 * (cos d.2.2 ^ 2 + sin d.2.2 ^ 2) := by rw [hx, hy]; ring
    rw [e, cos_sq_add_sin_sq, mul_one, sq_sqrt hd2.1]
    exact hd2.2.le
  have hn : V3.dot (mm.mulVec ⟨x, y, 0⟩) (mm.mulVec ⟨x, y, 0⟩) ≤ 1 := by
    rw [r1.dot]
    simp only [V3.dot]
    linarith
  have hb : ∀ v : V3 ℝ, V3.dot v v ≤ 1 → |v.x| ≤ 1 ∧ |v.z| ≤ 1 := by
    intro v h
    simp only [V3.dot] at h
    constructor <;> rw [← sq_le_one_iff_abs_le_one] <;> nlinarith [sq_nonneg v.x, sq_nonneg v.y, sq_nonneg v.z]
  obtain ⟨a1, a2⟩ := hb _ hn
  obtain ⟨b1, b2⟩ := hb _ hu.le
  have far : ∀ c u t : ℝ, 9 ≤ c → |u| ≤ 1 → c + t * u = 0 → t ≤ 1 / 10 ^ 10 ∨ 1 / 10 ^ 6 < t := by
    intro c u t hc hu he
    by_contra hcon
    push Not at hcon
    have h3 : |t * u| ≤ 1 := by
      rw [abs_mul]
      have : |t| ≤ 1 := by
        rw [abs_le]
        have h4 : (0 : ℝ) < 1 / 10 ^ 10 := by norm_num
        have h5 : (1 : ℝ) / 10 ^ 6 ≤ 1 := by norm_num
        exact ⟨by linarith [hcon.1], by linarith [hcon.2]⟩
      exact mul_le_one₀ this (abs_nonneg _) hu
    linarith [abs_le.1 h3]
  have met : ∀ (F : Tf ℝ) (opt : Optics (Receivers ℝ) ℝ Unit) (t : ℝ), (mkSurf flatGM opt F).single q = (t : WithTop ℝ) → V3.dot (q.at t - F.loc) F.rot.c3 = 0 :=
    fun F opt t ht => (flat_met FlatGeometry.flat ht).2
  have key : AllSurfs (fun s => ∀ t : ℝ, s.single q = (t : WithTop ℝ) → t ≤ 1 / 10 ^ 10 ∨ 1 / 10 ^ 6 < t) corner := by
    refine corner_all (fun t ht => ?_) fun t ht => ?_
    · have h := met _ _ t ht
      refine far q.vertex.z q.dir.z t ?_ b2 ?_
      · rw [hv]
        simp only [V3.add_z]
        linarith [(abs_le.1 a2).1]
      · simp [V3.dot, Ray.at] at h
        linarith
    · have h := met _ _ t ht
      refine far q.vertex.x q.dir.x t ?_ b1 ?_
      · rw [hv]
        simp only [V3.add_x]
        linarith [(abs_le.1 a1).1]
      · simp [V3.dot, Ray.at, wallFrame] at h
        linarith
  exact key

/-- The wall has an upper and a lower half. -/
noncomputable def upper (c : Bool) (p : V3 ℝ) : ℝ := if (1 ≤ p.z) = (c = true) then 1 else 0

theorem upper_weights (c : Bool) : Weights (upper c) := by
  refine ⟨?_, 1, fun p => ?_⟩
  · have : MeasurableSet {p : ℝ × ℝ × ℝ | (1 ≤ p.2.2) = (c = true)} := by
      have h : MeasurableSet {p : ℝ × ℝ × ℝ | 1 ≤ p.2.2} := measurableSet_le measurable_const (measurable_snd.comp measurable_snd)
      cases c
      · have e : {p : ℝ × ℝ × ℝ | (1 ≤ p.2.2) = (false = true)} = {p : ℝ × ℝ × ℝ | 1 ≤ p.2.2}ᶜ := by ext p; simp
        rw [e]
        exact h.compl
      · have e : {p : ℝ × ℝ × ℝ | (1 ≤ p.2.2) = (true = true)} = {p : ℝ × ℝ × ℝ | 1 ≤ p.2.2} := by ext p; simp
        rw [e]
        exact h
    exact Measurable.ite this measurable_const measurable_const
  · unfold upper
    split <;> norm_num

/-- A sun of radius 1, flux 1000 and half angle 30° over the corner.  Some rays meet the edge, where mirror and wall tie (C118_tie); nevertheless, with
enough rays both parts of the wall are right within 10, with a probability of 99 percent. -/
example (reps n : Nat) (hn : (π * 1 ^ 2 * 1000) ^ 2 / (2 * 10 ^ 2) * log (2 * 2 / (1 / 100)) ≤ n) (hn0 : 0 < n) :
    ∃ (μ : Measure (Nat → (angleDraws ×ˢ draws : Set ((ℝ × ℝ) × (ℝ × ℝ))))) (power : Bool → (angleDraws ×ˢ draws : Set ((ℝ × ℝ) × (ℝ × ℝ))) → ℝ)
      (got : Bool → (Nat → (angleDraws ×ˢ draws : Set ((ℝ × ℝ) × (ℝ × ℝ)))) → ℝ), IsProbabilityMeasure μ ∧
      (∀ c d, Collects corner (fun _ => Account.reset) (fun w => w 0) (upper c) [sunRay ⟨10, 0, 10⟩ ⟨0, 0, -1⟩ 1 (π / 6) 1000 () d.1] reps 0 (power c d)) ∧
      (∀ c ω, ∃ src b, solarDisk ⟨10, 0, 10⟩ ⟨0, 0, -1⟩ 1 (π / 6) (some 1000) ((List.range n).map fun i => (ω i).1.1)
        ((List.range n).map fun i => (ω i).1.2) = .ok src ∧ src.rays () = .ok b ∧
        Collects corner (fun _ => Account.reset) (fun w => w 0) (upper c) b reps (0 / n) (got c ω)) ∧
      μ.real {ω | ∃ c ∈ (Finset.univ : Finset Bool), 10 ≤ |got c ω - ∫ ω, power c (ω 0) ∂μ|} ≤ 1 / 100 := by
  obtain ⟨ν, hν, heven⟩ := even_pairs
  obtain ⟨μ, hμ, hD, hind, hid, hlaw⟩ := all_draws_exist ν
  choose power hpow using fun c (d : (angleDraws ×ˢ draws : Set ((ℝ × ℝ) × (ℝ × ℝ)))) =>
    C113_exists corner_counted.watched (upper c) [sunRay ⟨10, 0, 10⟩ ⟨0, 0, -1⟩ 1 (π / 6) 1000 () d.1] reps 0
  have hex : ∀ c (ω : Nat → (angleDraws ×ˢ draws : Set ((ℝ × ℝ) × (ℝ × ℝ)))), ∃ e, ∃ src b,
      solarDisk ⟨10, 0, 10⟩ ⟨0, 0, -1⟩ 1 (π / 6) (some 1000) ((List.range n).map fun i => (ω i).1.1)
        ((List.range n).map fun i => (ω i).1.2) = .ok src ∧ src.rays () = .ok b ∧
        Collects corner (fun _ => Account.reset) (fun w => w 0) (upper c) b reps (0 / n) e := by
    intro c ω
    obtain ⟨src, h1⟩ : ∃ src, solarDisk ⟨10, 0, 10⟩ ⟨0, 0, -1⟩ 1 (π / 6) (some 1000) ((List.range n).map fun i => (ω i).1.1)
        ((List.range n).map fun i => (ω i).1.2) = .ok src := ⟨_, by unfold solarDisk; rw [if_neg (by simp; omega)]⟩
    obtain ⟨b, h2⟩ : ∃ b, src.rays () = .ok b := by
      unfold solarDisk at h1
      rw [if_neg (by simp; omega)] at h1
      cases h1
      exact ⟨_, rfl⟩
    obtain ⟨e, he⟩ := C113_exists corner_counted.watched (upper c) b reps (0 / n)
    exact ⟨e, src, b, h1, h2, he⟩
  choose got hgot using hex
  refine ⟨μ, power, got, hμ, hpow, hgot, C119_sun corner_counted corner_flat corner_distinct (by unfold V3.IsUnit; norm_num [V3.dot]) (by norm_num)
    (by positivity) (by linarith [pi_pos]) (by norm_num) () corner_start hD hind hid
    (fun S hS => by rw [← heven S hS]; exact hlaw {d | d.1 ∈ S} (measurable_subtype_coe hS)) Finset.univ (fun c _ => upper_weights c)
    (fun c _ p => by unfold upper; split <;> norm_num) (fun c _ => hpow c) hn0 (fun c _ => hgot c) (by norm_num) (by norm_num) ?_⟩
  rw [Finset.card_univ, Fintype.card_bool]
  exact_mod_cast hn

/-- For the same sun over the corner, a threshold of 1/100 takes away at most 1/100 for each ray, almost surely. -/
example : ∃ (μ : Measure (Nat → (angleDraws ×ˢ draws : Set ((ℝ × ℝ) × (ℝ × ℝ))))) (_ : IsProbabilityMeasure μ), ∀ᵐ ω ∂μ, ∀ (n : Nat) (src : SourceBundle) (b : Bundle ℝ Unit),
    0 < n → solarDisk ⟨10, 0, 10⟩ ⟨0, 0, -1⟩ 1 (π / 6) (some 1000) ((List.range n).map fun i => (ω i).1.1) ((List.range n).map fun i => (ω i).1.2) = .ok src →
    src.rays () = .ok b → ∀ (reps : Nat) (e e' : ℝ), Collects corner (fun _ => Account.reset) (fun w => w 0) (fun _ => 1) b reps 0 e →
    Collects corner (fun _ => Account.reset) (fun w => w 0) (fun _ => 1) b reps (1 / 100) e' → e' ≤ e ∧ e ≤ e' + n * (1 / 100) := by
  obtain ⟨ν, hν, heven⟩ := even_pairs
  obtain ⟨μ, hμ, hD, -, hid, hlaw⟩ := all_draws_exist ν
  refine ⟨μ, hμ, ?_⟩
  have hev : ∀ (i : Nat) S, MeasurableSet S → μ {ω | (ω i).1 ∈ S} = volume (S ∩ angleDraws ×ˢ draws) / volume (angleDraws ×ˢ draws) := by
    intro i S hS
    have hS' : MeasurableSet {d : (angleDraws ×ˢ draws : Set ((ℝ × ℝ) × (ℝ × ℝ))) | d.1 ∈ S} := measurable_subtype_coe hS
    rw [← heven S hS, ← hlaw {d | d.1 ∈ S} hS']
    exact (hid i).measure_mem_eq hS'
  have := C114_sun corner_counted corner_flat corner_distinct (by unfold V3.IsUnit; norm_num [V3.dot]) (by norm_num)
    (by positivity) (by linarith [pi_pos]) (by norm_num) () corner_start hev
  filter_upwards [this] with ω hω n src b hn hs hb reps e e' he he'
  exact (hω n src b hn hs hb (fun _ => 1) fun _ => by norm_num).1 reps 0 (1 / 100) e e' (by norm_num) (by norm_num) he he'

/-- The report of the wall from the same sun tends to its mean, by the theorem about the sun and by the one about flat surfaces. -/
example (reps : Nat) : ∃ (μ : Measure (Nat → (angleDraws ×ˢ draws : Set ((ℝ × ℝ) × (ℝ × ℝ))))) (power : (angleDraws ×ˢ draws : Set ((ℝ × ℝ) × (ℝ × ℝ))) → ℝ)
    (got : Nat → (Nat → (angleDraws ×ˢ draws : Set ((ℝ × ℝ) × (ℝ × ℝ)))) → ℝ), IsProbabilityMeasure μ ∧
    (∀ᵐ ω ∂μ, Tendsto (fun n => got n ω) atTop (nhds (∫ ω, power (ω 0) ∂μ))) ∧
    ∀ n ω, 0 < n → ∃ src b, solarDisk ⟨10, 0, 10⟩ ⟨0, 0, -1⟩ 1 (π / 6) (some 1000) ((List.range n).map fun i => (ω i).1.1)
      ((List.range n).map fun i => (ω i).1.2) = .ok src ∧ src.rays () = .ok b ∧
      Collects corner (fun _ => Account.reset) (fun w => w 0) (upper true) b reps (0 / n) (got n ω) := by
  obtain ⟨ν, hν, heven⟩ := even_pairs
  obtain ⟨μ, hμ, hD, hind, hid, hlaw⟩ := all_draws_exist ν
  have hsrc : ∀ (n : Nat), 0 < n → ∀ ω : Nat → (angleDraws ×ˢ draws : Set ((ℝ × ℝ) × (ℝ × ℝ))), ∃ src b,
      solarDisk ⟨10, 0, 10⟩ ⟨0, 0, -1⟩ 1 (π / 6) (some 1000) ((List.range n).map fun i => (ω i).1.1) ((List.range n).map fun i => (ω i).1.2) = .ok src ∧
      src.rays () = .ok b := by
    intro n hn ω
    obtain ⟨src, h1⟩ : ∃ src, solarDisk ⟨10, 0, 10⟩ ⟨0, 0, -1⟩ 1 (π / 6) (some 1000) ((List.range n).map fun i => (ω i).1.1)
        ((List.range n).map fun i => (ω i).1.2) = .ok src := ⟨_, by unfold solarDisk; rw [if_neg (by simp; omega)]⟩
    obtain ⟨b, h2⟩ : ∃ b, src.rays () = .ok b := by
      unfold solarDisk at h1
      rw [if_neg (by simp; omega)] at h1
      cases h1
      exact ⟨_, rfl⟩
    exact ⟨src, b, h1, h2⟩
  have hone : ∀ (d : (ℝ × ℝ) × (ℝ × ℝ)) (src : SourceBundle) (b : Bundle ℝ Unit), solarDisk ⟨10, 0, 10⟩ ⟨0, 0, -1⟩ 1 (π / 6) (some 1000) [d.1] [d.2] = .ok src →
      src.rays () = .ok b → b = [sunRay ⟨10, 0, 10⟩ ⟨0, 0, -1⟩ 1 (π / 6) 1000 () d] := by
    intro d src b h1 h2
    have := solarDisk_drawn ⟨10, 0, 10⟩ ⟨0, 0, -1⟩ 1 (π / 6) 1000 () (fun _ => d) one_pos h1 h2
    rw [this]
    simp [drawnBundle, Ray.scale]
  choose power hpow using fun (d : (angleDraws ×ˢ draws : Set ((ℝ × ℝ) × (ℝ × ℝ)))) =>
    C113_exists corner_counted.watched (upper true) [sunRay ⟨10, 0, 10⟩ ⟨0, 0, -1⟩ 1 (π / 6) 1000 () d.1] reps 0
  have hex : ∀ (n : Nat) (ω : Nat → (angleDraws ×ˢ draws : Set ((ℝ × ℝ) × (ℝ × ℝ)))), ∃ e, 0 < n → ∃ src b,
      solarDisk ⟨10, 0, 10⟩ ⟨0, 0, -1⟩ 1 (π / 6) (some 1000) ((List.range n).map fun i => (ω i).1.1)
        ((List.range n).map fun i => (ω i).1.2) = .ok src ∧ src.rays () = .ok b ∧
        Collects corner (fun _ => Account.reset) (fun w => w 0) (upper true) b reps (0 / n) e := by
    intro n ω
    rcases Nat.eq_zero_or_pos n with rfl | hn
    · exact ⟨0, fun h => absurd h (lt_irrefl _)⟩
    · obtain ⟨src, b, h1, h2⟩ := hsrc n hn ω
      obtain ⟨e, he⟩ := C113_exists corner_counted.watched (upper true) b reps (0 / n)
      exact ⟨e, fun _ => ⟨src, b, h1, h2, he⟩⟩
  choose got hgot using hex
  have hm := sunRay_measurable ⟨10, 0, 10⟩ ⟨0, 0, -1⟩ 1 (π / 6) 1000 ()
  have hpair : Pairwise fun i j => IndepFun (fun ω : Nat → (angleDraws ×ˢ draws : Set ((ℝ × ℝ) × (ℝ × ℝ))) => ω i) (fun ω => ω j) μ :=
    fun i j hij => hind.indepFun hij
  have h1 := (C113_sun (m := 0) (reps := reps) corner_counted.watched (upper_weights true) ⟨10, 0, 10⟩ ⟨0, 0, -1⟩ 1 (π / 6) 1000 ()
    (fun d hd src b e1 e2 => by rw [hone d src b e1 e2]; exact flat_settled corner_plain corner_flat (corner_start d hd))
    (power := power) (fun d => by
      obtain ⟨src, b, e1, e2⟩ := hsrc 1 one_pos (fun _ => d)
      have e1' : solarDisk ⟨10, 0, 10⟩ ⟨0, 0, -1⟩ 1 (π / 6) (some 1000) [d.1.1] [d.1.2] = .ok src := e1
      exact ⟨src, b, e1', e2, by rw [hone d.1 src b e1' e2]; exact hpow d⟩) hD hpair hid (got := got) (fun n ω hn => hgot n ω hn)).2
  have _h2 : ∀ᵐ ω ∂μ, Tendsto (fun n => got n ω) atTop (nhds (∫ ω, power (ω 0) ∂μ)) := C113_flat (m := 0) (reps := reps) (B := π * 1 ^ 2 * 1000)
    (ray := fun d : (angleDraws ×ˢ draws : Set ((ℝ × ℝ) × (ℝ × ℝ))) => sunRay ⟨10, 0, 10⟩ ⟨0, 0, -1⟩ 1 (π / 6) 1000 () d.1)
    corner_counted.watched (upper_weights true) corner_flat
    ⟨⟨hm.vertex.x.comp measurable_subtype_coe, hm.vertex.y.comp measurable_subtype_coe, hm.vertex.z.comp measurable_subtype_coe⟩,
      ⟨hm.dir.x.comp measurable_subtype_coe, hm.dir.y.comp measurable_subtype_coe, hm.dir.z.comp measurable_subtype_coe⟩,
      hm.energy.comp measurable_subtype_coe⟩
    (fun d => (abs_of_nonneg (by positivity : (0 : ℝ) ≤ π * 1 ^ 2 * 1000)).le) (fun d => corner_start d.1 d.2) hpow hD hpair hid
    (fun n ω hn => by
      obtain ⟨src, b, e1, e2, e3⟩ := hgot n ω hn
      rw [solarDisk_drawn ⟨10, 0, 10⟩ ⟨0, 0, -1⟩ 1 (π / 6) 1000 () (fun i => (ω i).1) hn e1 e2] at e3
      exact e3)
  exact ⟨μ, power, got, hμ, h1, hgot⟩

end Tracer
