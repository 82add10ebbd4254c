import Verif.Props.SunField
import Verif.Props.SunCone

/-!
# A receiver gets no more than its heliostats intercept (C120)
-/

namespace Tracer

open MeasureTheory ProbabilityTheory Filter Real

variable {E σ Ω : Type _}

section
variable {objs : List (Obj σ ℝ E)} {w : σ} {get : σ → Account ℝ} {a ρ m : ℝ} {φ : V3 ℝ → ℝ} {x : Site σ ℝ E}

/-- `CountedScene.site` for a receiver that is known. -/
theorem CountedScene.at (h : CountedScene ρ objs w get a) (hx : x ∈ sites objs) {g : Geometry ℝ E} {frame : Tf ℝ} {set : Account ℝ → σ → σ}
    (h1 : x.surf = mkSurf g (reflectiveReceiver a get set) frame) (h2 : ∀ acc w, get (set acc w) = acc)
    (h3 : ∀ y ∈ sites objs, ¬ (y.obj = x.obj ∧ y.num = x.num) → y.surf.Ignores get) :
    Watched objs w a ρ x ∧ ∀ (φ : V3 ℝ → ℝ) (reps : Nat) (r : Ray ℝ E) (minE e : ℝ),
      GoingsSettled Surf.single (Surf.alone w) (plainPolicy objs) (sites objs) minE [r] reps → Collects objs w get φ [r] reps minE e →
      e = a * flow φ Surf.single (Surf.alone w) (plainPolicy objs) (sites objs) minE x reps [⟨r, none⟩] := by
  have hw := h.watched
  obtain ⟨s0, s1, a0, a1⟩ := h.shares
  refine ⟨⟨hx, hw.mirrors, List.Nodup.of_map _ (sites_nodup objs), ?_, s1, ⟨a0, a1⟩, ?_⟩, fun φ reps r minE e hset hc => ?_⟩
  · intro o ho s hs
    obtain ⟨g, opt, frame, rfl, hg, hr⟩ := h.surfaces o ho s hs
    exact hr.gives s0 frame
  · intro r hr q hq
    rw [h1] at hq
    have hret : ReturnsAtMost (1 - a) (reflectiveReceiver a get set : Optics σ ℝ E) := .receiver _ _ _ _ (.mirror _ le_rfl a1)
    have := (hret.gives (g := g) (by linarith) frame w r hr q hq).2
    linarith
  · exact collects_at hw hx h1 h2 (C51_reflective a get).1 h3 (fun r' hr' => by rw [List.mem_singleton] at hr'; rw [hr']; exact hset) hc

/-- What a ray brings is what it brings at once, and no more than what the first surface sends on. -/
theorem flow_first (hx : Watched objs w a ρ x) (hφ : ∀ p, 0 ≤ φ p ∧ φ p ≤ 1) (n : Nat) (g : Going ℝ E) (hE : 0 ≤ g.ray.energy)
    (hu : g.StaysUntied objs w m (n + 1)) :
    flow φ Surf.single (Surf.alone w) (plainPolicy objs) (sites objs) m x (n + 1) [g] = 0 ∨
    ∃ y ∈ sites objs, g.Meets dropTol Surf.single (plainPolicy objs) (sites objs) y ∧ ∃ q ∈ y.surf.alone w g.ray, 0 ≤ q.energy ∧
      a * flow φ Surf.single (Surf.alone w) (plainPolicy objs) (sites objs) m x (n + 1) [g] ≤
        a * brings φ Surf.single (plainPolicy objs) (sites objs) x g + q.energy ∧
      (x ≠ y → brings φ Surf.single (plainPolicy objs) (sites objs) x g = 0) := by
  classical
  have hu0 : g.Untied objs := hu 0 (by omega) g (List.mem_singleton_self _)
  by_cases hex : ∃ y ∈ sites objs, g.Meets dropTol Surf.single (plainPolicy objs) (sites objs) y
  · right
    obtain ⟨y, hy, hmeets⟩ := hex
    obtain ⟨_, t, ht, _⟩ := id hmeets
    obtain ⟨f, N, share, h1, h2, _⟩ := PlainMirror.law (δ := Unit) (sites_mirror hx.mirrors hy) w
    have hout := h2 _ t ht
    generalize hq : (⟨g.ray.at t, reflection g.ray.dir (N (g.ray.at t) g.ray.dir), g.ray.energy * share g.ray.dir, 0, g.ray.ref, g.ray.extra⟩ : Ray ℝ E) = q at hout
    have hgives := site_all hx.gives hy w g.ray hE q (by rw [hout]; exact List.mem_singleton_self _)
    have hu' : ∀ z ∈ sites objs, g.Meets dropTol Surf.single (plainPolicy objs) (sites objs) z → z = y := fun z hz hm => hu0 z hz y hy hm hmeets
    refine ⟨y, hy, hmeets, q, by rw [hout]; exact List.mem_singleton_self _, hgives.1, ?_, fun hne => ?_⟩
    · rw [flow_step, sum_ite_unique hx.nodup hy hmeets hu', hout, mul_add]
      refine add_le_add le_rfl ?_
      by_cases hlt : m < q.energy
      · have hgo : goOn Surf.single (Surf.alone w) (plainPolicy objs) (sites objs) m [g] = [⟨q, some (y.obj, y.num)⟩] := by
          unfold goOn Going.children
          rw [List.flatMap_singleton]
          have : (sites objs).flatMap (fun z => if g.Meets dropTol Surf.single (plainPolicy objs) (sites objs) z then
              (z.surf.alone w g.ray).map fun r => (⟨r, some (z.obj, z.num)⟩ : Going ℝ E) else []) = [⟨q, some (y.obj, y.num)⟩] := by
            exact flatMap_ite_unique hx.nodup hy hmeets hu' (by rw [hout]; rfl)
          rw [this]
          simp [hlt]
        have := (flow_le hx hφ n ⟨q, some (y.obj, y.num)⟩ hgives.1 (StaysUntied.child hu hgo)).2
        simpa [hlt] using this
      · simpa [hlt] using hgives.1
    · unfold brings
      exact if_neg fun hm => hne (hu' x hx.mem hm)
  · left
    push Not at hex
    rw [flow_step]
    unfold brings
    rw [if_neg (hex x hx.mem), zero_add]
    refine List.sum_eq_zero fun v hv => ?_
    obtain ⟨z, hz, rfl⟩ := List.mem_map.1 hv
    exact if_neg (hex z hz)
end

/-- A receiver on its own reports a ray that meets it. -/
theorem lone_report {g : Geometry ℝ E} {F : Tf ℝ} {get : σ → Account ℝ} {set : Account ℝ → σ → σ} {w : σ} {a m e : ℝ} {φ : V3 ℝ → ℝ} {reps : Nat} (hreps : 0 < reps)
    (hfg : FlatGeometry g) (hF : F.Rigid) (hgs : ∀ acc w, get (set acc w) = acc) (h0 : get w = Account.reset) {r : Ray ℝ E}
    (hr : ∀ t : ℝ, (mkSurf g (reflectiveReceiver a get set) F).single r = (t : WithTop ℝ) → t ≤ 1 / 10 ^ 10 ∨ 1 / 10 ^ 6 < t)
    (he : Collects (lone (mkSurf g (reflectiveReceiver a get set) F)) w get φ [r] reps m e) :
    e = a * brings φ Surf.single (plainPolicy (lone (mkSurf g (reflectiveReceiver a get set) F))) (sites (lone (mkSurf g (reflectiveReceiver a get set) F)))
      ⟨0, 0, mkSurf g (reflectiveReceiver a get set) F⟩ ⟨r, none⟩ := by
  set s : Surf σ ℝ E := mkSurf g (reflectiveReceiver a get set) F with hs
  have hfl : FlatMirror s := ⟨g, _, F, rfl, hfg, .receiver _ _ _ _ (.mirror _), ((M3.isRotation_iff _).1 hF).1.2.2.1⟩
  have hw : WatchedScene (lone s) w get a := by
    refine ⟨lone_plain s, lone_mirrors hfg.plain (.receiver _ _ _ _ (.mirror _)), h0, ⟨0, 0, s⟩, ?_, g, _, F, set, rfl, hgs,
      (C51_reflective a get).1, ?_⟩
    · rw [lone_sites]; exact List.mem_singleton_self _
    · intro y hy hne
      rw [lone_sites, List.mem_singleton] at hy
      exact absurd ⟨by rw [hy], by rw [hy]⟩ hne
  have hall : ∀ {P : Surf σ ℝ E → Prop}, P s → AllSurfs P (lone s) := by
    intro P hP o ho t ht
    rw [lone, List.mem_singleton] at ho
    subst ho
    rw [List.mem_singleton] at ht
    rw [ht]
    exact hP
  obtain ⟨x, hx, hflow⟩ := collects_flow φ (reps := reps) hw
  rw [lone_sites, List.mem_singleton] at hx
  have h1 := hflow _ _ _ (by intro q hq; rw [List.mem_singleton] at hq; rw [hq]; exact flat_settled (lone_plain s) (hall hfl) (hall hr)) he
  obtain ⟨k, rfl⟩ : ∃ k, reps = k + 1 := ⟨reps - 1, by omega⟩
  rw [hx, List.map_singleton, lone_flow hfl] at h1
  exact h1

section
variable {positions : List (V3 ℝ)} {g g' : Geometry ℝ E} {absorpt az el H W L x y : ℝ} {F : Tf ℝ} {get : σ → Account ℝ} {set : Account ℝ → σ → σ}

open Classical in
/-- The energy of the ray, for each heliostat in its way. -/
noncomputable def intercepted (positions : List (V3 ℝ)) (g : Geometry ℝ E) (az el H absorpt : ℝ) (r : Ray ℝ E) : ℝ :=
  (positions.map fun p => if ∃ t : ℝ, (mkSurf g (absorberReflector absorpt) (aimTransform az el H p) : Surf Unit ℝ E).single r = (t : WithTop ℝ) ∧ 1 / 10 ^ 6 < t
    then r.energy else 0).sum

/-- What one ray brings to the receiver of a heliostat field. -/
theorem ray_brings (hg : rectPlateGM W L = .ok g) (hg' : rectPlateGM x y = .ok g') (hF : F.Rigid) (ha0 : 0 ≤ absorpt) (ha1 : absorpt ≤ 1)
    (hgs : ∀ acc w, get (set acc w) = acc) {w : σ} (hw : get w = Account.reset) {φ : V3 ℝ → ℝ} (hφ : ∀ p, 0 ≤ φ p ∧ φ p ≤ 1) {reps : Nat} {m e e' : ℝ} {r : Ray ℝ E}
    (hE : 0 ≤ r.energy)
    (hstart : ∀ o ∈ plantObjs positions g g' absorpt az el H F get set, ∀ s ∈ o.surfs, ∀ t : ℝ, s.single r = (t : WithTop ℝ) → t ≤ 1 / 10 ^ 10 ∨ 1 / 10 ^ 6 < t)
    (hun : GoingsUntied Surf.single (Surf.alone w) (plainPolicy (plantObjs positions g g' absorpt az el H F get set))
      (sites (plantObjs positions g g' absorpt az el H F get set)) m [r] reps)
    (he : Collects (plantObjs positions g g' absorpt az el H F get set) w get φ [r] reps m e)
    (he' : Collects (lone (mkSurf g' (reflectiveReceiver 1 get set) F)) w get φ [r] 1 m e') :
    e ≤ e' + (1 - absorpt) * intercepted positions g az el H absorpt r := by
  classical
  have hcs : CountedScene (1 - absorpt) (plantObjs positions g g' absorpt az el H F get set) w get 1 := plant_counted hg hg' ha0 ha1 hgs hw
  have hfront : (⟨positions.length, 0, mkSurf g' (reflectiveReceiver 1 get set) F⟩ : Site σ ℝ E) ∈
      sites (plantObjs positions g g' absorpt az el H F get set) := by
    rw [plant_sites]
    exact List.mem_append_right _ (by simp)
  obtain ⟨hx, hflow⟩ := hcs.at hfront rfl hgs (fun z hz hne => by
    rcases plant_site hz with ⟨j, q, _, rfl⟩ | rfl | rfl
    · exact keeps_ignores (mirror_keeps _ _)
    · exact absurd ⟨rfl, rfl⟩ hne
    · exact keeps_ignores (C51_reflective 1 get).1)
  have hset : GoingsSettled Surf.single (Surf.alone w) (plainPolicy (plantObjs positions g g' absorpt az el H F get set))
      (sites (plantObjs positions g g' absorpt az el H F get set)) m [r] reps := flat_settled hcs.plain (plant_flatMirrors hg hg' hF) hstart
  have hlone := lone_report (φ := φ) one_pos (.rect _ _ _ hg') hF hgs hw
    (fun t ht => hstart (receiverObj g' F get set) (List.mem_append_right _ (List.mem_singleton_self _)) _ (List.mem_cons_self ..) t ht) he'
  have hI : 0 ≤ intercepted positions g az el H absorpt r := by
    refine List.sum_nonneg fun v hv => ?_
    obtain ⟨p, -, rfl⟩ := List.mem_map.1 hv
    split
    · exact hE
    · exact le_rfl
  have hb : ∀ {P : Site σ ℝ E} {l : List (Site σ ℝ E)} {pol}, 0 ≤ brings φ Surf.single pol l P (⟨r, none⟩ : Going ℝ E) := by
    intro P l pol
    unfold brings
    split
    · exact mul_nonneg hE (hφ _).1
    · exact le_rfl
  have hrest : 0 ≤ (1 - absorpt) * intercepted positions g az el H absorpt r := mul_nonneg (by linarith) hI
  have hloneb := hb (P := ⟨0, 0, mkSurf g' (reflectiveReceiver 1 get set) F⟩) (l := sites (lone (mkSurf g' (reflectiveReceiver 1 get set) F)))
    (pol := plainPolicy (lone (mkSurf g' (reflectiveReceiver 1 get set) F)))
  have hpos : 0 ≤ e' + (1 - absorpt) * intercepted positions g az el H absorpt r := by
    rw [hlone]
    linarith
  rw [hflow φ reps r m e hset he]
  rcases reps with _ | n
  · simpa [flow] using hpos
  rcases flow_first hx hφ n ⟨r, none⟩ hE (staysUntied_of hset hun) with h | ⟨z, hz, hm, q, hq, hq0, hle, hne⟩
  · rw [h, mul_zero]
    exact hpos
  · refine hle.trans ?_
    rcases plant_site hz with ⟨j, p, hp, rfl⟩ | rfl | rfl
    · have hjl : j < positions.length := (List.getElem?_eq_some_iff.1 hp).1
      rw [hne (fun h => by have := congrArg Site.obj h; simp only at this; omega), mul_zero, zero_add]
      have h1 := (ReturnsAtMost.gives (ρ := 1 - absorpt) (g := g) (by linarith) (.oneSided absorpt le_rfl ha1) (aimTransform az el H p) w r hE q hq).2
      have h2 : r.energy ≤ intercepted positions g az el H absorpt r := by
        obtain ⟨-, t, ht, hct, -⟩ := hm
        refine (le_of_eq ?_).trans (List.single_le_sum ?_ _ (List.mem_map.2 ⟨p, List.mem_of_getElem? hp, rfl⟩))
        · rw [if_pos ⟨t, ht, hct⟩]
        · intro v hv
          obtain ⟨p, -, rfl⟩ := List.mem_map.1 hv
          split
          · exact hE
          · exact le_rfl
      have h3 := mul_le_mul_of_nonneg_left h2 (by linarith : (0 : ℝ) ≤ 1 - absorpt)
      rw [hlone]
      linarith
    · have h1 := hx.takes r hE q hq
      rw [sub_self, mul_zero] at h1
      have h2 : brings φ Surf.single (plainPolicy (plantObjs positions g g' absorpt az el H F get set)) (sites (plantObjs positions g g' absorpt az el H F get set))
          ⟨positions.length, 0, mkSurf g' (reflectiveReceiver 1 get set) F⟩ ⟨r, none⟩ =
          brings φ Surf.single (plainPolicy (lone (mkSurf g' (reflectiveReceiver 1 get set) F))) (sites (lone (mkSurf g' (reflectiveReceiver 1 get set) F)))
            ⟨0, 0, mkSurf g' (reflectiveReceiver 1 get set) F⟩ (⟨r, none⟩ : Going ℝ E) := by
        obtain ⟨-, t, ht, hct, -⟩ := id hm
        unfold brings
        rw [if_pos hm, if_pos (lone_meets (cut := dropTol) ht hct le_rfl)]
        rfl
      rw [h2, ← hlone]
      linarith
    · rw [hne (fun h => by have := congrArg Site.num h; simp at this), mul_zero, zero_add]
      have h1 := (ReturnsAtMost.gives (ρ := 0) (g := g') le_rfl (.mirror 1 (by norm_num) le_rfl) (F * ⟨1, ⟨0, 0, -(1 / 10 ^ 10)⟩⟩) w r hE q hq).2
      rw [zero_mul] at h1
      exact h1.trans hpos
end

/-! ### The mean over the rays of the sun -/

theorem rect_area {W L : ℝ} (hW : 0 < W) (hL : 0 < L) : (volume {q : ℝ × ℝ | |q.1| ≤ W / 2 ∧ |q.2| ≤ L / 2}).toReal = W * L := by
  have e : {q : ℝ × ℝ | |q.1| ≤ W / 2 ∧ |q.2| ≤ L / 2} = Set.Icc (-(W / 2)) (W / 2) ×ˢ Set.Icc (-(L / 2)) (L / 2) := by
    ext q
    simp only [Set.mem_setOf_eq, Set.mem_prod, Set.mem_Icc, abs_le]
  rw [e, Measure.volume_eq_prod, Measure.prod_prod, Real.volume_Icc, Real.volume_Icc, ENNReal.toReal_mul,
    ENNReal.toReal_ofReal (by linarith), ENNReal.toReal_ofReal (by linarith)]
  ring

/-- The energy of a ray of the sun that falls on a plate is on average what the plate sees of the sun. -/
theorem plate_mean [MeasurableSpace Ω] {μ : Measure Ω} [IsProbabilityMeasure μ] {W L radius flux ang : ℝ} {center direction : V3 ℝ} {F : Tf ℝ} {g : Geometry ℝ E}
    (hW : 0 < W) (hL : 0 < L) (hg : rectPlateGM W L = .ok g) (hF : F.Rigid) (hd : direction.IsUnit) (hR : 0 < radius) (hflux : 0 ≤ flux)
    (hang : 0 ≤ ang ∧ ang < π / 2) (hside : OneSide direction ang F)
    (hcover : SeenFromDisk center direction radius ang F {q | |q.1| ≤ W / 2 ∧ |q.2| ≤ L / 2}) (extra : E)
    (hstart : ∀ d ∈ angleDraws ×ˢ draws, ∀ t : ℝ, (mkSurf g (reflectiveReceiver 1 id fun acc _ => acc) F : Surf (Account ℝ) ℝ E).single
      (sunRay center direction radius ang flux extra d) = (t : WithTop ℝ) → t ≤ 1 / 10 ^ 10 ∨ 1 / 10 ^ 6 < t)
    {D : Ω → angleDraws ×ˢ draws} (hD : Measurable D)
    (heven : ∀ S, MeasurableSet S → μ {ω | (D ω).1 ∈ S} = volume (S ∩ angleDraws ×ˢ draws) / volume (angleDraws ×ˢ draws)) :
    ∃ I : Ω → ℝ, Integrable I μ ∧ (∀ ω, 0 ≤ I ω) ∧
      (∀ ω (t : ℝ), (mkSurf g (reflectiveReceiver 1 id fun acc _ => acc) F : Surf (Account ℝ) ℝ E).single (sunRay center direction radius ang flux extra (D ω).1) =
        (t : WithTop ℝ) → 1 / 10 ^ 6 < t → I ω = π * radius ^ 2 * flux) ∧
      (∀ ω, I ω = 0 ∨ ∃ t : ℝ, (mkSurf g (reflectiveReceiver 1 id fun acc _ => acc) F : Surf (Account ℝ) ℝ E).single
        (sunRay center direction radius ang flux extra (D ω).1) = (t : WithTop ℝ) ∧ 1 / 10 ^ 6 < t) ∧
      ∫ ω, I ω ∂μ = flux * (W * L * |V3.dot direction F.rot.c3|) := by
  classical
  set s : Surf (Account ℝ) ℝ E := mkSurf g (reflectiveReceiver 1 id fun acc _ => acc) F with hs
  have hw : WatchedScene (lone s) Account.reset id 1 := by
    refine ⟨lone_plain s, lone_mirrors (.rect _ _ _ hg) (.receiver _ _ _ _ (.mirror _)), rfl, ⟨0, 0, s⟩, ?_, g, _, F, _, rfl, fun _ _ => rfl,
      (C51_reflective _ id).1, ?_⟩
    · rw [lone_sites]; exact List.mem_singleton_self _
    · intro y hy hne
      rw [lone_sites, List.mem_singleton] at hy
      exact absurd ⟨by rw [hy], by rw [hy]⟩ hne
  have hex : ∀ (n : Nat) ω, ∃ e, 0 < n → ∃ src b, solarDisk center direction radius ang (some flux) ((List.range n).map fun _ => (D ω).1.1)
      ((List.range n).map fun _ => (D ω).1.2) = .ok src ∧ src.rays extra = .ok b ∧ Collects (lone s) Account.reset id (cell F Set.univ) b 1 0 e := by
    intro n ω
    rcases Nat.eq_zero_or_pos n with rfl | hn
    · exact ⟨0, fun h => absurd h (lt_irrefl _)⟩
    · obtain ⟨src, h1⟩ : ∃ src, solarDisk center direction radius ang (some flux) ((List.range n).map fun _ => (D ω).1.1)
          ((List.range n).map fun _ => (D ω).1.2) = .ok src := ⟨_, by unfold solarDisk; rw [if_neg (by simp; omega)]⟩
      obtain ⟨b, h2⟩ : ∃ b, src.rays extra = .ok b := by
        unfold solarDisk at h1
        rw [if_neg (by simp; omega)] at h1
        cases h1
        exact ⟨_, rfl⟩
      obtain ⟨e, he⟩ := C113_exists hw (cell F Set.univ) b 1 0
      exact ⟨e, fun _ => ⟨src, b, h1, h2, he⟩⟩
  choose got hgot using hex
  obtain ⟨share, hm, h01, hmean, hint⟩ := sun_average (A := {q | |q.1| ≤ W / 2 ∧ |q.2| ≤ L / 2}) (S := Set.univ) (a := 1) (get := id) (set := fun acc _ => acc)
    (D := fun _ => D) (μ := μ) (w := Account.reset) (fun _ _ => rfl) rfl (rect_eq hg) (.rect _ _ _ hg)
    (fun p => by unfold rectOutside toLocal; simp)
    ((measurableSet_le (absM measurable_fst) measurable_const).inter (measurableSet_le (absM measurable_snd) measurable_const))
    MeasurableSet.univ hF hd hR hang hside hcover extra one_pos (fun _ => hD) heven hgot
  have hB : 0 ≤ π * radius ^ 2 * flux := by positivity
  have hnn : ∀ d, 0 ≤ share d := fun d => by
    rcases h01 d with h | h <;> rw [h]
    rw [one_mul]
    exact hB
  have hlone : ∀ ω, share (D ω) = 1 * brings (cell F Set.univ) Surf.single (plainPolicy (lone s)) (sites (lone s)) ⟨0, 0, s⟩
      ⟨sunRay center direction radius ang flux extra (D ω).1, none⟩ := by
    intro ω
    have h1 := hmean 1 ω one_pos
    rw [Finset.sum_range_one, Nat.cast_one, div_one] at h1
    obtain ⟨src, b, e1, e2, e3⟩ := hgot 1 ω one_pos
    rw [solarDisk_drawn center direction radius ang flux extra (fun _ => (D ω).1) one_pos e1 e2] at e3
    have e4 : drawnBundle (sunRay center direction radius ang flux extra) (fun _ => (D ω).1) 1 = [sunRay center direction radius ang flux extra (D ω).1] := by
      simp [drawnBundle, Ray.scale]
    rw [e4] at e3
    rw [← h1]
    exact lone_report (get := id) (set := fun acc _ => acc) (w := Account.reset) (a := 1) one_pos (.rect _ _ _ hg) hF (fun _ _ => rfl) rfl (hstart _ (D ω).2) e3
  refine ⟨fun ω => share (D ω), ?_, fun ω => hnn _, fun ω t ht hlt => ?_, fun ω => ?_, ?_⟩
  · refine Integrable.of_bound (hm.comp hD).aestronglyMeasurable (π * radius ^ 2 * flux) (Eventually.of_forall fun ω => ?_)
    rw [Real.norm_of_nonneg (hnn _)]
    rcases h01 (D ω) with h | h <;> rw [h]
    · exact hB
    · rw [one_mul]
  · show share (D ω) = _
    rw [hlone]
    unfold brings
    rw [if_pos (lone_meets (cut := dropTol) ht hlt le_rfl)]
    simp [cell, sunRay]
  · show share (D ω) = 0 ∨ _
    rw [hlone]
    unfold brings
    split
    · rename_i h
      obtain ⟨-, t, h1, h2, -⟩ := h
      exact Or.inr ⟨t, h1, h2⟩
    · exact Or.inl (mul_zero _)
  · rw [hint, Set.univ_inter, rect_area hW hL]
    ring

/-- C120: a heliostat field and its receiver, with room around every plate, after any history of calls that ends with `aim_to_sun`, under the rays of
`solar_disk_bundle`; the disk is large enough for every heliostat.  The power that the receiver reports (in total or in a cell of a flux map) is at most what the
receiver would report with no heliostats there, and what the heliostats intercept, `flux * width * length * |cos|` each, less what they absorb. -/
theorem C120_intercepted [MeasurableSpace Ω] {μ : Measure Ω} [IsProbabilityMeasure μ] {positions : List (V3 ℝ)} {W L absorpt th x y az el ρ ρ' m : ℝ} {F : Tf ℝ}
    {get : σ → Account ℝ} {set : Account ℝ → σ → σ} (hW : 0 < W) (hL : 0 < L) (hx : 0 < x) (hy : 0 < y) (hF : F.Rigid) (ha0 : 0 ≤ absorpt) (ha1 : absorpt ≤ 1)
    {junk junk' : M3 ℝ} {t : Tower σ E} (ht : Tower.new positions W L absorpt th x y F get set junk junk' = .ok t) (ops : List HelioOp)
    (hgs : ∀ acc w, get (set acc w) = acc) {w : σ} (hw : get w = Account.reset)
    {center direction : V3 ℝ} {radius ang flux : ℝ} (h0 : 0 ≤ ρ) (h0' : 0 ≤ ρ') (hρ : (W ^ 2 + L ^ 2) / 4 ≤ ρ ^ 2) (hρ' : (x ^ 2 + y ^ 2) / 4 ≤ ρ' ^ 2)
    (hO : OpenField positions ρ ρ' F.loc center radius)
    (hdir : direction.IsUnit) (hr : 0 < radius) (hang : 0 ≤ ang) (hang1 : ang < π / 2) (hflux : 0 ≤ flux) (extra : E) {reps : Nat}
    (hside : ∀ p ∈ positions, OneSide direction ang (aimTransform az el (heightAfter th ops) p))
    (hcover : ∀ p ∈ positions, SeenFromDisk center direction radius ang (aimTransform az el (heightAfter th ops) p) {q | |q.1| ≤ W / 2 ∧ |q.2| ≤ L / 2})
    {D : Ω → angleDraws ×ˢ draws} (hD : Measurable D)
    (heven : ∀ S, MeasurableSet S → μ {ω | (D ω).1 ∈ S} = volume (S ∩ angleDraws ×ˢ draws) / volume (angleDraws ×ˢ draws))
    {φ : V3 ℝ → ℝ} (hφ : Weights φ) (hφ1 : ∀ p, 0 ≤ φ p ∧ φ p ≤ 1) {power alone : angleDraws ×ˢ draws → ℝ}
    (hpow : ∀ d : angleDraws ×ˢ draws, Collects (t.onField (runHelio (ops ++ [.aim az el]))).plant.scene w get φ
      [sunRay center direction radius ang flux extra d.1] reps m (power d))
    {g' : Geometry ℝ E} (hg' : rectPlateGM x y = .ok g')
    (halone : ∀ d : angleDraws ×ˢ draws, Collects (lone (mkSurf g' (reflectiveReceiver 1 get set) F)) w get φ
      [sunRay center direction radius ang flux extra d.1] 1 m (alone d)) :
    ∫ ω, power (D ω) ∂μ ≤ ∫ ω, alone (D ω) ∂μ + (1 - absorpt) * (flux *
      (positions.map fun p => W * L * |V3.dot direction (aimTransform az el (heightAfter th ops) p).rot.c3|).sum) := by
  classical
  obtain ⟨g, g'', hg, hg'', hscene⟩ := tower_objs (az := az) (el := el) hW hL hx hy ht ops
  obtain rfl : g' = g'' := by rw [hg'] at hg''; exact Except.ok.inj hg''
  rw [hscene] at hpow
  set H := heightAfter th ops with hH
  set objs := plantObjs positions g g' absorpt az el H F get set with hobjs
  have hcs : CountedScene (1 - absorpt) objs w get 1 := plant_counted hg hg' ha0 ha1 hgs hw
  have hfl : AllSurfs FlatMirror objs := plant_flatMirrors hg hg' hF
  have hstart := plant_start (positions := positions) (absorpt := absorpt) (az := az) (el := el) (H := H) (get := get) (set := set) (ang := ang) (flux := flux)
    hg hg' hF h0 h0' hρ hρ' hO hdir hr extra
  obtain ⟨pl, pp, hp⟩ := scene_planes hfl (plant_distinct hg hg' hF h0 h0' hρ hρ' hO)
  have hm := sunRay_measurable center direction radius ang flux extra
  have hun : ∀ᵐ ω ∂μ, GoingsUntied Surf.single (Surf.alone w) (plainPolicy objs) (sites objs) m [sunRay center direction radius ang flux extra (D ω).1] reps := by
    have hnull : μ {ω | Unlucky pl pp (sunRay center direction radius ang flux extra (D ω).1).vertex (sunRay center direction radius ang flux extra (D ω).1).dir} = 0 := by
      have := heven _ (unlucky_measurable (pl := pl) (pp := pp) hm.vertex hm.dir)
      rw [unlucky_disk (fun i => (hp.one i).1) extra hdir hr hang hang1, ENNReal.zero_div] at this
      exact this
    have : ∀ᵐ ω ∂μ, ¬ Unlucky pl pp (sunRay center direction radius ang flux extra (D ω).1).vertex (sunRay center direction radius ang flux extra (D ω).1).dir := by
      rw [ae_iff]
      simpa using hnull
    filter_upwards [this] with ω hω
    exact lucky_untied hp hω
  have hrm : RayM fun d : (angleDraws ×ˢ draws : Set ((ℝ × ℝ) × (ℝ × ℝ))) => sunRay center direction radius ang flux extra d.1 :=
    ⟨⟨hm.vertex.x.comp measurable_subtype_coe, hm.vertex.y.comp measurable_subtype_coe, hm.vertex.z.comp measurable_subtype_coe⟩,
      ⟨hm.dir.x.comp measurable_subtype_coe, hm.dir.y.comp measurable_subtype_coe, hm.dir.z.comp measurable_subtype_coe⟩,
      hm.energy.comp measurable_subtype_coe⟩
  have hE : ∀ d, (sunRay center direction radius ang flux extra d).energy = π * radius ^ 2 * flux := fun d => rfl
  have hB : 0 ≤ π * radius ^ 2 * flux := by positivity
  have integ : ∀ {f : angleDraws ×ˢ draws → ℝ}, Measurable f → (∃ C, ∀ d, |f d| ≤ C) → Integrable (fun ω => f (D ω)) μ := by
    rintro f hf ⟨C, hC⟩
    exact Integrable.of_bound (hf.comp hD).aestronglyMeasurable C (Eventually.of_forall fun ω => by rw [Real.norm_eq_abs]; exact hC _)
  have hBd : ∀ d : (angleDraws ×ˢ draws : Set ((ℝ × ℝ) × (ℝ × ℝ))), |(sunRay center direction radius ang flux extra d.1).energy| ≤ π * radius ^ 2 * flux := fun d => by
    rw [hE, abs_of_nonneg hB]
  have hset : ∀ d : (angleDraws ×ˢ draws : Set ((ℝ × ℝ) × (ℝ × ℝ))), GoingsSettled Surf.single (Surf.alone w) (plainPolicy objs) (sites objs) m
      [sunRay center direction radius ang flux extra d.1] reps := fun d => flat_settled hcs.plain hfl (hstart d.1 d.2)
  have hIpow := integ (power_measurable hcs.watched hφ hrm hset hpow) (power_bounded hcs.watched hφ hBd hset hpow)
  -- the receiver on its own
  set s : Surf σ ℝ E := mkSurf g' (reflectiveReceiver 1 get set) F with hs
  have hsfl : FlatMirror s := ⟨g', _, F, rfl, .rect _ _ _ hg', .receiver _ _ _ _ (.mirror _), ((M3.isRotation_iff _).1 hF).1.2.2.1⟩
  have hws : WatchedScene (lone s) w get 1 := by
    refine ⟨lone_plain s, lone_mirrors (.rect _ _ _ hg') (.receiver _ _ _ _ (.mirror _)), hw, ⟨0, 0, s⟩, ?_, g', _, F, set, rfl, hgs, (C51_reflective 1 get).1, ?_⟩
    · rw [lone_sites]; exact List.mem_singleton_self _
    · intro y hy hne
      rw [lone_sites, List.mem_singleton] at hy
      exact absurd ⟨by rw [hy], by rw [hy]⟩ hne
  have hall : ∀ {P : Surf σ ℝ E → Prop}, P s → AllSurfs P (lone s) := by
    intro P hP o ho t ht
    rw [lone, List.mem_singleton] at ho
    subst ho
    rw [List.mem_singleton] at ht
    rw [ht]
    exact hP
  have hsets : ∀ d : (angleDraws ×ˢ draws : Set ((ℝ × ℝ) × (ℝ × ℝ))), GoingsSettled Surf.single (Surf.alone w) (plainPolicy (lone s)) (sites (lone s)) m
      [sunRay center direction radius ang flux extra d.1] 1 := fun d => flat_settled (lone_plain s) (hall hsfl)
    (hall fun t ht => hstart d.1 d.2 (receiverObj g' F get set) (List.mem_append_right _ (List.mem_singleton_self _)) _ (List.mem_cons_self ..) t ht)
  have hIal := integ (power_measurable hws hφ hrm hsets halone) (power_bounded hws hφ hBd hsets halone)
  -- what the heliostats intercept
  have hmean : ∀ l : List (V3 ℝ), (∀ p ∈ l, p ∈ positions) → ∃ J : Ω → ℝ, Integrable J μ ∧
      (∀ ω, intercepted l g az el H absorpt (sunRay center direction radius ang flux extra (D ω).1) ≤ J ω) ∧
      ∫ ω, J ω ∂μ = flux * (l.map fun p => W * L * |V3.dot direction (aimTransform az el H p).rot.c3|).sum := by
    intro l
    induction l with
    | nil => exact fun _ => ⟨fun _ => 0, integrable_zero _ _ _, fun ω => le_of_eq (by simp [intercepted]), by simp⟩
    | cons p l ih =>
      intro hl
      obtain ⟨J, hJ, hle, hint⟩ := ih fun q hq => hl q (List.mem_cons_of_mem _ hq)
      have hpm := hl p List.mem_cons_self
      obtain ⟨j, hj⟩ := List.getElem?_of_mem hpm
      obtain ⟨I, hI, hI0, hI1, -, hIint⟩ := plate_mean (μ := μ) (center := center) hW hL hg (aimTransform_rigid az el H p) hdir hr hflux ⟨hang, hang1⟩ (hside p hpm) (hcover p hpm) extra
        (fun d hd t ht => hstart d hd _ (List.mem_append_left _ (List.mem_map.2 ⟨p, hpm, rfl⟩)) _ (List.mem_cons_self ..) t ht) hD heven
      refine ⟨fun ω => I ω + J ω, hI.add hJ, fun ω => ?_, ?_⟩
      · have h2 := hle ω
        unfold intercepted at h2 ⊢
        rw [List.map_cons, List.sum_cons]
        refine add_le_add ?_ h2
        split
        · rename_i h
          obtain ⟨t, h3, h4⟩ := h
          rw [hI1 ω t h3 h4, hE]
        · exact hI0 ω
      · rw [integral_add hI hJ, hIint, hint, List.map_cons, List.sum_cons]
        ring
  obtain ⟨J, hJ, hle, hint⟩ := hmean positions fun _ h => h
  rw [← hint, ← integral_const_mul, ← integral_add hIal (hJ.const_mul _)]
  refine integral_mono_ae hIpow (hIal.add (hJ.const_mul _)) ?_
  filter_upwards [hun] with ω hω
  have h1 := ray_brings hg hg' hF ha0 ha1 hgs hw hφ1 (by rw [hE]; exact hB) (hstart (D ω).1 (D ω).2) hω (hpow (D ω)) (halone (D ω))
  have h2 := mul_le_mul_of_nonneg_left (hle ω) (by linarith : (0 : ℝ) ≤ 1 - absorpt)
  show power (D ω) ≤ alone (D ω) + (1 - absorpt) * J ω
  linarith

/-- C120: with at least `B^2/(2 ε^2) log(2/η)` rays, where `B = π radius^2 flux`, a trace reports no more than that and `ε`, with a probability of at least `1 - η`. -/
theorem C120_report [MeasurableSpace Ω] {μ : Measure Ω} [IsProbabilityMeasure μ] {positions : List (V3 ℝ)} {W L absorpt th x y az el ρ ρ' m : ℝ} {F : Tf ℝ}
    {get : σ → Account ℝ} {set : Account ℝ → σ → σ} (hW : 0 < W) (hL : 0 < L) (hx : 0 < x) (hy : 0 < y) (hF : F.Rigid) (ha0 : 0 ≤ absorpt) (ha1 : absorpt ≤ 1)
    {junk junk' : M3 ℝ} {t : Tower σ E} (ht : Tower.new positions W L absorpt th x y F get set junk junk' = .ok t) (ops : List HelioOp)
    (hgs : ∀ acc w, get (set acc w) = acc) {w : σ} (hw : get w = Account.reset)
    {center direction : V3 ℝ} {radius ang flux : ℝ} (h0 : 0 ≤ ρ) (h0' : 0 ≤ ρ') (hρ : (W ^ 2 + L ^ 2) / 4 ≤ ρ ^ 2) (hρ' : (x ^ 2 + y ^ 2) / 4 ≤ ρ' ^ 2)
    (hO : OpenField positions ρ ρ' F.loc center radius)
    (hdir : direction.IsUnit) (hr : 0 < radius) (hang : 0 ≤ ang) (hang1 : ang < π / 2) (hflux : 0 < flux) (extra : E) {reps : Nat}
    (hside : ∀ p ∈ positions, OneSide direction ang (aimTransform az el (heightAfter th ops) p))
    (hcover : ∀ p ∈ positions, SeenFromDisk center direction radius ang (aimTransform az el (heightAfter th ops) p) {q | |q.1| ≤ W / 2 ∧ |q.2| ≤ L / 2})
    {D : Nat → Ω → angleDraws ×ˢ draws} (hD : ∀ i, Measurable (D i)) (hind : iIndepFun D μ) (hid : ∀ i, IdentDistrib (D i) (D 0) μ μ)
    (heven : ∀ S, MeasurableSet S → μ {ω | (D 0 ω).1 ∈ S} = volume (S ∩ angleDraws ×ˢ draws) / volume (angleDraws ×ˢ draws))
    {φ : V3 ℝ → ℝ} (hφ : Weights φ) (hφ1 : ∀ p, 0 ≤ φ p ∧ φ p ≤ 1) {alone : angleDraws ×ˢ draws → ℝ}
    {g' : Geometry ℝ E} (hg' : rectPlateGM x y = .ok g')
    (halone : ∀ d : angleDraws ×ˢ draws, Collects (lone (mkSurf g' (reflectiveReceiver 1 get set) F)) w get φ
      [sunRay center direction radius ang flux extra d.1] 1 m (alone d))
    {n : Nat} (hn : 0 < n) {got : Ω → ℝ}
    (hgot : ∀ ω, ∃ src b, solarDisk center direction radius ang (some flux) ((List.range n).map fun i => (D i ω).1.1)
      ((List.range n).map fun i => (D i ω).1.2) = .ok src ∧ src.rays extra = .ok b ∧
      Collects (t.onField (runHelio (ops ++ [.aim az el]))).plant.scene w get φ b reps (m / n) (got ω))
    {ε η : ℝ} (hε : 0 < ε) (hη : 0 < η) (henough : (π * radius ^ 2 * flux) ^ 2 / (2 * ε ^ 2) * log (2 / η) ≤ n) :
    μ.real {ω | ∫ ω, alone (D 0 ω) ∂μ + (1 - absorpt) * (flux *
      (positions.map fun p => W * L * |V3.dot direction (aimTransform az el (heightAfter th ops) p).rot.c3|).sum) + ε ≤ got ω} ≤ η := by
  obtain ⟨g, g'', hg, hg'', hscene⟩ := tower_objs (az := az) (el := el) hW hL hx hy ht ops
  have hcs : CountedScene (1 - absorpt) (t.onField (runHelio (ops ++ [.aim az el]))).plant.scene w get 1 := by
    rw [hscene]
    exact plant_counted hg hg'' ha0 ha1 hgs hw
  choose power hpow using fun d : (angleDraws ×ˢ draws : Set ((ℝ × ℝ) × (ℝ × ℝ))) =>
    C113_exists hcs.watched φ [sunRay center direction radius ang flux extra d.1] reps m
  have h1 := C120_intercepted hW hL hx hy hF ha0 ha1 ht ops hgs hw h0 h0' hρ hρ' hO hdir hr hang hang1 hflux.le extra hside hcover (hD 0) heven hφ hφ1 hpow hg' halone
  have h2 := C119_tower hW hL hx hy hF ha0 ha1 ht ops hgs hw h0 h0' hρ hρ' hO hdir hr hang hang1 hflux extra hD hind hid heven {()} (φ := fun _ => φ)
    (power := fun _ => power) (got := fun _ => got) (fun _ _ => hφ) (fun _ _ => hφ1) (fun _ _ => hpow) hn (fun _ _ => hgot) hε hη (by simpa using henough)
  refine (measureReal_mono fun ω hω => ?_).trans h2
  refine ⟨(), Finset.mem_singleton_self _, (le_abs_self _).trans' ?_⟩
  have hω : _ ≤ got ω := hω
  show ε ≤ got ω - ∫ ω, power (D 0 ω) ∂μ
  linarith

/-! ### Two heliostats under the zenith -/

theorem Examples.narrow_cone {u : V3 ℝ} (hu : InCone ⟨0, 0, -1⟩ (5 / 1000) u) : 9999 / 10000 ≤ -u.z ∧ -u.z ≤ 1 ∧ u.x ^ 2 + u.y ^ 2 ≤ 2 / 10000 := by
  obtain ⟨h1, h2⟩ := hu
  simp only [V3.IsUnit, V3.dot] at h1 h2
  have h3 := Real.one_sub_sq_div_two_le_cos (x := 5 / 1000)
  have h4 : 9999 / 10000 ≤ -u.z := by norm_num at h3; linarith
  exact ⟨h4, by nlinarith, by nlinarith⟩

theorem Examples.two_side (y : ℝ) (hy : y = 4 ∨ y = -4) : OneSide ⟨0, 0, -1⟩ (5 / 1000) (aimTransform 0 0 10 ⟨4, y, 0⟩) := by
  refine Or.inr fun u hu => ?_
  obtain ⟨h1, h2, h3⟩ := Examples.narrow_cone hu
  have hy2 : y ^ 2 = 16 := by rcases hy with rfl | rfl <;> norm_num
  have hs : solarVector 0 0 = ⟨0, 0, 1⟩ := by
    unfold solarVector
    simp
  have hk : ∃ k : ℝ, 0 < k ∧ k ≤ 1 / 11 ∧ toward ⟨4, y, 0⟩ ⟨0, 0, 10⟩ = k • ⟨-4, -y, 10⟩ := by
    refine ⟨1 / √132, by positivity, ?_, ?_⟩
    · exact one_div_le_one_div_of_le (by norm_num) (Real.le_sqrt_of_sq_le (by norm_num))
    · have e : V3.dist2 (⟨0, 0, 10⟩ : V3 ℝ) ⟨4, y, 0⟩ = 132 := by
        simp only [V3.dist2, V3.dot, V3.sub_x, V3.sub_y, V3.sub_z]
        nlinarith
      unfold toward
      rw [e]
      apply V3.ext <;> simp
  obtain ⟨k, k0, k1, hk⟩ := hk
  have hb : solarVector 0 0 + toward ⟨4, y, 0⟩ ⟨0, 0, 10⟩ = ⟨-(4 * k), -(y * k), 1 + 10 * k⟩ := by
    rw [hs, hk]
    apply V3.ext <;> simp <;> ring
  rw [aimTransform_c3 _ _ _ _ (by rw [hb]; intro h; have := congrArg V3.z h; simp at this; linarith), hb]
  unfold normalizeRow
  simp only [V3.dot]
  set n := √((-(4 * k)) ^ 2 + (-(y * k)) ^ 2 + (1 + 10 * k) ^ 2) with hn
  have n0 : 0 < n := Real.sqrt_pos.2 (by positivity)
  have n2 : n ≤ 2 := by
    rw [hn]
    refine Real.sqrt_le_iff.2 ⟨by norm_num, ?_⟩
    nlinarith
  have hx : |u.x| ≤ 1 / 50 := abs_le_of_sq_le_sq (by nlinarith [sq_nonneg u.y]) (by norm_num)
  have hyy : |u.y| ≤ 1 / 50 := abs_le_of_sq_le_sq (by nlinarith [sq_nonneg u.x]) (by norm_num)
  have e1 : -(u.x * (4 * k)) ≤ 1 / 100 := by nlinarith [abs_le.1 hx]
  have e2 : -(u.y * (y * k)) ≤ 1 / 100 := by
    have := abs_le.1 hyy
    rcases hy with rfl | rfl <;> nlinarith
  have e3 : u.z * (1 + 10 * k) ≤ -(9999 / 10000) := by nlinarith
  have e : u.x * (-(4 * k) / n) + u.y * (-(y * k) / n) + u.z * ((1 + 10 * k) / n) = (-(u.x * (4 * k)) + -(u.y * (y * k)) + u.z * (1 + 10 * k)) / n := by
    field_simp
  rw [e, div_lt_iff₀ n0]
  nlinarith

theorem Examples.two_seen (y : ℝ) (hy : y = 4 ∨ y = -4) :
    SeenFromDisk ⟨0, 0, 100⟩ ⟨0, 0, -1⟩ 10 (5 / 1000) (aimTransform 0 0 10 ⟨4, y, 0⟩) {q | |q.1| ≤ 1 / 2 ∧ |q.2| ≤ 1 / 2} := by
  intro q hq u hu
  obtain ⟨h1, h2, h3⟩ := Examples.narrow_cone hu
  have ha := abs_le.1 hq.1
  have hb := abs_le.1 hq.2
  obtain ⟨v, hv, hv2⟩ : ∃ v : V3 ℝ, (aimTransform 0 0 10 ⟨4, y, 0⟩).point ⟨q.1, q.2, 0⟩ = v + ⟨4, y, 0⟩ ∧ V3.dot v v ≤ 1 / 2 := by
    refine ⟨(aimTransform 0 0 10 ⟨4, y, 0⟩).rot.mulVec ⟨q.1, q.2, 0⟩, rfl, ?_⟩
    rw [M3.IsRotation.dot (aimTransform_rigid 0 0 10 ⟨4, y, 0⟩)]
    simp only [V3.dot]
    nlinarith
  rw [hv]
  simp only [V3.dot] at hv2
  have hvx : |v.x| ≤ 1 := abs_le_of_sq_le_sq (by nlinarith [sq_nonneg v.y, sq_nonneg v.z]) (by norm_num)
  have hvy : |v.y| ≤ 1 := abs_le_of_sq_le_sq (by nlinarith [sq_nonneg v.x, sq_nonneg v.z]) (by norm_num)
  have hvz : |v.z| ≤ 1 := abs_le_of_sq_le_sq (by nlinarith [sq_nonneg v.x, sq_nonneg v.y]) (by norm_num)
  rw [abs_le] at hvx hvy hvz
  have hz : 0 < -u.z := by linarith
  obtain ⟨k, hk⟩ : ∃ k, k * -u.z = 100 - v.z := ⟨(100 - v.z) / -u.z, div_mul_cancel₀ _ hz.ne'⟩
  have k1 : 99 ≤ k := by nlinarith
  have k2 : k ≤ 102 := by nlinarith
  have hx : |u.x| ≤ 3 / 200 := abs_le_of_sq_le_sq (by nlinarith [sq_nonneg u.y]) (by norm_num)
  have hyy : |u.y| ≤ 3 / 200 := abs_le_of_sq_le_sq (by nlinarith [sq_nonneg u.x]) (by norm_num)
  rw [abs_le] at hx hyy
  refine ⟨k, by norm_num; linarith, ?_, ?_⟩
  · simp only [V3.dot, V3.sub_x, V3.sub_y, V3.sub_z, V3.smul_x, V3.smul_y, V3.smul_z, V3.add_x, V3.add_y, V3.add_z]
    linarith
  · simp only [V3.dist2, V3.dot, V3.sub_x, V3.sub_y, V3.sub_z, V3.smul_x, V3.smul_y, V3.smul_z, V3.add_x, V3.add_y, V3.add_z]
    have e : v.z + 0 - k * u.z - 100 = 0 := by linarith
    rw [e]
    have a1 : |v.x + 4 - k * u.x - 0| ≤ 7 := by rw [abs_le]; constructor <;> nlinarith
    have a2 : |v.y + y - k * u.y - 0| ≤ 7 := by rw [abs_le]; rcases hy with rfl | rfl <;> constructor <;> nlinarith
    have b1 := sq_le_sq' (abs_le.1 a1).1 (abs_le.1 a1).2
    have b2 := sq_le_sq' (abs_le.1 a2).1 (abs_le.1 a2).2
    nlinarith

theorem Examples.two_sides : ∀ p ∈ [(⟨4, 4, 0⟩ : V3 ℝ), ⟨4, -4, 0⟩], OneSide ⟨0, 0, -1⟩ (5 / 1000) (aimTransform 0 0 (heightAfter 7 [.height 10]) p) := by
  intro p hp
  simp only [List.mem_cons, List.not_mem_nil, or_false] at hp
  rcases hp with rfl | rfl
  · exact Examples.two_side 4 (Or.inl rfl)
  · exact Examples.two_side (-4) (Or.inr rfl)

theorem Examples.two_seens : ∀ p ∈ [(⟨4, 4, 0⟩ : V3 ℝ), ⟨4, -4, 0⟩],
    SeenFromDisk ⟨0, 0, 100⟩ ⟨0, 0, -1⟩ 10 (5 / 1000) (aimTransform 0 0 (heightAfter 7 [.height 10]) p) {q | |q.1| ≤ 1 / 2 ∧ |q.2| ≤ 1 / 2} := by
  intro p hp
  simp only [List.mem_cons, List.not_mem_nil, or_false] at hp
  rcases hp with rfl | rfl
  · exact Examples.two_seen 4 (Or.inl rfl)
  · exact Examples.two_seen (-4) (Or.inr rfl)

theorem Examples.cos_le (p : V3 ℝ) : |V3.dot ⟨0, 0, -1⟩ (aimTransform 0 0 (heightAfter 7 [.height 10]) p).rot.c3| ≤ 1 := by
  have hc := ((M3.isRotation_iff _).1 (aimTransform_rigid 0 0 (heightAfter 7 [.height 10]) p)).1.2.2.1
  unfold V3.IsUnit at hc
  simp only [V3.dot] at hc ⊢
  generalize (aimTransform 0 0 (heightAfter 7 [.height 10]) p).rot.c3 = c at hc ⊢
  exact abs_le_of_sq_le_sq (by nlinarith [sq_nonneg c.x, sq_nonneg c.y]) (by norm_num)

/-- Two heliostats of 1 by 1 that absorb a tenth, aimed at the zenith, under a sun in the zenith, of half angle 5 mrad and flux 1000: whatever the number of
reflections, they add at most 1800 to what the receiver gets from the sun itself. -/
example (reps : Nat) : ∃ (t : Tower (Account ℝ) Unit) (g' : Geometry ℝ Unit) (μ : Measure (Nat → (angleDraws ×ˢ draws : Set ((ℝ × ℝ) × (ℝ × ℝ)))))
      (power alone : (angleDraws ×ˢ draws : Set ((ℝ × ℝ) × (ℝ × ℝ))) → ℝ),
      Tower.new [⟨4, 4, 0⟩, ⟨4, -4, 0⟩] 1 1 (1 / 10) 7 1 1 (towerFace 10) id (fun acc _ => acc) 1 1 = .ok t ∧ rectPlateGM 1 1 = .ok g' ∧ IsProbabilityMeasure μ ∧
      (∀ d, Collects (t.onField (runHelio ([.height 10] ++ [.aim 0 0]))).plant.scene Account.reset id (fun _ => 1)
        [sunRay ⟨0, 0, 100⟩ ⟨0, 0, -1⟩ 10 (5 / 1000) 1000 () d.1] reps 0 (power d)) ∧
      (∀ d, Collects (lone (mkSurf g' (reflectiveReceiver 1 id fun acc _ => acc) (towerFace 10))) Account.reset id (fun _ => 1)
        [sunRay ⟨0, 0, 100⟩ ⟨0, 0, -1⟩ 10 (5 / 1000) 1000 () d.1] 1 0 (alone d)) ∧
      ∫ ω, power (ω 0) ∂μ ≤ ∫ ω, alone (ω 0) ∂μ + 1800 := by
  obtain ⟨ν, hν, heven⟩ := even_pairs
  obtain ⟨μ, hμ, hD, hind, hid, hlaw⟩ := all_draws_exist ν
  obtain ⟨g, hg⟩ := (C31_constructor (K := ℝ) (E := Unit) 1 1).1 ⟨one_pos, one_pos⟩
  obtain ⟨t, ht, -⟩ := tower_scene (σ := Account ℝ) (positions := [⟨4, 4, 0⟩, ⟨4, -4, 0⟩]) (a := 1 / 10) (th := 7) hg hg (towerFace 10) id (fun acc _ => acc) 1 1
    [.height 10] 0 0
  obtain ⟨g1, g2, hg1, hg2, hscene⟩ := tower_objs (az := 0) (el := 0) one_pos one_pos one_pos one_pos ht [.height 10]
  have hcs : CountedScene (1 - 1 / 10) (t.onField (runHelio ([.height 10] ++ [.aim 0 0]))).plant.scene Account.reset id 1 := by
    rw [hscene]
    exact plant_counted hg1 hg2 (by norm_num) (by norm_num) (fun _ _ => rfl) rfl
  set s : Surf (Account ℝ) ℝ Unit := mkSurf g (reflectiveReceiver 1 id fun acc _ => acc) (towerFace 10) with hs
  have hws : WatchedScene (lone s) Account.reset id 1 := by
    refine ⟨lone_plain s, lone_mirrors (.rect _ _ _ hg) (.receiver _ _ _ _ (.mirror _)), rfl, ⟨0, 0, s⟩, ?_, g, reflective 1, towerFace 10, fun acc _ => acc, rfl,
      fun _ _ => rfl, (C51_reflective 1 id).1, ?_⟩
    · rw [lone_sites]; exact List.mem_singleton_self _
    · intro y hy hne
      rw [lone_sites, List.mem_singleton] at hy
      exact absurd ⟨by rw [hy], by rw [hy]⟩ hne
  choose power hpow using fun (d : (angleDraws ×ˢ draws : Set ((ℝ × ℝ) × (ℝ × ℝ)))) =>
    C113_exists hcs.watched (fun _ => 1) [sunRay ⟨0, 0, 100⟩ ⟨0, 0, -1⟩ 10 (5 / 1000) 1000 () d.1] reps 0
  choose alone halone using fun (d : (angleDraws ×ˢ draws : Set ((ℝ × ℝ) × (ℝ × ℝ)))) =>
    C113_exists hws (fun _ => 1) [sunRay ⟨0, 0, 100⟩ ⟨0, 0, -1⟩ 10 (5 / 1000) 1000 () d.1] 1 0
  refine ⟨t, g, μ, power, alone, ht, hg, hμ, hpow, halone, ?_⟩
  have h := C120_intercepted (ρ := 1) (ρ' := 1) (μ := μ) (D := fun ω => ω 0) one_pos one_pos one_pos one_pos (towerFace_rigid 10) (by norm_num) (by norm_num) ht
    [.height 10] (fun _ _ => rfl) rfl (by norm_num) (by norm_num) (by norm_num) (by norm_num) Examples.two_open (by unfold V3.IsUnit; norm_num [V3.dot])
    (by norm_num) (by norm_num) (by linarith [pi_gt_three]) (by norm_num) ()
    Examples.two_sides Examples.two_seens
    (hD 0) (fun S hS => by rw [← heven S hS]; exact hlaw {d | d.1 ∈ S} (measurable_subtype_coe hS)) one_weights (fun _ => by norm_num) hpow hg halone
  simp only [List.map_cons, List.map_nil, List.sum_cons, List.sum_nil] at h
  have b1 := Examples.cos_le (⟨4, 4, 0⟩ : V3 ℝ)
  have b2 := Examples.cos_le (⟨4, -4, 0⟩ : V3 ℝ)
  linarith

/-- In the same plant, with enough rays a trace reports no more than 1900 above what the receiver gets from the sun itself, with a probability of 99 percent. -/
example (reps n : Nat) (hn : (π * 10 ^ 2 * 1000) ^ 2 / (2 * 100 ^ 2) * log (2 / (1 / 100)) ≤ n) (hn0 : 0 < n) {t : Tower (Account ℝ) Unit}
    (ht : Tower.new [⟨4, 4, 0⟩, ⟨4, -4, 0⟩] 1 1 (1 / 10) 7 1 1 (towerFace 10) id (fun acc _ => acc) 1 1 = .ok t)
    {g' : Geometry ℝ Unit} (hg' : rectPlateGM 1 1 = .ok g') {alone : (angleDraws ×ˢ draws : Set ((ℝ × ℝ) × (ℝ × ℝ))) → ℝ}
    (halone : ∀ d, Collects (lone (mkSurf g' (reflectiveReceiver 1 id fun acc _ => acc) (towerFace 10))) Account.reset id (fun _ => 1)
      [sunRay ⟨0, 0, 100⟩ ⟨0, 0, -1⟩ 10 (5 / 1000) 1000 () d.1] 1 0 (alone d)) :
    ∃ (μ : Measure (Nat → (angleDraws ×ˢ draws : Set ((ℝ × ℝ) × (ℝ × ℝ))))) (got : (Nat → (angleDraws ×ˢ draws : Set ((ℝ × ℝ) × (ℝ × ℝ)))) → ℝ), IsProbabilityMeasure μ ∧
      (∀ ω, ∃ src b, solarDisk ⟨0, 0, 100⟩ ⟨0, 0, -1⟩ 10 (5 / 1000) (some 1000) ((List.range n).map fun i => (ω i).1.1)
        ((List.range n).map fun i => (ω i).1.2) = .ok src ∧ src.rays () = .ok b ∧
        Collects (t.onField (runHelio ([.height 10] ++ [.aim 0 0]))).plant.scene Account.reset id (fun _ => 1) b reps (0 / n) (got ω)) ∧
      μ.real {ω | ∫ ω, alone (ω 0) ∂μ + 1900 ≤ got ω} ≤ 1 / 100 := by
  obtain ⟨ν, hν, heven⟩ := even_pairs
  obtain ⟨μ, hμ, hD, hind, hid, hlaw⟩ := all_draws_exist ν
  obtain ⟨g1, g2, hg1, hg2, hscene⟩ := tower_objs (az := 0) (el := 0) one_pos one_pos one_pos one_pos ht [.height 10]
  have hcs : CountedScene (1 - 1 / 10) (t.onField (runHelio ([.height 10] ++ [.aim 0 0]))).plant.scene Account.reset id 1 := by
    rw [hscene]
    exact plant_counted hg1 hg2 (by norm_num) (by norm_num) (fun _ _ => rfl) rfl
  have hex : ∀ (ω : Nat → (angleDraws ×ˢ draws : Set ((ℝ × ℝ) × (ℝ × ℝ)))), ∃ e, ∃ src b,
      solarDisk ⟨0, 0, 100⟩ ⟨0, 0, -1⟩ 10 (5 / 1000) (some 1000) ((List.range n).map fun i => (ω i).1.1)
        ((List.range n).map fun i => (ω i).1.2) = .ok src ∧ src.rays () = .ok b ∧
        Collects (t.onField (runHelio ([.height 10] ++ [.aim 0 0]))).plant.scene Account.reset id (fun _ => 1) b reps (0 / n) e := by
    intro ω
    obtain ⟨src, h1⟩ : ∃ src, solarDisk ⟨0, 0, 100⟩ ⟨0, 0, -1⟩ 10 (5 / 1000) (some 1000) ((List.range n).map fun i => (ω i).1.1)
        ((List.range n).map fun i => (ω i).1.2) = .ok src := ⟨_, by unfold solarDisk; rw [if_neg (by simp; omega)]⟩
    obtain ⟨b, h2⟩ : ∃ b, src.rays () = .ok b := by
      unfold solarDisk at h1
      rw [if_neg (by simp; omega)] at h1
      cases h1
      exact ⟨_, rfl⟩
    obtain ⟨e, he⟩ := C113_exists hcs.watched (fun _ => 1) b reps (0 / n)
    exact ⟨e, src, b, h1, h2, he⟩
  choose got hgot using hex
  refine ⟨μ, got, hμ, hgot, ?_⟩
  have h := C120_report (ρ := 1) (ρ' := 1) (μ := μ) (D := fun i ω => ω i) (ε := 100) (η := 1 / 100) one_pos one_pos one_pos one_pos (towerFace_rigid 10) (by norm_num)
    (by norm_num) ht [.height 10] (fun _ _ => rfl) rfl (by norm_num) (by norm_num) (by norm_num) (by norm_num) Examples.two_open
    (by unfold V3.IsUnit; norm_num [V3.dot]) (by norm_num) (by norm_num) (by linarith [pi_gt_three]) (by norm_num) () Examples.two_sides Examples.two_seens
    hD hind hid (fun S hS => by rw [← heven S hS]; exact hlaw {d | d.1 ∈ S} (measurable_subtype_coe hS)) one_weights (fun _ => by norm_num) hg' halone hn0 hgot
    (by norm_num) (by norm_num) (by exact_mod_cast hn)
  refine (measureReal_mono fun ω hω => ?_).trans h
  have hω : _ ≤ got ω := hω
  have b1 := Examples.cos_le (⟨4, 4, 0⟩ : V3 ℝ)
  have b2 := Examples.cos_le (⟨4, -4, 0⟩ : V3 ℝ)
  simp only [List.map_cons, List.map_nil, List.sum_cons, List.sum_nil, Set.mem_setOf_eq]
  linarith

end Tracer
