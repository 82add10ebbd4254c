import Verif.Lemmas.Chance
import Verif.Props.Images
import Verif.Props.Balance
import Verif.Props.SunCone
import Verif.Props.Refraction
import Verif.Props.CurvedMirrors
import Verif.Props.Count
import Verif.Props.Tally

/-!
# Ties are a matter of chance (C118)

A ray that meets two surfaces at the same distance is answered by both, and its energy counts twice.  In scenes of flat mirrors and receivers
of which no two lie in one another, the rays for which this happens, at any of the reflections, start on lines: a ray drawn at random
does not meet them, and the energy of a trace is in balance.
-/

namespace Tracer

open MeasureTheory Real

variable {E σ Ω : Type _}

section
variable {objs : List (Obj σ ℝ E)}

/-- The planes of a scene: one for every surface, and for every pair of surfaces that may meet, the two that differ. -/
structure ScenePlanes (surfs : List (Surf σ ℝ E)) (pl : Fin surfs.length → Plane ℝ) (pp : Fin surfs.length → Fin surfs.length → Plane ℝ × Plane ℝ) : Prop where
  one : ∀ i, V3.dot (pl i).normal (pl i).normal = 1 ∧
    ∃ g opt F, surfs[i] = mkSurf g opt F ∧ FlatGeometry g ∧ MirrorOptics opt ∧ F.plane = pl i
  two : ∀ i j, i ≠ j → NeverTogether surfs[i] surfs[j] ∨
    ∃ g opt F g' opt' F', surfs[i] = mkSurf g opt F ∧ surfs[j] = mkSurf g' opt' F' ∧ FlatGeometry g ∧ FlatGeometry g' ∧
      F.plane = (pp i j).1 ∧ F'.plane = (pp i j).2 ∧ ∃ x, ¬ ((pp i j).1.Has x ↔ (pp i j).2.Has x)

theorem scene_planes (hfl : AllSurfs FlatMirror objs) (hd : Distinct objs) : ∃ pl pp, ScenePlanes (objs.flatMap Obj.surfs) pl pp := by
  classical
  have h1 : ∀ i : Fin (objs.flatMap Obj.surfs).length, ∃ P : Plane ℝ, V3.dot P.normal P.normal = 1 ∧
      ∃ g opt F, (objs.flatMap Obj.surfs)[i] = mkSurf g opt F ∧ FlatGeometry g ∧ MirrorOptics opt ∧ F.plane = P := by
    intro i
    obtain ⟨o, ho, hs⟩ := List.mem_flatMap.1 (List.getElem_mem i.2)
    obtain ⟨g, opt, F, e, hg, hopt, hn⟩ := hfl o ho _ hs
    exact ⟨F.plane, hn, g, opt, F, e, hg, hopt, rfl⟩
  have h2 : ∀ i j : Fin (objs.flatMap Obj.surfs).length, ∃ pp : Plane ℝ × Plane ℝ, i ≠ j → NeverTogether (objs.flatMap Obj.surfs)[i] (objs.flatMap Obj.surfs)[j] ∨
      ∃ g opt F g' opt' F', (objs.flatMap Obj.surfs)[i] = mkSurf g opt F ∧ (objs.flatMap Obj.surfs)[j] = mkSurf g' opt' F' ∧ FlatGeometry g ∧ FlatGeometry g' ∧
        F.plane = pp.1 ∧ F'.plane = pp.2 ∧ ∃ x, ¬ (pp.1.Has x ↔ pp.2.Has x) := by
    intro i j
    by_cases hij : i = j
    · exact ⟨⟨⟨0, 0⟩, ⟨0, 0⟩⟩, fun h => absurd hij h⟩
    · rcases hd i j _ _ (List.getElem?_eq_getElem i.2) (List.getElem?_eq_getElem j.2) (fun h => hij (Fin.ext h)) with
        ⟨g, opt, F, g', opt', F', e, e', hg, hg', x, hx⟩ | h
      · exact ⟨(F.plane, F'.plane), fun _ => .inr ⟨g, opt, F, g', opt', F', e, e', hg, hg', rfl, rfl, x, hx⟩⟩
      · exact ⟨⟨⟨0, 0⟩, ⟨0, 0⟩⟩, fun _ => .inl h⟩
  choose pl hpl using h1
  choose pp hpp using h2
  exact ⟨pl, pp, hpl, hpp⟩

/-- A flat surface is met in its plane, and the ray is not along it. -/
theorem flat_met {g : Geometry ℝ E} {opt : Optics σ ℝ E} {F : Tf ℝ} (hg : FlatGeometry g) {r : Ray ℝ E} {t : ℝ}
    (ht : (mkSurf g opt F).single r = (t : WithTop ℝ)) : V3.dot r.dir F.rot.c3 ≠ 0 ∧ F.plane.Has (r.vertex + t • r.dir) := by
  obtain ⟨-, f, hf, -⟩ := hg.spec
  have hsingle : (mkSurf g opt F).single r = f F r.vertex r.dir := by
    unfold Surf.single
    rw [mkSurf_perRay hf opt F]
    rfl
  rw [hsingle] at ht
  exact hg.plane hf r rfl rfl ht

/-- If no ray of the source is unlucky, there is no tie in the whole trace. -/
theorem lucky_noTie {pl : Fin (objs.flatMap Obj.surfs).length → Plane ℝ}
    {pp : Fin (objs.flatMap Obj.surfs).length → Fin (objs.flatMap Obj.surfs).length → Plane ℝ × Plane ℝ} (hp : ScenePlanes (objs.flatMap Obj.surfs) pl pp)
    (hpl : ∀ o ∈ objs, o.Plain) (hfl : AllSurfs FlatMirror objs) {w : σ} {b : Bundle ℝ E} (hb : ∀ p ∈ b, ¬ Unlucky pl pp p.vertex p.dir)
    {reps : Nat} {minE : ℝ} {res : TraceResult σ ℝ E} (h : rayTracer objs w b reps minE true = .ok res) :
    ∀ lvl ∈ res.tree, ∀ r ∈ lvl, NoTie Surf.single (objs.flatMap Obj.surfs) r := by
  intro lvl hlvl r hr
  obtain ⟨k, hk⟩ := List.getElem?_of_mem hlvl
  have hr' : r ∈ (res.tree[k]?).getD [] := by rw [hk]; exact hr
  have hQ := flat_induction (Q := fun _ v d => ∃ p ∈ b, ∃ path : List (Fin (objs.flatMap Obj.surfs).length),
      d = turnedAfter (path.map pl) p.dir ∧ ∃ L : ℝ, v = imageAfter (path.map pl) p.vertex + L • d) hpl hfl h ?_ ?_ hr'
  · obtain ⟨p, hpb, path, hd, L, hv⟩ := hQ
    intro i j s s' t hs hs' ht ht'
    by_contra hij
    obtain ⟨hi, rfl⟩ := List.getElem?_eq_some_iff.1 hs
    obtain ⟨hj, rfl⟩ := List.getElem?_eq_some_iff.1 hs'
    rcases hp.two ⟨i, hi⟩ ⟨j, hj⟩ (fun e => hij (congrArg Fin.val e)) with hn | ⟨g, opt, F, g', opt', F', e, e', hg, hg', eP, eQ, hne⟩
    · exact hn r t ht ht'
    · simp only [Fin.getElem_fin] at e e'
      rw [e] at ht
      rw [e'] at ht'
      obtain ⟨hP, xP⟩ := flat_met hg ht
      obtain ⟨hQ, xQ⟩ := flat_met hg' ht'
      have hP' : V3.dot (turnedAfter (path.map pl) p.dir) (pp ⟨i, hi⟩ ⟨j, hj⟩).1.normal ≠ 0 := by rw [← hd, ← eP]; exact hP
      have hQ' : V3.dot (turnedAfter (path.map pl) p.dir) (pp ⟨i, hi⟩ ⟨j, hj⟩).2.normal ≠ 0 := by rw [← hd, ← eQ]; exact hQ
      rw [eP] at xP
      rw [eQ] at xQ
      refine hb p hpb ⟨path, ⟨i, hi⟩, ⟨j, hj⟩, slope_ne hP' hQ' xP xQ hne, ?_⟩
      rw [hd] at hv xP xQ
      exact gap_meets hv xP xQ
  · intro p hpb
    refine ⟨p, hpb, [], rfl, 0, ?_⟩
    apply V3.ext <;> simp [imageAfter]
  · rintro k r ⟨p, hpb, path, hd, L, hv⟩ o ho s hs t ht hpos q hq
    obtain ⟨i, hi, rfl⟩ := List.getElem_of_mem (List.mem_flatMap.2 ⟨o, ho, hs⟩)
    obtain ⟨-, g, opt, F, e, hg, hopt, eP⟩ := hp.one ⟨i, hi⟩
    simp only [Fin.getElem_fin] at e
    rw [e] at ht hq
    obtain ⟨e1, e2, -, e4⟩ := mirror_child hg hopt ht hq
    refine ⟨p, hpb, path ++ [⟨i, hi⟩], ?_, L + t, ?_⟩
    · rw [e2, hd, List.map_append]
      unfold turnedAfter
      rw [List.foldl_append, List.map_singleton, ← eP]
      rfl
    · have hat : r.at t = imageAfter (path.map pl) p.vertex + (L + t) • r.dir := by
        unfold Ray.at
        rw [hv]
        apply V3.ext <;> simp <;> ring
      have himg := imageIn_self (c := F.loc) (m := F.rot.c3) e4
      rw [e1, ← himg, hat, imageIn_along, e2, List.map_append]
      unfold imageAfter
      rw [List.foldl_append, List.map_singleton, ← eP]
      rfl

/-- **C118.** Rays of one direction that start in a plane: apart from starting points that together have no area, which depend on the scene only,
no ray of the trace, the reflected ones included, meets two surfaces at the same distance. -/
theorem C118_parallel (hpl : ∀ o ∈ objs, o.Plain) (hfl : AllSurfs FlatMirror objs) (hd : Distinct objs) {c e1 e2 d : V3 ℝ}
    (hdet : V3.dot (V3.cross e1 e2) d ≠ 0) :
    ∃ Z : Set (ℝ × ℝ), volume Z = 0 ∧ ∀ (w : σ) (b : Bundle ℝ E) (reps : Nat) (minE : ℝ) (res : TraceResult σ ℝ E),
      (∀ p ∈ b, p.dir = d ∧ ∃ v, v ∉ Z ∧ p.vertex = c + v.1 • e1 + v.2 • e2) → rayTracer objs w b reps minE true = .ok res →
      ∀ lvl ∈ res.tree, ∀ r ∈ lvl, NoTie Surf.single (objs.flatMap Obj.surfs) r := by
  obtain ⟨pl, pp, hp⟩ := scene_planes hfl hd
  refine ⟨_, unlucky_null (pl := pl) (pp := pp) (c := c) (fun i => (hp.one i).1) hdet, fun w b reps minE res hb h => ?_⟩
  refine lucky_noTie hp hpl hfl (fun p hpb => ?_) h
  obtain ⟨e, v, hv, ev⟩ := hb p hpb
  rw [e, ev]
  exact hv

/-- For each direction, almost no point of the disk is unlucky. -/
theorem unlucky_disk {N : Nat} {pl : Fin N → Plane ℝ} {pp : Fin N → Fin N → Plane ℝ × Plane ℝ} (hu : ∀ i, V3.dot (pl i).normal (pl i).normal = 1)
    {center direction : V3 ℝ} {radius ang flux : ℝ} (extra : E) (hdir : direction.IsUnit) (hr : 0 < radius) (h0 : 0 ≤ ang) (h1 : ang < π / 2) :
    volume ({x | Unlucky pl pp (sunRay center direction radius ang flux extra x).vertex (sunRay center direction radius ang flux extra x).dir} ∩
      angleDraws ×ˢ draws) = 0 := by
  have hm := sunRay_measurable center direction radius ang flux extra
  have hA : MeasurableSet (angleDraws ×ˢ draws) := (measurableSet_Ico.prod measurableSet_Ico).prod (measurableSet_Ico.prod measurableSet_Ico)
  have hS : MeasurableSet ({x | Unlucky pl pp (sunRay center direction radius ang flux extra x).vertex (sunRay center direction radius ang flux extra x).dir} ∩
      angleDraws ×ˢ draws) := (unlucky_measurable hm.vertex hm.dir).inter hA
  rw [Measure.volume_eq_prod, Measure.measure_prod_null hS]
  refine Filter.Eventually.of_forall fun ξ => ?_
  by_cases hξ : ξ ∈ angleDraws
  swap
  · refine measure_mono_null (t := ∅) ?_ measure_empty
    rintro y ⟨-, h, -⟩
    exact absurd h hξ
  obtain ⟨hrot, -, -⟩ := C27_rotation_to_z hdir
  set m := rotationToZ direction with hmdef
  set u := m.mulVec (pillboxOne ang ξ.1 ξ.2) with hu'
  have hdet : V3.dot (V3.cross m.c1 m.c2) u ≠ 0 := by
    rw [rot_cross hrot, V3.dot_comm', rot_third hrot]
    exact (pillbox_z h0 h1 hξ).2.ne'
  have hnull := unlucky_null (pl := pl) (pp := pp) (c := center) hu hdet
  have hT : MeasurableSet {v : ℝ × ℝ | Unlucky pl pp (center + v.1 • m.c1 + v.2 • m.c2) u} := by
    refine unlucky_measurable ?_ (V3M.const _)
    exact ((V3M.const _).add (V3M.smul measurable_fst (V3M.const _))).add (V3M.smul measurable_snd (V3M.const _))
  have hf := polar_fraction hr hT
  have hz : fraction (disk radius) {v : ℝ × ℝ | Unlucky pl pp (center + v.1 • m.c1 + v.2 • m.c2) u} = 0 := by
    unfold fraction
    rw [measure_mono_null Set.inter_subset_left hnull, ENNReal.zero_div]
  rw [hz] at hf
  unfold fraction at hf
  rw [ENNReal.div_eq_zero_iff] at hf
  have hdr : volume draws ≠ ⊤ := by
    have e : draws = Set.Ico (0 : ℝ) 1 ×ˢ Set.Ico (0 : ℝ) (2 * π) := rfl
    rw [e, Measure.volume_eq_prod, Measure.prod_prod, Real.volume_Ico, Real.volume_Ico]
    exact ENNReal.mul_ne_top ENNReal.ofReal_ne_top ENNReal.ofReal_ne_top
  refine measure_mono_null ?_ (hf.resolve_right hdr)
  rintro y ⟨hy, -, hy2⟩
  refine ⟨?_, hy2⟩
  have ev : (sunRay center direction radius ang flux extra (ξ, y)).vertex =
      center + (polarPoint radius y).1 • m.c1 + (polarPoint radius y).2 • m.c2 := by
    unfold sunRay polarPoint
    apply V3.ext <;> simp [hmdef] <;> ring
  show Unlucky pl pp _ u
  rw [← ev]
  exact hy

/-- **C118, the sun.** A scene of flat mirrors and receivers, any two of them in different planes or apart, under the rays of `solar_disk_bundle`, each drawn evenly:
almost surely, whatever the number of rays, the limits of the trace and the state of the receivers, no ray of the trace meets two surfaces at the same distance. -/
theorem C118_sun [MeasurableSpace Ω] {μ : Measure Ω} (hpl : ∀ o ∈ objs, o.Plain) (hfl : AllSurfs FlatMirror objs) (hd : Distinct objs)
    {center direction : V3 ℝ} {radius ang flux : ℝ} (hdir : direction.IsUnit) (hr : 0 < radius) (h0 : 0 ≤ ang) (h1 : ang < π / 2) (extra : E)
    {D : Nat → Ω → angleDraws ×ˢ draws}
    (heven : ∀ i S, MeasurableSet S → μ {ω | (D i ω).1 ∈ S} = volume (S ∩ angleDraws ×ˢ draws) / volume (angleDraws ×ˢ draws)) :
    ∀ᵐ ω ∂μ, ∀ (n : Nat) (src : SourceBundle) (b : Bundle ℝ E), 0 < n →
      solarDisk center direction radius ang (some flux) ((List.range n).map fun i => (D i ω).1.1) ((List.range n).map fun i => (D i ω).1.2) = .ok src →
      src.rays extra = .ok b → ∀ (w : σ) (reps : Nat) (minE : ℝ) (res : TraceResult σ ℝ E), rayTracer objs w b reps minE true = .ok res →
      ∀ lvl ∈ res.tree, ∀ r ∈ lvl, NoTie Surf.single (objs.flatMap Obj.surfs) r := by
  obtain ⟨pl, pp, hp⟩ := scene_planes hfl hd
  have hm := sunRay_measurable center direction radius ang flux extra
  have hnull : ∀ i, μ {ω | Unlucky pl pp (sunRay center direction radius ang flux extra (D i ω).1).vertex (sunRay center direction radius ang flux extra (D i ω).1).dir} = 0 := by
    intro i
    have := heven i _ (unlucky_measurable (pl := pl) (pp := pp) hm.vertex hm.dir)
    rw [unlucky_disk (fun i => (hp.one i).1) extra hdir hr h0 h1, ENNReal.zero_div] at this
    exact this
  have hall : ∀ᵐ ω ∂μ, ∀ i, ¬ Unlucky pl pp (sunRay center direction radius ang flux extra (D i ω).1).vertex (sunRay center direction radius ang flux extra (D i ω).1).dir := by
    rw [ae_all_iff]
    intro i
    rw [ae_iff]
    simpa using hnull i
  filter_upwards [hall] with ω hω n src b hn hs hb w reps minE res h
  refine lucky_noTie hp hpl hfl (fun p hpb => ?_) h
  rw [solarDisk_drawn center direction radius ang flux extra (fun i => (D i ω).1) hn hs hb] at hpb
  obtain ⟨i, -, rfl⟩ := List.mem_map.1 hpb
  exact hω i

end

/-- **C118, the balance of energy.** In such a scene of perfect mirrors and `n` receivers, almost surely what the receivers take up in a trace is exactly what the source gave,
less what the rays that are still on their way carry. -/
theorem C118_balance [MeasurableSpace Ω] {μ : Measure Ω} {objs : List (Obj (Receivers ℝ) ℝ E)} {m : Nat} (hpl : ∀ o ∈ objs, o.Plain) (hfl : AllSurfs FlatMirror objs)
    (hmr : AllSurfs (MirrorOrReceiver m) objs) (hd : Distinct objs)
    {center direction : V3 ℝ} {radius ang flux : ℝ} (hdir : direction.IsUnit) (hr : 0 < radius) (h0 : 0 ≤ ang) (h1 : ang < π / 2) (extra : E)
    {D : Nat → Ω → angleDraws ×ˢ draws}
    (heven : ∀ i S, MeasurableSet S → μ {ω | (D i ω).1 ∈ S} = volume (S ∩ angleDraws ×ˢ draws) / volume (angleDraws ×ˢ draws)) :
    ∀ᵐ ω ∂μ, ∀ (n : Nat) (src : SourceBundle) (b : Bundle ℝ E), 0 < n →
      solarDisk center direction radius ang (some flux) ((List.range n).map fun i => (D i ω).1.1) ((List.range n).map fun i => (D i ω).1.2) = .ok src →
      src.rays extra = .ok b → ∀ (w : Receivers ℝ) (reps : Nat) (minE : ℝ) (res : TraceResult (Receivers ℝ) ℝ E), rayTracer objs w b reps minE true = .ok res →
      absorbedBy m res.world - absorbedBy m w = totalEnergy b - totalEnergy (treeLeaves res.tree) ∧ totalEnergy b = π * radius ^ 2 * flux := by
  filter_upwards [C118_sun hpl hfl hd hdir hr h0 h1 extra heven] with ω hω n src b hn hs hb w reps minE res h
  refine ⟨C66_receivers_partial (fun o ho => ?_) hmr h (hω n src b hn hs hb w reps minE res h), ?_⟩
  · obtain ⟨k, hk⟩ := List.getElem?_of_mem ho
    exact (Obj.Plain.decides hpl k o hk).shapeOk
  · rw [solarDisk_drawn center direction radius ang flux extra (fun i => (D i ω).1) hn hs hb]
    unfold totalEnergy drawnBundle
    have hn' : (n : ℝ) ≠ 0 := by exact_mod_cast hn.ne'
    simp only [List.map_map, Function.comp_def, sunRay, Ray.scale, List.map_const', List.sum_replicate, List.length_range, nsmul_eq_mul]
    field_simp

/-- Without ties a ray has at most one nearest surface. -/
theorem timesHit_noTie {objs : List (Obj σ ℝ E)} {p : Ray ℝ E} (h : NoTie Surf.single (objs.flatMap Obj.surfs) p) (cut : ℝ) :
    timesHit cut Surf.single (objs.flatMap Obj.surfs) p ≤ 1 := by
  classical
  unfold timesHit
  have key : ∀ l : List (Surf σ ℝ E), (∀ (i j : Nat) (hi : i < l.length) (hj : j < l.length), (nearestParam cut Surf.single (objs.flatMap Obj.surfs) l[i] p).isSome →
      (nearestParam cut Surf.single (objs.flatMap Obj.surfs) l[j] p).isSome → i = j) →
      l.countP (fun s => (nearestParam cut Surf.single (objs.flatMap Obj.surfs) s p).isSome) ≤ 1 := by
    intro l
    induction l with
    | nil => intro _; simp
    | cons s l ih =>
      intro hl
      rw [List.countP_cons]
      split
      · rename_i hs
        have : l.countP (fun s => (nearestParam cut Surf.single (objs.flatMap Obj.surfs) s p).isSome) = 0 := by
          rw [List.countP_eq_zero]
          intro s' hs' hn
          obtain ⟨i, hi, rfl⟩ := List.getElem_of_mem hs'
          have := hl 0 (i + 1) (by simp) (by simpa using hi) (by simpa using hs) (by simpa using hn)
          omega
        omega
      · refine ih fun i j hi hj h1 h2 => ?_
        have := hl (i + 1) (j + 1) (by simpa using hi) (by simpa using hj) (by simpa using h1) (by simpa using h2)
        omega
  refine key _ fun i j hi hj h1 h2 => ?_
  have near : ∀ s : Surf σ ℝ E, (nearestParam cut Surf.single (objs.flatMap Obj.surfs) s p).isSome →
      ∃ t : ℝ, NearestBeyond cut Surf.single (objs.flatMap Obj.surfs) s p t := by
    intro s hs
    unfold nearestParam at hs
    split at hs
    · simp at hs
    · split at hs
      · rename_i hn; exact ⟨_, hn⟩
      · simp at hs
  obtain ⟨t, n1, n2, n3⟩ := near _ h1
  obtain ⟨t', n1', n2', n3'⟩ := near _ h2
  have e : t = t' := le_antisymm (n3 _ (List.getElem_mem hj) t' n1' n2') (n3' _ (List.getElem_mem hi) t n1 n2)
  subst e
  exact h i j _ _ t (List.getElem?_eq_getElem hi) (List.getElem?_eq_getElem hj) n1 n1'

theorem MirrorOptics.one {opt : Optics σ ℝ E} (h : MirrorOptics opt) :
    ∀ w up hits out w', opt w up hits = .ok (out, w') → out.map Ray.parent = hits.map HitRec.idx := by
  induction h with
  | mirror a => exact fun _ _ _ _ _ => reflective_one _ _ _ _ _ _
  | oneSided a => exact fun _ _ _ _ _ => absorberReflector_one _ _ _ _ _ _
  | receiver a get set opt _ ih => exact fun w up hits out w' h => ih _ _ _ _ _ h

/-- **C118, one surface at a time.** In such a scene of objects with the default rules, almost surely no ray of the trace is answered by two surfaces: no two rays of a
recorded bundle have the same parent, so no bundle has more rays than the source. -/
theorem C118_once [MeasurableSpace Ω] {μ : Measure Ω} {objs : List (Obj σ ℝ E)} (hdef : ∀ o ∈ objs, o.Default) (hfl : AllSurfs FlatMirror objs) (hd : Distinct objs)
    {center direction : V3 ℝ} {radius ang flux : ℝ} (hdir : direction.IsUnit) (hr : 0 < radius) (h0 : 0 ≤ ang) (h1 : ang < π / 2) (extra : E)
    {D : Nat → Ω → angleDraws ×ˢ draws}
    (heven : ∀ i S, MeasurableSet S → μ {ω | (D i ω).1 ∈ S} = volume (S ∩ angleDraws ×ˢ draws) / volume (angleDraws ×ˢ draws)) :
    ∀ᵐ ω ∂μ, ∀ (n : Nat) (src : SourceBundle) (b : Bundle ℝ E), 0 < n →
      solarDisk center direction radius ang (some flux) ((List.range n).map fun i => (D i ω).1.1) ((List.range n).map fun i => (D i ω).1.2) = .ok src →
      src.rays extra = .ok b → ∀ (w : σ) (reps : Nat) (minE : ℝ) (res : TraceResult σ ℝ E), rayTracer objs w b reps minE true = .ok res →
      ∀ (k : Nat) (lvl : Bundle ℝ E), res.tree[k]? = some lvl → (0 < k → (lvl.map Ray.parent).Nodup) ∧ lvl.length ≤ n := by
  have hpl : ∀ o ∈ objs, o.Plain := fun o ho => ⟨(hdef o ho).1, .inl (hdef o ho).2⟩
  have hobj : ∀ o ∈ objs, o.ShapeOk := fun o ho => (hdef o ho).shapeOk
  have hper : AllSurfs (fun s => s.PerRay s.single) objs := by
    intro o ho s hs
    obtain ⟨g, opt, F, rfl, hg, -, -⟩ := hfl o ho s hs
    obtain ⟨-, f, hf, -⟩ := hg.spec
    exact (mkSurf_perRay hf opt F).single
  have hpar : AllSurfs Surf.ParentsOk objs := by
    intro o ho s hs
    obtain ⟨g, opt, F, rfl, -, hopt, -⟩ := hfl o ho s hs
    exact mkSurf_parentsOk g hopt.spec.1 F
  have hlen : AllSurfs Surf.LengthOk objs := fun o ho s hs rays => by
    rw [hper o ho s hs]; simp
  have hone : AllSurfs Surf.OneChild objs := by
    intro o ho s hs
    obtain ⟨g, opt, F, rfl, -, hopt, -⟩ := hfl o ho s hs
    exact mkSurf_oneChild _ hopt.one _
  filter_upwards [C118_sun hpl hfl hd hdir hr h0 h1 extra heven] with ω hω n src b hn hs hb w reps minE res h
  have hnt := hω n src b hn hs hb w reps minE res h
  have hnd : ∀ (k : Nat) (prev lvl : Bundle ℝ E), res.tree[k]? = some prev → res.tree[k + 1]? = some lvl → (lvl.map Ray.parent).Nodup := by
    intro k prev lvl hk hk1
    rw [C09_trace_iff hdef hper hone h hk hk1]
    exact fun p hp _ => timesHit_noTie (hnt prev (List.mem_of_getElem? hk) p hp) _
  have hprev : ∀ (k : Nat) (lvl : Bundle ℝ E), res.tree[k + 1]? = some lvl → ∃ prev, res.tree[k]? = some prev := by
    intro k lvl hk
    obtain ⟨hlt, -⟩ := List.getElem?_eq_some_iff.1 hk
    exact ⟨_, List.getElem?_eq_getElem (by omega)⟩
  intro k
  induction k with
  | zero =>
    intro lvl hk
    refine ⟨fun h => absurd h (lt_irrefl _), ?_⟩
    have := (C11_iteration_limit hobj h).1
    rw [List.head?_eq_getElem?, hk] at this
    cases this
    rw [solarDisk_drawn center direction radius ang flux extra (fun i => (D i ω).1) hn hs hb]
    simp [drawnBundle]
  | succ k ih =>
    intro lvl hk
    obtain ⟨prev, hp⟩ := hprev k lvl hk
    have hdup := hnd k prev lvl hp hk
    refine ⟨fun _ => hdup, le_trans ?_ (ih prev hp).2⟩
    have hsub : lvl.map Ray.parent ⊆ List.range prev.length := by
      intro j hj
      obtain ⟨r, hr, rfl⟩ := List.mem_map.1 hj
      obtain ⟨prev', q, hp', hq, -⟩ := C06_parents_valid hobj hlen hpar h hk hr
      rw [hp] at hp'
      cases hp'
      exact List.mem_range.2 (List.getElem?_eq_some_iff.1 hq).1
    have := (List.subperm_of_subset hdup hsub).length_le
    simpa using this

section
variable {τ : Type _}

theorem TallyMirror.tally {opt : Optics (Receivers ℝ × τ) ℝ E} (h : TallyMirror opt) : TallyOptics (fun _ => False) opt := by
  cases h with
  | mirror a h0 h1 => exact .solid _ a .mirror h0 h1
  | oneSided a h0 h1 => exact .solid _ a .oneSided h0 h1
  | receiver i a h0 h1 => exact .receiver i _ a .mirror h0 h1
  | oneSidedReceiver i a h0 h1 => exact .receiver i _ a .oneSided h0 h1

theorem TallyMirror.mirrorOptics {opt : Optics (Receivers ℝ × τ) ℝ E} (h : TallyMirror opt) : MirrorOptics opt := by
  cases h with
  | mirror a => exact .mirror a
  | oneSided a => exact .oneSided a
  | receiver i a => exact .receiver _ _ _ _ (.mirror a)
  | oneSidedReceiver i a => exact .receiver _ _ _ _ (.oneSided a)

theorem TallyMirror.energyOk {opt : Optics (Receivers ℝ × τ) ℝ E} (h : TallyMirror opt) : opt.EnergyOk := by
  cases h with
  | mirror a h0 h1 => exact PhysicalOpaque.energyOk (.mirror a h0 h1)
  | oneSided a h0 h1 => exact PhysicalOpaque.energyOk (.oneSided a h0 h1)
  | receiver i a h0 h1 => exact PhysicalOpaque.energyOk (.receiver _ _ _ _ (.mirror a h0 h1))
  | oneSidedReceiver i a h0 h1 => exact PhysicalOpaque.energyOk (.receiver _ _ _ _ (.oneSided a h0 h1))

theorem FlatTally.flat {s : Surf (Receivers ℝ × τ) ℝ E} (h : FlatTally s) : FlatMirror s := by
  obtain ⟨g, opt, F, e, hg, ho, hn⟩ := h
  exact ⟨g, opt, F, e, hg, ho.mirrorOptics, hn⟩

/-- **C118, what receivers report.** Mirrors need not be perfect: in such a scene of mirrors and receivers, two-sided or one-sided, of absorptivities between 0 and 1,
almost surely the receivers, reset before the trace, together report no more than the power of the sun on the disk. -/
theorem C118_reports [MeasurableSpace Ω] {μ : Measure Ω} {objs : List (Obj (Receivers ℝ × τ) ℝ E)} (hpl : ∀ o ∈ objs, o.Plain) (hft : AllSurfs FlatTally objs) (hd : Distinct objs)
    {center direction : V3 ℝ} {radius ang flux : ℝ} (hdir : direction.IsUnit) (hr : 0 < radius) (h0 : 0 ≤ ang) (h1 : ang < π / 2) (hflux : 0 ≤ flux) (extra : E)
    {D : Nat → Ω → angleDraws ×ˢ draws}
    (heven : ∀ i S, MeasurableSet S → μ {ω | (D i ω).1 ∈ S} = volume (S ∩ angleDraws ×ˢ draws) / volume (angleDraws ×ˢ draws)) :
    ∀ᵐ ω ∂μ, ∀ (n : Nat) (src : SourceBundle) (b : Bundle ℝ E), 0 < n →
      solarDisk center direction radius ang (some flux) ((List.range n).map fun i => (D i ω).1.1) ((List.range n).map fun i => (D i ω).1.2) = .ok src →
      src.rays extra = .ok b → ∀ (w : Receivers ℝ × τ) (reps : Nat) (minE : ℝ) (res : TraceResult (Receivers ℝ × τ) ℝ E),
      rayTracer objs w b reps minE true = .ok res → ∀ S : Finset Nat, (∀ i ∈ S, w.1 i = Account.reset) → reported S res.world.1 ≤ π * radius ^ 2 * flux := by
  have hfl : AllSurfs FlatMirror objs := fun o ho s hs => (hft o ho s hs).flat
  have hobj : ∀ o ∈ objs, o.ShapeOk := by
    intro o ho
    obtain ⟨k, hk⟩ := List.getElem?_of_mem ho
    exact (Obj.Plain.decides hpl k o hk).shapeOk
  have hper : AllSurfs (fun s => s.PerRay s.single) objs := by
    intro o ho s hs
    obtain ⟨g, opt, F, rfl, hg, -, -⟩ := hft o ho s hs
    obtain ⟨-, f, hf, -⟩ := hg.spec
    exact (mkSurf_perRay hf opt F).single
  have hpar : AllSurfs Surf.ParentsOk objs := by
    intro o ho s hs
    obtain ⟨g, opt, F, rfl, -, hopt, -⟩ := hft o ho s hs
    exact mkSurf_parentsOk g hopt.mirrorOptics.spec.1 F
  have hlen : AllSurfs Surf.LengthOk objs := fun o ho s hs rays => by
    rw [hper o ho s hs]; simp
  have htot : AllSurfs Surf.Total objs := by
    intro o ho s hs
    obtain ⟨g, opt, F, rfl, -, hopt, -⟩ := hft o ho s hs
    exact mkSurf_total _ hopt.tally.total _
  have hen : AllSurfs (Surf.EnergyOn fun _ => True) objs := by
    intro o ho s hs
    obtain ⟨g, opt, F, rfl, -, hopt, -⟩ := hft o ho s hs
    exact mkSurf_energyOn _ hopt.mirrorOptics.spec.1 (hopt.energyOk.on _) _
  filter_upwards [C118_sun hpl hfl hd hdir hr h0 h1 extra heven] with ω hω n src b hn hs hb w reps minE res h S hw
  have hnt := hω n src b hn hs hb w reps minE res h
  have hbd := solarDisk_drawn center direction radius ang flux extra (fun i => (D i ω).1) hn hs hb
  have hpos : ∀ r ∈ b, 0 ≤ r.energy := by
    intro r hr
    rw [hbd] at hr
    obtain ⟨i, -, rfl⟩ := List.mem_map.1 hr
    simp only [sunRay, Ray.scale]
    positivity
  have htotal : totalEnergy b = π * radius ^ 2 * flux := by
    rw [hbd]
    unfold totalEnergy drawnBundle
    have hn' : (n : ℝ) ≠ 0 := by exact_mod_cast hn.ne'
    simp only [List.map_map, Function.comp_def, sunRay, Ray.scale, List.map_const', List.sum_replicate, List.length_range, nsmul_eq_mul]
    field_simp
  have hnn : ∀ lvl ∈ res.tree, ∀ r ∈ lvl, 0 ≤ r.energy := by
    intro lvl hl
    obtain ⟨k, hk⟩ := List.getElem?_of_mem hl
    exact nonneg_on hobj hlen hpar hen hpos h (fun _ _ _ _ => trivial) hk
  have key := C101_scene (absorbed := fun w : Receivers ℝ × τ => reported S w.1) (Q := fun _ => True) hobj hlen hpar htot
    (fun o ho s hs => by
      obtain ⟨g, opt, F, rfl, -, hopt, -⟩ := hft o ho s hs
      exact mkSurf_creditable _ (hopt.tally.creditable S _) _) h
    fun lvl hl p hp => ⟨⟨hnn lvl hl p hp, trivial⟩, (hnt lvl hl p hp).never fun s hs => by
      obtain ⟨o, ho, hs⟩ := List.mem_flatMap.1 hs
      exact hper o ho s hs⟩
  have h2 : reported S w.1 = 0 := Finset.sum_eq_zero fun i hi => by rw [hw i hi]; rfl
  have h3 : 0 ≤ totalEnergy (treeLeaves res.tree) := List.sum_nonneg fun x hx => by
    obtain ⟨r, hr, rfl⟩ := List.mem_map.1 hx
    obtain ⟨lvl, hl, hr⟩ := mem_treeLeaves hr
    exact hnn lvl hl r hr
  linarith

end

/-! ### A mirror on the ground and a receiver on a wall -/

/-- A frame with its third axis along x. -/
def wallFrame : Tf ℝ := ⟨⟨⟨0, 1, 0⟩, ⟨0, 0, 1⟩, ⟨1, 0, 0⟩⟩, ⟨0, 0, 0⟩⟩

/-- An endless mirror at `z = 0`, and an endless receiver at `x = 0` that keeps half of the light. -/
noncomputable def corner : List (Obj (Receivers ℝ) ℝ Unit) :=
  [⟨[mkSurf flatGM (reflective 0) 1], Obj.defaultOwn, Obj.defaultNext 1⟩,
   ⟨[mkSurf flatGM (receiverAt 0 (1 / 2)) wallFrame], Obj.defaultOwn, Obj.defaultNext 1⟩]

theorem corner_all {P : Surf (Receivers ℝ) ℝ Unit → Prop} (h1 : P (mkSurf flatGM (reflective 0) 1)) (h2 : P (mkSurf flatGM (receiverAt 0 (1 / 2)) wallFrame)) :
    AllSurfs P corner := by
  intro o ho s hs
  simp only [corner, List.mem_cons, List.not_mem_nil, or_false] at ho
  rcases ho with rfl | rfl <;> simp only [List.mem_cons, List.not_mem_nil, or_false] at hs <;> subst hs
  · exact h1
  · exact h2

theorem corner_default : ∀ o ∈ corner, o.Default := by
  intro o ho
  simp only [corner, List.mem_cons, List.not_mem_nil, or_false] at ho
  rcases ho with rfl | rfl <;> exact ⟨rfl, rfl⟩

theorem corner_plain : ∀ o ∈ corner, o.Plain := by
  intro o ho
  simp only [corner, List.mem_cons, List.not_mem_nil, or_false] at ho
  rcases ho with rfl | rfl <;> exact ⟨rfl, .inl rfl⟩

theorem corner_flat : AllSurfs FlatMirror corner :=
  corner_all ⟨_, _, _, rfl, .flat, .mirror _, by norm_num [V3.dot]⟩ ⟨_, _, _, rfl, .flat,
    MirrorOptics.receiver (1 / 2) (fun w : Receivers ℝ => w 0) (fun acc w => Function.update w 0 acc) _ (.mirror (1 / 2)), by norm_num [V3.dot, wallFrame]⟩

theorem corner_mirrors : AllSurfs PlainMirror corner :=
  corner_all ⟨_, _, _, rfl, .flat, .mirror _⟩ ⟨_, _, _, rfl, .flat,
    MirrorOptics.receiver (1 / 2) (fun w : Receivers ℝ => w 0) (fun acc w => Function.update w 0 acc) _ (.mirror (1 / 2))⟩

theorem corner_distinct : Distinct corner := by
  have h : ∃ x : V3 ℝ, ¬ ((1 : Tf ℝ).plane.Has x ↔ wallFrame.plane.Has x) :=
    ⟨⟨1, 0, 0⟩, by norm_num [Plane.Has, Tf.plane, wallFrame, V3.dot]⟩
  have h' : ∃ x : V3 ℝ, ¬ (wallFrame.plane.Has x ↔ (1 : Tf ℝ).plane.Has x) := h.imp fun x hx e => hx e.symm
  intro k k' s s' hs hs' hne
  simp only [corner, List.flatMap_cons, List.flatMap_nil, List.append_nil, List.cons_append, List.nil_append] at hs hs'
  rcases k with _ | _ | k <;> rcases k' with _ | _ | k' <;> simp at hs hs' hne <;> subst hs hs'
  · exact .inl ⟨_, _, _, _, _, _, rfl, rfl, .flat, .flat, h⟩
  · exact .inl ⟨_, _, _, _, _, _, rfl, rfl, .flat, .flat, h'⟩

/-- Ties are possible there: a ray to the corner. -/
theorem C118_tie : ¬ NoTie Surf.single (corner.flatMap Obj.surfs) ⟨⟨1, 0, 1⟩, ⟨-1, 0, -1⟩, 1, 0, none, ()⟩ := by
  intro h
  have h1 : (mkSurf flatGM (reflective 0) 1 : Surf (Receivers ℝ) ℝ Unit).single ⟨⟨1, 0, 1⟩, ⟨-1, 0, -1⟩, 1, 0, none, ()⟩ = ((1 : ℝ) : WithTop ℝ) := by
    show flatParam (1 : Tf ℝ) ⟨1, 0, 1⟩ ⟨-1, 0, -1⟩ = _
    norm_num [flatParam, V3.dot, parallelTol]
  have h2 : (mkSurf flatGM (receiverAt 0 (1 / 2)) wallFrame : Surf (Receivers ℝ) ℝ Unit).single ⟨⟨1, 0, 1⟩, ⟨-1, 0, -1⟩, 1, 0, none, ()⟩ = ((1 : ℝ) : WithTop ℝ) := by
    show flatParam wallFrame ⟨1, 0, 1⟩ ⟨-1, 0, -1⟩ = _
    norm_num [flatParam, V3.dot, parallelTol, wallFrame]
  exact absurd (h 0 1 _ _ 1 rfl rfl h1 h2) (by norm_num)

/-- Plates side by side in one plane are never met together. -/
example (g g' : Geometry ℝ Unit) (hg : roundPlateGM 1 = .ok g) (hg' : roundPlateGM 1 = .ok g') (opt opt' : Optics σ ℝ Unit) :
    NeverTogether (mkSurf g opt 1) (mkSurf g' opt' ⟨1, ⟨3, 0, 0⟩⟩) := by
  intro r t h h'
  unfold roundPlateGM at hg hg'
  rw [if_neg (by norm_num)] at hg hg'
  cases hg
  cases hg'
  have hin : ∀ (F : Tf ℝ) (o : Optics σ ℝ Unit), (mkSurf (finiteFlatGM (roundOutside 1)) o F).single r = (t : WithTop ℝ) →
      roundOutside 1 F (r.vertex + t • r.dir) = false := by
    intro F o h
    have h1 : finiteParam (roundOutside 1) F r.vertex r.dir = (t : WithTop ℝ) := h
    unfold finiteParam at h1
    split at h1
    · simp at h1
    · split at h1
      · simp at h1
      · rename_i hno
        rw [← WithTop.coe_injective h1]
        simpa using hno
  have a := hin _ _ h
  have b := hin _ _ h'
  have e1 : M3.inv (1 : M3 ℝ) = 1 := by
    apply M3.ext <;> apply V3.ext <;> simp [M3.inv, M3.det, M3.one_c1, M3.one_c2, M3.one_c3, V3.dot, V3.cross]
  simp [roundOutside, toLocal, Tf.point, Tf.inv, e1] at a b
  nlinarith [sq_nonneg ((r.vertex.x + t * r.dir.x) - 3 / 2)]

/-- The hypotheses of `C118_parallel`, `C118_sun`, `C118_once` and `C118_balance` hold for the corner and a sun that stands at 45 degrees, and the traces exist. -/
example : (∃ Z : Set (ℝ × ℝ), volume Z = 0 ∧ ∀ (w : Receivers ℝ) (b : Bundle ℝ Unit) (reps : Nat) (minE : ℝ) (res : TraceResult (Receivers ℝ) ℝ Unit),
      (∀ p ∈ b, p.dir = ⟨-1, 0, -1⟩ ∧ ∃ v, v ∉ Z ∧ p.vertex = (⟨5, 0, 5⟩ : V3 ℝ) + v.1 • ⟨1, 0, 0⟩ + v.2 • ⟨0, 1, 0⟩) → rayTracer corner w b reps minE true = .ok res →
      ∀ lvl ∈ res.tree, ∀ r ∈ lvl, NoTie Surf.single (corner.flatMap Obj.surfs) r) ∧
    ∃ μ : Measure (Nat → (angleDraws ×ˢ draws : Set ((ℝ × ℝ) × (ℝ × ℝ)))), IsProbabilityMeasure μ ∧
    ∀ᵐ ω ∂μ, ∀ n reps : Nat, 0 < n → ∃ src b res,
      solarDisk ⟨5, 0, 5⟩ ⟨-3 / 5, 0, -4 / 5⟩ 3 (π / 6) (some 1000) ((List.range n).map fun i => (ω i).1.1) ((List.range n).map fun i => (ω i).1.2) = .ok src ∧
      src.rays () = .ok b ∧ rayTracer corner (fun _ => Account.reset) b reps 0 true = .ok res ∧
      (∀ lvl ∈ res.tree, ∀ r ∈ lvl, NoTie Surf.single (corner.flatMap Obj.surfs) r) ∧
      absorbedBy 1 res.world + totalEnergy (treeLeaves res.tree) = 9000 * π ∧ ∀ lvl ∈ res.tree, lvl.length ≤ n := by
  refine ⟨C118_parallel corner_plain corner_flat corner_distinct (by norm_num [V3.dot, V3.cross]), ?_⟩
  obtain ⟨ν, hν, heven⟩ := even_pairs
  obtain ⟨μ, hμ, hD, hind, hid, hlaw⟩ := draws_exist ν
  have heven' : ∀ i S, MeasurableSet S → μ {ω | (ω i).1 ∈ S} = volume (S ∩ angleDraws ×ˢ draws) / volume (angleDraws ×ˢ draws) := by
    intro i S hS
    have hS' : MeasurableSet {d : (angleDraws ×ˢ draws : Set ((ℝ × ℝ) × (ℝ × ℝ))) | d.1 ∈ S} := measurable_subtype_coe hS
    rw [← heven S hS, ← hlaw _ hS']
    exact (hid i).measure_mem_eq hS'
  have hdir : (⟨-3 / 5, 0, -4 / 5⟩ : V3 ℝ).IsUnit := by unfold V3.IsUnit; norm_num [V3.dot]
  have hang : π / 6 < π / 2 := by linarith [Real.pi_pos]
  have hang0 : 0 ≤ π / 6 := by positivity
  have hmr : AllSurfs (MirrorOrReceiver 1) corner := by
    obtain ⟨-, f, hf, -⟩ := (FlatGeometry.flat (K := ℝ) (E := Unit)).spec
    exact corner_all ⟨_, f, _, hf, .inl rfl⟩ ⟨_, f, _, hf, .inr ⟨0, 1 / 2, by norm_num, rfl⟩⟩
  refine ⟨μ, hμ, ?_⟩
  filter_upwards [C118_sun (center := ⟨5, 0, 5⟩) (flux := 1000) (D := fun i ω => ω i) corner_plain corner_flat corner_distinct hdir (by norm_num : (0 : ℝ) < 3) hang0 hang () heven',
    C118_balance (center := ⟨5, 0, 5⟩) (flux := 1000) (D := fun i ω => ω i) corner_plain corner_flat hmr corner_distinct hdir (by norm_num : (0 : ℝ) < 3) hang0 hang () heven',
    C118_once (center := ⟨5, 0, 5⟩) (flux := 1000) (D := fun i ω => ω i) corner_default corner_flat corner_distinct hdir (by norm_num : (0 : ℝ) < 3) hang0 hang () heven'] with ω h1 h2 h5 n reps hn
  obtain ⟨src, hs⟩ : ∃ src, solarDisk ⟨5, 0, 5⟩ ⟨-3 / 5, 0, -4 / 5⟩ 3 (π / 6) (some 1000) ((List.range n).map fun i => (ω i).1.1)
      ((List.range n).map fun i => (ω i).1.2) = .ok src := ⟨_, by unfold solarDisk; rw [if_neg (by simp; omega)]⟩
  obtain ⟨b, hb⟩ : ∃ b, src.rays () = .ok b := by
    have hs' := hs
    unfold solarDisk at hs'
    rw [if_neg (by simp; omega)] at hs'
    cases hs'
    exact ⟨_, rfl⟩
  obtain ⟨res, h⟩ := C75_mirror_scenes (reps := reps) corner_plain corner_mirrors ⟨_, List.mem_cons_self, by simp⟩ (fun _ => Account.reset) b 0 (.inl rfl)
  refine ⟨src, b, res, hs, hb, h, h1 n src b hn hs hb _ _ _ res h, ?_, fun lvl hl => ?_⟩
  swap
  · obtain ⟨k, hk⟩ := List.getElem?_of_mem hl
    exact (h5 n src b hn hs hb _ _ _ res h k lvl hk).2
  have h3 := h2 n src b hn hs hb _ _ _ res h
  have h4 : absorbedBy 1 (fun _ => Account.reset : Receivers ℝ) = 0 := by simp [absorbedBy, Account.reset]
  rw [h4, h3.2] at h3
  linarith [h3.1]

/-- The hypotheses of `C118_reports`: a mirror that takes up a tenth of the light, and a receiver that keeps it all on its front. -/
example : ∃ objs : List (Obj (Receivers ℝ × Unit) ℝ Unit), (∀ o ∈ objs, o.Plain) ∧ AllSurfs FlatTally objs ∧ Distinct objs ∧ objs.length = 2 := by
  refine ⟨[⟨[mkSurf flatGM (reflective (1 / 10)) 1], Obj.defaultOwn, Obj.defaultNext 1⟩,
    ⟨[mkSurf flatGM (accountant 1 (fun w => w.1 3) (fun acc w => (Function.update w.1 3 acc, w.2)) (absorberReflector 1)) wallFrame], Obj.defaultOwn, Obj.defaultNext 1⟩],
    ?_, ?_, ?_, rfl⟩
  · intro o ho
    simp only [List.mem_cons, List.not_mem_nil, or_false] at ho
    rcases ho with rfl | rfl <;> exact ⟨rfl, .inl rfl⟩
  · intro o ho s hs
    simp only [List.mem_cons, List.not_mem_nil, or_false] at ho
    rcases ho with rfl | rfl <;> simp only [List.mem_cons, List.not_mem_nil, or_false] at hs <;> subst hs
    · exact ⟨_, _, _, rfl, .flat, .mirror _ (by norm_num) (by norm_num), by norm_num [V3.dot]⟩
    · exact ⟨_, _, _, rfl, .flat, .oneSidedReceiver 3 1 (by norm_num) (by norm_num), by norm_num [V3.dot, wallFrame]⟩
  · have h : ∃ x : V3 ℝ, ¬ ((1 : Tf ℝ).plane.Has x ↔ wallFrame.plane.Has x) :=
      ⟨⟨1, 0, 0⟩, by norm_num [Plane.Has, Tf.plane, wallFrame, V3.dot]⟩
    have h' : ∃ x : V3 ℝ, ¬ (wallFrame.plane.Has x ↔ (1 : Tf ℝ).plane.Has x) := h.imp fun x hx e => hx e.symm
    intro k k' s s' hs hs' hne
    simp only [List.flatMap_cons, List.flatMap_nil, List.append_nil, List.cons_append, List.nil_append] at hs hs'
    rcases k with _ | _ | k <;> rcases k' with _ | _ | k' <;> simp at hs hs' hne <;> subst hs hs'
    · exact .inl ⟨_, _, _, _, _, _, rfl, rfl, .flat, .flat, h⟩
    · exact .inl ⟨_, _, _, _, _, _, rfl, rfl, .flat, .flat, h'⟩

end Tracer
