import Verif.Lemmas.LensLimit
import Verif.Lemmas.OneHit

/-! # A lens in an assembly, traced by the engine (C62) -/

set_option linter.unusedSectionVars false

namespace Tracer

open Real Filter Topology

variable {E σ : Type _}

theorem first_is {S : V3 ℝ → Prop} {v d : V3 ℝ} {p : WithTop ℝ} (h : FirstAmong (0 < ·) S v d p) {t : ℝ} (ht : 0 < t)
    (hS : S (v + t • d)) (hu : ∀ s : ℝ, S (v + s • d) → s = t) : p = (t : WithTop ℝ) := by
  cases p with
  | top => exact absurd hS (h t ht)
  | coe u => rw [hu u h.2.1]

theorem placed_line {T : Tf ℝ} (hT : T.Rigid) (S : V3 ℝ → Prop) {r : Ray ℝ E} {v d : V3 ℝ} (hv : r.vertex = T.point v) (hrd : r.dir = T.dir d)
    (s : ℝ) : Placed T S (r.vertex + s • r.dir) ↔ S (v + s • d) := by
  rw [hv, hrd, ← Tf.point_add_smul, placed_iff (M3.IsRotation.det_ne hT), Tf.inv_point_point (M3.IsRotation.det_ne hT)]

theorem face_normal_unit {diameter R apex : ℝ} (hd : 0 < diameter) (hR : R ≠ 0) (hdR : diameter ^ 2 / 4 ≤ R ^ 2) {q : V3 ℝ}
    (h : lensFaceSet diameter apex R q) : ((1 / R) • (q - ⟨0, 0, apex - R⟩) : V3 ℝ).IsUnit := by
  have := (face_side hd hR hdR h).1
  unfold V3.IsUnit V3.dot
  simp only [V3.smul_x, V3.smul_y, V3.smul_z, V3.sub_x, V3.sub_y, V3.sub_z]
  field_simp
  linarith

theorem filter_both {l : Bundle ℝ E} (minE : ℝ) :
    (l.filter (fun r => decide (minE < r.energy)) ++ l.filter (fun r => decide (r.energy ≤ minE))).Perm l := by
  have : (fun r : Ray ℝ E => decide (r.energy ≤ minE)) = fun r => !decide (minE < r.energy) := by
    funext r
    by_cases h : minE < r.energy
    · simp [h]
    · simp [h, not_lt.1 h]
  rw [this]
  exact List.filter_append_perm _ _

/-- A trace of two iterations, each with one ray met. -/
theorem two_steps {objs : List (Obj σ ℝ E)} (hne : objs ≠ []) (hdef : ∀ o ∈ objs, o.Default) (hlen : AllSurfs Surf.LengthOk objs) {minE : ℝ} {w : σ}
    {b : Bundle ℝ E} {k0 i0 k1 i1 : Nat} {s0 s1 : Surf σ ℝ E} {t0 t1 : ℝ} {raw0 raw1 : Bundle ℝ E} (hr0 : raw0 ≠ []) (hr1 : raw1 ≠ [])
    (h0 : (objs.flatMap Obj.surfs)[k0]? = some s0) (hi0 : (s0.register b)[i0]? = some (t0 : WithTop ℝ)) (ht0 : (dropTol : ℝ) < t0)
    (hans0 : ∀ (k j : Nat) (s : Surf σ ℝ E) (t' : ℝ), (objs.flatMap Obj.surfs)[k]? = some s → (s.register b)[j]? = some (t' : WithTop ℝ) →
      0 < t' ∧ j = i0 ∧ (k = k0 ∨ t0 < t'))
    (hout0 : s0.outgoing w b [i0] = .ok (raw0, w)) (hpar0 : ∀ r ∈ raw0, r.parent = i0)
    {b1 : Bundle ℝ E} (hb1 : b1 = raw0.filter (fun r => decide (minE < r.energy))) (hb1ne : b1 ≠ [])
    (h1 : (objs.flatMap Obj.surfs)[k1]? = some s1) (hi1 : (s1.register b1)[i1]? = some (t1 : WithTop ℝ)) (ht1 : (dropTol : ℝ) < t1)
    (hans1 : ∀ (k j : Nat) (s : Surf σ ℝ E) (t' : ℝ), (objs.flatMap Obj.surfs)[k]? = some s → (s.register b1)[j]? = some (t' : WithTop ℝ) →
      0 < t' ∧ j = i1 ∧ (k = k1 ∨ t1 < t'))
    (hout1 : s1.outgoing w b1 [i1] = .ok (raw1, w)) (hpar1 : ∀ r ∈ raw1, r.parent = i1) :
    ∃ res, rayTracer objs w b 2 minE true = .ok res ∧ res.world = w ∧
      res.tree = [b, b1 ++ raw0.filter (fun r => decide (r.energy ≤ minE)),
        raw1.filter (fun r => decide (minE < r.energy)) ++ raw1.filter (fun r => decide (r.energy ≤ minE))] := by
  have nb : ∀ {i0 k0 : Nat} {t0 : ℝ} {b : Bundle ℝ E}, (∀ (k j : Nat) (s : Surf σ ℝ E) (t' : ℝ), (objs.flatMap Obj.surfs)[k]? = some s →
      (s.register b)[j]? = some (t' : WithTop ℝ) → 0 < t' ∧ j = i0 ∧ (k = k0 ∨ t0 < t')) → ¬ Behind (objs.flatMap Obj.surfs) b := by
    rintro i0 k0 t0 b h ⟨s, hs, p, hp, hlt⟩
    obtain ⟨k, hk⟩ := List.getElem?_of_mem hs
    obtain ⟨j, hj⟩ := List.getElem?_of_mem hp
    cases p with
    | top => exact absurd hlt (by simp)
    | coe t =>
      have := (h k j s t hk hj).1
      rw [WithTop.coe_lt_coe] at hlt
      have e : (0 : ℝ) < 1 / 10 ^ 16 := by positivity
      linarith
  obtain ⟨st1, rec1, a1, a2, a3, a4, a5, a6⟩ := iterate_one hdef (minE := minE) (initState_shape objs b w) (initState_free objs b w) hlen h0 hi0 ht0
    (nb hans0) (fun k j s t' hk hj => (hans0 k j s t' hk hj).2) hout0 hpar0
  have e1 : st1.bund = b1 := by rw [a2, hb1]
  obtain ⟨st2, rec2, c1, c2, c3, c4, _, _⟩ := iterate_one hdef (minE := minE) a5 a6 hlen (st := st1) h1 (by rw [e1]; exact hi1) ht1
    (by rw [e1]; exact nb hans1) (fun k j s t' hk hj => (hans1 k j s t' hk (by rw [e1] at hj; exact hj)).2) (by rw [e1, a4]; exact hout1) hpar1
  have g : getSurfaces objs = .ok (objs.flatMap Obj.surfs) := by
    unfold getSurfaces
    rw [if_neg (by simpa using hne)]
  have l0 : raw0.isEmpty = false := by simpa using hr0
  have l1 : raw1.isEmpty = false := by simpa using hr1
  have l2 : st1.bund.isEmpty = false := by rw [e1]; simpa using hb1ne
  have hloop : traceLoop objs (objs.flatMap Obj.surfs) minE true 2 (initState objs b w) [b] none = .ok (st2, [b, rec1, rec2], some raw1) := by
    rw [traceLoop, a1]
    simp only [l0, l2, Bool.not_false, Bool.and_self, if_true, Bool.false_eq_true, if_false]
    rw [traceLoop, c1]
    simp only [l1, Bool.not_false, Bool.and_self, if_true]
    split
    · rfl
    · rfl
  refine ⟨⟨st2.bund.map Ray.vertex, st2.bund.map Ray.dir, [b, rec1, rec2], st2.world⟩, ?_, c4, ?_⟩
  · unfold rayTracer
    rw [g]
    simp only [if_true, hloop]
  · simp only
    rw [a3, c3, e1, c2]

/-- What the engine makes of a ray close to the axis of a lens. -/
theorem lens_traced {T : Tf ℝ} (hT : T.Rigid) {diameter n a depth R1 R2 : ℝ} (hd : 0 < diameter) (hR1 : R1 ≠ 0) (hR2 : R2 ≠ 0)
    (h1 : diameter ^ 2 / 4 ≤ R1 ^ 2) (h2 : diameter ^ 2 / 4 ≤ R2 ^ 2) (hn : 0 < n) (hn1 : n ≠ 1) (hdep : 1 / 10 ^ 6 < depth)
    {front back : SceneSurf σ ℝ E} {wall : List (SceneSurf σ ℝ E)}
    (hf : front.IsLensFace T diameter n (a + depth) R1 ∧ front.AnswersLast (Placed T (lensFaceSet diameter (a + depth) R1)) ∧ front.surf.LengthOk)
    (hb : back.IsLensFace T diameter n a R2 ∧ back.AnswersLast (Placed T (lensFaceSet diameter a R2)) ∧ back.surf.LengthOk)
    {mid height : ℝ} (hw : ∀ s ∈ wall, s.surf.LengthOk ∧
      s.surf.register = (finiteCylinderGM diameter height : Geometry ℝ E).find (T * ⟨1, ⟨0, 0, mid⟩⟩))
    {A B : ℝ} (hA : A = 1 + depth * ((1 - n) / (n * R1))) (hB : B = (1 - n) / R1 + (n - 1) * A / R2) (hB0 : B ≠ 0)
    {start : ℝ} (hstart : a + depth + 1 / 10 ^ 6 < start) {energy minE : ℝ} (hE : minE < energy * (4 * n / (1 + n) ^ 2)) (extra : E) (w : σ) :
    ∃ z e : ℝ → ℝ, Tendsto z (𝓝[≠] 0) (𝓝 (a + A / B)) ∧ Tendsto e (𝓝[≠] 0) (𝓝 (energy * (4 * n / (1 + n) ^ 2) ^ 2)) ∧
      ∀ᶠ h in 𝓝[≠] 0, ∃ (res : TraceResult σ ℝ E) (lvl1 lvl2 : Bundle ℝ E) (inside out : Ray ℝ E),
        rayTracer [⟨(front :: back :: wall).map SurfNode.surf, Obj.defaultOwn, Obj.defaultNext (front :: back :: wall).length⟩] w
          [downRay T h start energy extra] 2 minE true = .ok res ∧ res.world = w ∧
        res.tree = [[downRay T h start energy extra], lvl1, lvl2] ∧ lvl1.length = 2 ∧ lvl2.length = 2 ∧
        inside ∈ lvl1 ∧ inside.parent = 0 ∧ inside.ref = some n ∧
        out ∈ lvl2 ∧ lvl1[out.parent]? = some inside ∧ out.ref = some 1 ∧ out.energy = e h ∧ out.CrossesAxis T (z h) := by
  have hu0 : (⟨0, 0, -1⟩ : V3 ℝ).IsUnit := by unfold V3.IsUnit V3.dot; norm_num
  have n1 : ((-1 : ℝ)) ^ 2 = 1 := by norm_num
  have hdep0 : 0 < depth := lt_trans (by positivity) hdep
  -- the source
  let P0 : ℝ → V3 ℝ := fun h => ⟨h, 0, start⟩
  let D0 : ℝ → V3 ℝ := fun _ => ⟨0, 0, -1⟩
  have nP0 : Near P0 1 start := by
    refine ⟨fun _ => rfl, ?_, tendsto_const_nhds⟩
    apply (tendsto_const_nhds (x := (1 : ℝ))).congr'
    filter_upwards [self_mem_nhdsWithin] with h hh
    exact (div_self hh).symm
  have nD0 : Near D0 0 (-1) := Near.axis (-1)
  obtain ⟨tf, ttf, hcf⟩ := cap_only (apex := a + depth) nP0 nD0 n1 (Eventually.of_forall fun _ => hu0) hd hR1 h1
  obtain ⟨tb, ttb, hcb⟩ := cap_only (apex := a) nP0 nD0 n1 (Eventually.of_forall fun _ => hu0) hd hR2 h2
  -- at the first face
  let P1 : ℝ → V3 ℝ := fun h => P0 h + tf h • D0 h
  have nP1 : Near P1 1 (a + depth) := (nP0.add (nD0.smul ttf)).congr (by ring) (by ring)
  let m1 : ℝ → V3 ℝ := fun h => (1 / R1) • (P1 h - ⟨0, 0, a + depth - R1⟩)
  have nm1 : Near m1 (1 / R1) 1 :=
    ((nP1.subAxis (a + depth - R1)).smul (tendsto_const_nhds (x := 1 / R1))).congr (by ring) (by field_simp; ring)
  obtain ⟨nd1, neg1, refr1⟩ := nD0.refract nm1 (n1 := 1) (n2 := n)
  have refr1 := refr1 one_pos hn
  let d1 : ℝ → V3 ℝ := fun h => refractOne 1 n (D0 h) (m1 h)
  have nd1 : Near d1 ((1 - n) / (n * R1)) (-1) := nd1.congr (by field_simp; ring) rfl
  let e1 : ℝ → V3 ℝ := fun h => reflection (D0 h) (m1 h)
  have ne1 : Near e1 (0 + 2 * (1 / R1)) 1 := nD0.reflect nm1
  have um1 : ∀ᶠ h in 𝓝[≠] 0, (m1 h).IsUnit := hcf.mono fun h hc => face_normal_unit hd hR1 h1 hc.1
  have ud1 : ∀ᶠ h in 𝓝[≠] 0, (d1 h).IsUnit := by
    filter_upwards [um1, refr1] with h hm hr
    exact (C45_snell one_pos hn hu0 hm hr).unit
  have ue1 : ∀ᶠ h in 𝓝[≠] 0, (e1 h).IsUnit := um1.mono fun h hm => reflection_isUnit hu0 hm
  obtain ⟨td, ttd, hcd⟩ := cap_only (apex := a) nP1 nd1 n1 ud1 hd hR2 h2
  obtain ⟨tdf, _, hcdf⟩ := cap_only (apex := a + depth) nP1 nd1 n1 ud1 hd hR1 h1
  obtain ⟨te, tte, hce⟩ := cap_only (apex := a) nP1 ne1 (one_pow 2) ue1 hd hR2 h2
  obtain ⟨tef, _, hcef⟩ := cap_only (apex := a + depth) nP1 ne1 (one_pow 2) ue1 hd hR1 h1
  have wall0 := wall_none nP0 nD0 n1 hd mid height
  have walld := wall_none nP1 nd1 n1 hd mid height
  have walle := wall_none nP1 ne1 (one_pow 2) hd mid height
  have ttd : Tendsto td (𝓝[≠] 0) (𝓝 depth) := by
    rwa [show -1 * (a - (a + depth)) = depth by ring] at ttd
  -- at the second face
  let P2 : ℝ → V3 ℝ := fun h => P1 h + td h • d1 h
  have nP2 : Near P2 A a := (nP1.add (nd1.smul ttd)).congr hA.symm (by ring)
  let m2 : ℝ → V3 ℝ := fun h => (1 / R2) • (P2 h - ⟨0, 0, a - R2⟩)
  have nm2 : Near m2 (A / R2) 1 :=
    ((nP2.subAxis (a - R2)).smul (tendsto_const_nhds (x := 1 / R2))).congr (by ring) (by field_simp; ring)
  obtain ⟨nd2, neg2, refr2⟩ := nd1.refract nm2 (n1 := n) (n2 := 1)
  have refr2 := refr2 hn one_pos
  let d2 : ℝ → V3 ℝ := fun h => refractOne n 1 (d1 h) (m2 h)
  have nd2 : Near d2 B (-1) := nd2.congr (by rw [hB]; field_simp; ring) rfl
  -- energies
  have tF1 := fresnel_near nD0 nm1 one_pos hn
  have tF2 := fresnel_near nd1 nm2 hn one_pos
  have hs : (1 + n) ≠ 0 := by positivity
  have tE1 : Tendsto (fun h => energy * (1 - fresnelOne (D0 h) (m1 h) 1 n)) (𝓝[≠] 0) (𝓝 (energy * (4 * n / (1 + n) ^ 2))) := by
    have := ((tendsto_const_nhds (x := (1 : ℝ))).sub tF1).const_mul energy
    rwa [show 1 - ((1 - n) / (1 + n)) ^ 2 = 4 * n / (1 + n) ^ 2 by field_simp; ring] at this
  have tE2 : Tendsto (fun h => energy * (1 - fresnelOne (D0 h) (m1 h) 1 n) * (1 - fresnelOne (d1 h) (m2 h) n 1)) (𝓝[≠] 0)
      (𝓝 (energy * (4 * n / (1 + n) ^ 2) ^ 2)) := by
    have := tE1.mul ((tendsto_const_nhds (x := (1 : ℝ))).sub tF2)
    rwa [show energy * (4 * n / (1 + n) ^ 2) * (1 - ((n - 1) / (n + 1)) ^ 2) = energy * (4 * n / (1 + n) ^ 2) ^ 2 by
      have : n + 1 ≠ 0 := by positivity
      field_simp
      ring] at this
  let z : ℝ → ℝ := fun h => (P2 h).z - ((P2 h).x / h) / ((d2 h).x / h) * (d2 h).z
  have tz : Tendsto z (𝓝[≠] 0) (𝓝 (a + A / B)) := by
    have := nP2.z.sub ((nP2.x.div nd2.x hB0).mul nd2.z)
    rwa [show a - A / B * -1 = a + A / B by ring] at this
  refine ⟨z, _, tz, tE2, ?_⟩
  have lt_fb : ∀ᶠ h in 𝓝[≠] 0, tf h < tb h := by
    have := ttb.sub ttf
    rw [show -1 * (a - start) - -1 * (a + depth - start) = depth by ring] at this
    filter_upwards [this.eventually_const_lt hdep0] with h hh
    linarith
  filter_upwards [self_mem_nhdsWithin, hcf, hcb, lt_fb, ttf.eventually_const_lt (u := 1 / 10 ^ 6) (by linarith), neg1, refr1, ud1, ue1, hcd, hcdf, hce,
    hcef, wall0, walld, walle, ttd.eventually_const_lt hdep, tte.eventually_lt_const (u := 0) (by linarith), neg2, refr2,
    tE1.eventually_const_lt hE, nd2.x.eventually_ne hB0]
    with h hh ⟨cf1, cf2⟩ ⟨cb1, cb2⟩ hfb htf hneg1 hrefr1 hud hue ⟨cd1, cd2⟩ ⟨_, cdf2⟩ ⟨_, ce2⟩ ⟨_, cef2⟩ w0 wd we htd hte hneg2 hrefr2 hE1 hx
  have htf0 : 0 < tf h := lt_trans (by positivity) htf
  have htd0 : 0 < td h := lt_trans (by positivity) htd
  have hP1S : lensFaceSet diameter (a + depth) R1 (P1 h) := cf1
  have zero_pt : ∀ v d : V3 ℝ, v + (0 : ℝ) • d = v := fun v d => by apply V3.ext <;> simp
  have no_df : ∀ s : ℝ, 0 < s → ¬ lensFaceSet diameter (a + depth) R1 (P1 h + s • d1 h) := fun s hs hS => by
    have h0 := cdf2 0 (by rw [zero_pt]; exact hP1S)
    have := cdf2 s hS
    linarith
  have no_ef : ∀ s : ℝ, 0 < s → ¬ lensFaceSet diameter (a + depth) R1 (P1 h + s • e1 h) := fun s hs hS => by
    have h0 := cef2 0 (by rw [zero_pt]; exact hP1S)
    have := cef2 s hS
    linarith
  have no_eb : ∀ s : ℝ, 0 < s → ¬ lensFaceSet diameter a R2 (P1 h + s • e1 h) := fun s hs hS => by
    have := ce2 s hS
    linarith
  -- the rays
  let src : Ray ℝ E := downRay T h start energy extra
  let refl : Ray ℝ E := ⟨T.point (P1 h), T.dir (e1 h), energy * fresnelOne (D0 h) (m1 h) 1 n, 0, some 1, extra⟩
  let inside : Ray ℝ E := ⟨T.point (P1 h), T.dir (d1 h), energy * (1 - fresnelOne (D0 h) (m1 h) 1 n), 0, some n, extra⟩
  have hus : src.dir.IsUnit := M3.IsRotation.unit hT hu0
  have hui : inside.dir.IsUnit := M3.IsRotation.unit hT hud
  have hur : refl.dir.IsUnit := M3.IsRotation.unit hT hue
  let pre : Bundle ℝ E := if minE < refl.energy then [refl] else []
  have hpre : ∀ r ∈ pre, r = refl := by
    intro r hr
    simp only [pre] at hr
    split at hr
    · simpa using hr
    · simp at hr
  have hb1 : pre ++ [inside] = [refl, inside].filter (fun r => decide (minE < r.energy)) := by
    have hi : minE < inside.energy := hE1
    by_cases hr : minE < refl.energy
    · simp [pre, hr, hi]
    · simp [pre, hr, hi]
  have hub : ∀ r ∈ pre ++ [inside], r.dir.IsUnit := by
    intro r hr
    rcases List.mem_append.1 hr with h' | h'
    · rw [hpre r h']; exact hur
    · rw [List.mem_singleton.1 h']; exact hui
  have hlast : ∀ (i j : Nat) r, i < j → j < (pre ++ [inside]).length → (pre ++ [inside])[i]? = some r → r = refl := by
    intro i j r hij hj hr
    rw [List.length_append, List.length_singleton] at hj
    rw [List.getElem?_append_left (by omega)] at hr
    exact hpre r (List.mem_of_getElem? hr)
  have hget : ∀ (j : Nat) r, (pre ++ [inside])[j]? = some r → (j = pre.length ∧ r = inside) ∨ (j ≠ pre.length ∧ r = refl) := by
    intro j r hr
    have hj := (List.getElem?_eq_some_iff.1 hr).1
    rw [List.length_append, List.length_singleton] at hj
    by_cases hjp : j < pre.length
    · rw [List.getElem?_append_left hjp] at hr
      exact Or.inr ⟨by omega, hpre r (List.mem_of_getElem? hr)⟩
    · have : j = pre.length := by omega
      subst this
      rw [List.getElem?_concat_length] at hr
      exact Or.inl ⟨rfl, (Option.some.inj hr).symm⟩
  -- answers of the faces to the first bundle
  have F0 : ∀ (j : Nat) (r : Ray ℝ E), [src][j]? = some r → j = 0 ∧ r = src := by
    intro j r hr
    have hj := (List.getElem?_eq_some_iff.1 hr).1
    simp at hj
    subst hj
    exact ⟨rfl, by simpa using hr.symm⟩
  have af0 : (front.surf.register [src])[0]? = some (tf h : WithTop ℝ) := by
    obtain ⟨p, hp, hfa⟩ := hf.2.1 [src] (by simpa using hus) (fun i j r hij hj _ => by simp at hj; omega) 0 src rfl
    rw [hp, first_is hfa htf0 ((placed_line hT _ rfl rfl _).2 cf1) fun s hs => cf2 s ((placed_line hT _ rfl rfl _).1 hs)]
  have ab0 : (back.surf.register [src])[0]? = some (tb h : WithTop ℝ) := by
    obtain ⟨p, hp, hfa⟩ := hb.2.1 [src] (by simpa using hus) (fun i j r hij hj _ => by simp at hj; omega) 0 src rfl
    rw [hp, first_is hfa (htf0.trans hfb) ((placed_line hT _ rfl rfl _).2 cb1) fun s hs => cb2 s ((placed_line hT _ rfl rfl _).1 hs)]
  -- and to the second one
  have hin : (pre ++ [inside])[pre.length]? = some inside := List.getElem?_concat_length
  have af1 : ∀ (j : Nat) (t : ℝ), (front.surf.register (pre ++ [inside]))[j]? ≠ some (t : WithTop ℝ) := by
    intro j t hj
    have hjl := (List.getElem?_eq_some_iff.1 hj).1
    rw [hf.2.2] at hjl
    have hr := List.getElem?_eq_getElem hjl
    obtain ⟨p, hp, hfa⟩ := hf.2.1 (pre ++ [inside]) hub (fun i j r hij hj hr t ht => by
      rw [hlast i j r hij hj hr, placed_line hT _ rfl rfl]
      exact no_ef t ht) j _ hr
    rw [hj, Option.some.injEq] at hp
    rw [← hp] at hfa
    rcases hget j _ hr with ⟨_, e⟩ | ⟨_, e⟩
    · rw [e] at hfa
      exact no_df t hfa.1 ((placed_line hT _ rfl rfl _).1 hfa.2.1)
    · rw [e] at hfa
      exact no_ef t hfa.1 ((placed_line hT _ rfl rfl _).1 hfa.2.1)
  have hbl : ∀ (i j : Nat) r, i < j → j < (pre ++ [inside]).length → (pre ++ [inside])[i]? = some r → ∀ t : ℝ, 0 < t →
      ¬ Placed T (lensFaceSet diameter a R2) (r.vertex + t • r.dir) := fun i j r hij hj hr t ht => by
    rw [hlast i j r hij hj hr, placed_line hT _ rfl rfl]
    exact no_eb t ht
  have ab1 : (back.surf.register (pre ++ [inside]))[pre.length]? = some (td h : WithTop ℝ) := by
    obtain ⟨p, hp, hfa⟩ := hb.2.1 (pre ++ [inside]) hub hbl pre.length inside hin
    rw [hp, first_is hfa htd0 ((placed_line hT _ rfl rfl _).2 cd1) fun s hs => cd2 s ((placed_line hT _ rfl rfl _).1 hs)]
  have ab1' : ∀ (j : Nat) (t : ℝ), (back.surf.register (pre ++ [inside]))[j]? = some (t : WithTop ℝ) → j = pre.length := by
    intro j t hj
    have hjl := (List.getElem?_eq_some_iff.1 hj).1
    rw [hb.2.2] at hjl
    have hr := List.getElem?_eq_getElem hjl
    obtain ⟨p, hp, hfa⟩ := hb.2.1 (pre ++ [inside]) hub hbl j _ hr
    rw [hj, Option.some.injEq] at hp
    rw [← hp] at hfa
    rcases hget j _ hr with ⟨e, _⟩ | ⟨_, e⟩
    · exact e
    · rw [e] at hfa
      exact absurd ((placed_line hT _ rfl rfl _).1 hfa.2.1) (no_eb t hfa.1)
  -- the side is not met
  have aw0 : ∀ s ∈ wall, ∀ (j : Nat) (t : ℝ), (s.surf.register [src])[j]? ≠ some (t : WithTop ℝ) := by
    intro s hs j t hj
    have hjl := (List.getElem?_eq_some_iff.1 hj).1
    rw [(hw s hs).1] at hjl
    have hr := List.getElem?_eq_getElem hjl
    rw [(hw s hs).2] at hj
    rw [(F0 j _ hr).2] at hr
    exact w0 t (wall_answer hT hr (v := P0 h) (d := D0 h) rfl rfl hj rfl)
  have aw1 : ∀ s ∈ wall, ∀ (j : Nat) (t : ℝ), (s.surf.register (pre ++ [inside]))[j]? ≠ some (t : WithTop ℝ) := by
    intro s hs j t hj
    have hjl := (List.getElem?_eq_some_iff.1 hj).1
    rw [(hw s hs).1] at hjl
    have hr := List.getElem?_eq_getElem hjl
    rw [(hw s hs).2] at hj
    rcases hget j _ hr with ⟨_, e⟩ | ⟨_, e⟩
    · rw [e] at hr
      exact wd t (wall_answer hT hr (v := P1 h) (d := d1 h) rfl rfl hj rfl)
    · rw [e] at hr
      exact we t (wall_answer hT hr (v := P1 h) (d := e1 h) rfl rfl hj rfl)
  -- what the faces make of the rays
  have out0 := face_out (n1 := 1) (n2 := n) hT hd.le hR1 h1 hf.1 (rays := [src]) (i := 0) (r := src) rfl (v := P0 h) (d := D0 h) (q := P1 h)
    (m := m1 h) (t := tf h) rfl rfl hu0 rfl (if_pos rfl) one_pos hn rfl cf1 af0 rfl hneg1 hrefr1 w
  have out1 := face_out (n1 := n) (n2 := 1) hT hd.le hR2 h2 hb.1 hin (v := P1 h) (d := d1 h) (q := P2 h) (m := m2 h) (t := td h) rfl rfl hud rfl
    (if_neg hn1) hn one_pos rfl cd1 ab1 rfl hneg2 hrefr2 w
  let objs : List (Obj σ ℝ E) := [⟨(front :: back :: wall).map SurfNode.surf, Obj.defaultOwn, Obj.defaultNext (front :: back :: wall).length⟩]
  have hflat : objs.flatMap Obj.surfs = front.surf :: back.surf :: wall.map SurfNode.surf := by simp [objs]
  have hat : ∀ (k : Nat) (s : Surf σ ℝ E), (objs.flatMap Obj.surfs)[k]? = some s →
      (k = 0 ∧ s = front.surf) ∨ (k = 1 ∧ s = back.surf) ∨ ∃ s' ∈ wall, s = s'.surf := by
    intro k s hk
    rw [hflat] at hk
    match k with
    | 0 => exact Or.inl ⟨rfl, by simpa using hk.symm⟩
    | 1 => exact Or.inr (Or.inl ⟨rfl, by simpa using hk.symm⟩)
    | k + 2 =>
      simp only [List.getElem?_cons_succ] at hk
      obtain ⟨s', hs', e⟩ := List.mem_map.1 (List.mem_of_getElem? hk)
      exact Or.inr (Or.inr ⟨s', hs', e.symm⟩)
  obtain ⟨res, hres, hworld, htree⟩ := two_steps (objs := objs) (by simp [objs]) (by
      intro o ho
      simp only [objs, List.mem_singleton] at ho
      subst ho
      exact ⟨rfl, by rw [List.length_map]⟩) (by
      intro o ho s hs
      simp only [objs, List.mem_singleton] at ho
      subst ho
      simp only [List.map_cons, List.mem_cons, List.mem_map] at hs
      rcases hs with rfl | rfl | ⟨s', hs', rfl⟩
      · exact hf.2.2
      · exact hb.2.2
      · exact (hw s' hs').1) (minE := minE) (w := w) (b := [src]) (k0 := 0) (i0 := 0) (k1 := 1) (i1 := pre.length) (s0 := front.surf) (s1 := back.surf)
    (raw0 := [refl, inside]) (by simp) (by simp) (by rw [hflat]; rfl) af0 htf
    (by
      intro k j s t hk hj
      rcases hat k s hk with ⟨rfl, rfl⟩ | ⟨rfl, rfl⟩ | ⟨s', hs', rfl⟩
      · have hjl := (List.getElem?_eq_some_iff.1 hj).1
        rw [hf.2.2] at hjl
        have hj0 := (F0 j _ (List.getElem?_eq_getElem hjl)).1
        subst hj0
        rw [af0, Option.some.injEq, WithTop.coe_inj] at hj
        exact ⟨hj ▸ htf0, rfl, Or.inl rfl⟩
      · have hjl := (List.getElem?_eq_some_iff.1 hj).1
        rw [hb.2.2] at hjl
        have hj0 := (F0 j _ (List.getElem?_eq_getElem hjl)).1
        subst hj0
        rw [ab0, Option.some.injEq, WithTop.coe_inj] at hj
        exact ⟨by linarith, rfl, Or.inr (by linarith)⟩
      · exact absurd hj (aw0 s' hs' j t))
    out0 (by simp [refl, inside]) hb1 (by simp) (by rw [hflat]; rfl) ab1 htd
    (by
      intro k j s t hk hj
      rcases hat k s hk with ⟨rfl, rfl⟩ | ⟨rfl, rfl⟩ | ⟨s', hs', rfl⟩
      · exact absurd hj (af1 j t)
      · have e := ab1' j t hj
        subst e
        rw [ab1, Option.some.injEq, WithTop.coe_inj] at hj
        exact ⟨hj ▸ htd0, rfl, Or.inl rfl⟩
      · exact absurd hj (aw1 s' hs' j t))
    out1 (by simp)
  have hh' : h ≠ 0 := hh
  have hx' : (d2 h).x / h ≠ 0 := hx
  have hx2 : (d2 h).x ≠ 0 := fun e => hx' (by rw [e, zero_div])
  refine ⟨res, _, _, inside, ⟨T.point (P2 h), T.dir (d2 h), inside.energy * (1 - fresnelOne (d1 h) (m2 h) n 1), pre.length, some 1, extra⟩, hres,
    hworld, htree, ?_, ?_, ?_, rfl, rfl, ?_, ?_, rfl, rfl, ?_, -((P2 h).x / h) / ((d2 h).x / h), ?_⟩
  · rw [hb1]
    exact (filter_both minE).length_eq
  · exact (filter_both minE).length_eq
  · simp
  · exact (filter_both minE).mem_iff.2 (by simp [d2, inside])
  · rw [List.append_assoc, List.singleton_append]
    simp
  · simp only
    intro h0
    have := (offAxis_zero hT h0).1
    have e : T.inv.dir (T.dir (d2 h)) = d2 h := M3.inv_mulVec_mulVec (M3.IsRotation.det_ne hT) _
    rw [e] at this
    exact hx2 this
  · simp only
    rw [← Tf.point_add_smul]
    congr 1
    apply V3.ext
    · show (P2 h).x + -((P2 h).x / h) / ((d2 h).x / h) * (d2 h).x = 0
      field_simp
      ring
    · show (P2 h).y + -((P2 h).x / h) / ((d2 h).x / h) * (d2 h).y = 0
      rw [nP2.y h, nd2.y h]
      ring
    · show (P2 h).z + -((P2 h).x / h) / ((d2 h).x / h) * (d2 h).z = z h
      simp only [z]
      ring

/-- C62 for the engine.  A lens with two curved faces stands alone in an assembly; a ray comes down parallel to its axis.  Two iterations of the engine
record the ray, then the ray inside the lens beside the one reflected by the front, then the ray that left through the back, a child of the one inside,
beside the one reflected there.  As the distance from the axis tends to 0, the ray that left crosses the axis at a height that tends to
`-focal_length() + 2*pd`, and carries the share of the energy that two faces let through at normal incidence. -/
theorem C62_trace {T : Tf ℝ} (hT : T.Rigid) {diameter depth R1 R2 n : ℝ} (hd : 0 < diameter) (hR1 : R1 ≠ 0) (hR2 : R2 ≠ 0)
    (h1 : diameter ≤ 2 * |R1|) (h2 : diameter ≤ 2 * |R2|) (hn : 0 < n) (hdep : 1 / 10 ^ 6 < depth)
    (hpow : (n - 1) * (1 / R1 - 1 / R2 + (n - 1) * depth / (n * R1 * R2)) ≠ 0) :
    ∃ (o : SceneObj σ ℝ E) (f pd : ℝ), sphericalLens diameter depth (some R1) (some R2) n T = .ok (o, f) ∧
      1 / f = (n - 1) * (1 / R1 - 1 / R2 + (n - 1) * depth / (n * R1 * R2)) ∧ pd = f * depth * (n - 1) / (n * R1) ∧
      ∀ (junk : M3 ℝ) (start energy minE : ℝ) (extra : E) (w : σ), pd + depth + 1 / 10 ^ 6 < start → minE < energy * (4 * n / (1 + n) ^ 2) →
        ∃ z e : ℝ → ℝ, Tendsto z (𝓝[≠] 0) (𝓝 (-f + 2 * pd)) ∧ Tendsto e (𝓝[≠] 0) (𝓝 (energy * (4 * n / (1 + n) ^ 2) ^ 2)) ∧
          ∀ᶠ h in 𝓝[≠] 0, ∃ (res : TraceResult σ ℝ E) (lvl1 lvl2 : Bundle ℝ E) (inside out : Ray ℝ E),
            rayTracer (Asm.new [o] [] 0 1 junk).scene w [downRay T h start energy extra] 2 minE true = .ok res ∧ res.world = w ∧
            res.tree = [[downRay T h start energy extra], lvl1, lvl2] ∧ lvl1.length = 2 ∧ lvl2.length = 2 ∧
            inside ∈ lvl1 ∧ inside.parent = 0 ∧ inside.ref = some n ∧
            out ∈ lvl2 ∧ lvl1[out.parent]? = some inside ∧ out.ref = some 1 ∧ out.energy = e h ∧ out.CrossesAxis T (z h) := by
  obtain ⟨o, f, pd, front, back, wall, hok, ⟨hf, hpd⟩, hs, hdata, hsame, hF, hB, mid, height, hW⟩ :=
    lens_built (σ := σ) (E := E) hT hd hR1 hR2 h1 h2 hn.ne' hpow
  refine ⟨o, f, pd, hok, by rw [hf, one_div_one_div], hpd, fun junk start energy minE extra w hst hE => ?_⟩
  have hn1 : n ≠ 1 := by
    rintro rfl
    apply hpow
    ring
  have hBp : (1 - n) / R1 + (n - 1) * (1 + depth * ((1 - n) / (n * R1))) / R2 =
      -((n - 1) * (1 / R1 - 1 / R2 + (n - 1) * depth / (n * R1 * R2))) := by
    have := hn.ne'
    field_simp
    ring
  have key := lens_traced hT hd hR1 hR2 (sq_of_abs hd h1) (sq_of_abs hd h2) hn hn1 hdep hF hB hW rfl rfl
    (by rw [hBp]; exact neg_ne_zero.2 hpow) hst hE extra w
  have e : pd + (1 + depth * ((1 - n) / (n * R1))) / ((1 - n) / R1 + (n - 1) * (1 + depth * ((1 - n) / (n * R1))) / R2) =
      -f + 2 * pd := by
    rw [hBp, hpd, hf]
    generalize (n - 1) * (1 / R1 - 1 / R2 + (n - 1) * depth / (n * R1 * R2)) = P at hpow
    have := hn.ne'
    field_simp
    ring
  rw [e] at key
  rw [alone_scene hsame, hdata, hs]
  exact key

/-- The biconvex lens of index 1.5, focal length 12/11, and a ray of energy 1: it is traced to the paraxial focus at -8/11 with 576/625 of its
energy. -/
example : ∃ o : SceneObj Unit ℝ Unit, sphericalLens 1 (1 / 2) (some 1) (some (-1)) (3 / 2) 1 = .ok (o, 12 / 11) ∧
    ∃ z e : ℝ → ℝ, Tendsto z (𝓝[≠] 0) (𝓝 (-8 / 11)) ∧ Tendsto e (𝓝[≠] 0) (𝓝 (576 / 625)) ∧
      ∀ᶠ h in 𝓝[≠] 0, ∃ (res : TraceResult Unit ℝ Unit) (lvl1 lvl2 : Bundle ℝ Unit) (out : Ray ℝ Unit),
        rayTracer (Asm.new [o] [] 0 1 1).scene () [downRay 1 h 5 1 ()] 2 (1 / 20) true = .ok res ∧
        res.tree = [[downRay 1 h 5 1 ()], lvl1, lvl2] ∧ out ∈ lvl2 ∧ out.energy = e h ∧ out.CrossesAxis 1 (z h) := by
  obtain ⟨o, f, pd, hok, hf, hpd, hall⟩ := C62_trace (σ := Unit) (E := Unit) (T := 1)
    Tf.Rigid.one (diameter := 1) (depth := 1 / 2) (R1 := 1) (R2 := -1) (n := 3 / 2) (by norm_num) (by norm_num) (by norm_num)
    (by norm_num) (by norm_num) (by norm_num) (by norm_num) (by norm_num)
  have hf' : f = 12 / 11 := by
    rw [← one_div_one_div f, hf]
    norm_num
  subst hf'
  have hpd' : pd = 2 / 11 := by rw [hpd]; norm_num
  subst hpd'
  obtain ⟨z, e, hz, he, hev⟩ := hall 1 5 1 (1 / 20) () () (by norm_num) (by norm_num)
  refine ⟨o, hok, z, e, by convert hz using 2; norm_num, by convert he using 2; norm_num, hev.mono fun h hh => ?_⟩
  obtain ⟨res, lvl1, lvl2, inside, out, a1, _, a2, _, _, _, _, _, a3, _, _, a4, a5⟩ := hh
  exact ⟨res, lvl1, lvl2, out, a1, a2, a3, a4, a5⟩

end Tracer
