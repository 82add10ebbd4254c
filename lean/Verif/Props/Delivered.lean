import Verif.Props.Intercept
import Verif.Spec.Intercept

/-!
# Heliostats that nothing shades or blocks deliver all that they intercept (C120)
-/

namespace Tracer

open MeasureTheory ProbabilityTheory Filter Real

variable {E σ Ω : Type _}

section
variable {objs : List (Obj σ ℝ E)} {w : σ} {m : ℝ} {φ : V3 ℝ → ℝ} {x : Site σ ℝ E}

/-- What a ray brings that meets one surface only. -/
theorem flow_only {g : Going ℝ E} {z : Site σ ℝ E} {t : ℝ} {q : Ray ℝ E} (h : g.Only Surf.single (plainPolicy objs) (sites objs) z t)
    (hout : z.surf.alone w g.ray = [q]) (n : Nat) :
    flow φ Surf.single (Surf.alone w) (plainPolicy objs) (sites objs) m x (n + 1) [g] =
      brings φ Surf.single (plainPolicy objs) (sites objs) x g +
        if m < q.energy then flow φ Surf.single (Surf.alone w) (plainPolicy objs) (sites objs) m x n [⟨q, some (z.obj, z.num)⟩] else 0 := by
  classical
  have hm := fun {y : Site σ ℝ E} (hy : y ∈ sites objs) => h.meets selfTol_lt_dropTol.le le_rfl hy
  rw [flow_step, sum_ite_unique (List.Nodup.of_map _ (sites_nodup objs)) h.mem ((hm h.mem).2 ⟨rfl, rfl⟩)
    (fun y hy hy' => site_unique h.mem hy ((hm hy).1 hy')), hout]
  by_cases hlt : m < q.energy <;> simp [hlt]
end

section
variable {positions : List (V3 ℝ)} {g g' : Geometry ℝ E} {absorpt az el H W L x y : ℝ} {F : Tf ℝ} {get : σ → Account ℝ} {set : Account ℝ → σ → σ}
  {center direction : V3 ℝ} {radius ang : ℝ}

/-- A mirror sends on what it does not absorb. -/
theorem plate_out (hg : rectPlateGM W L = .ok g) {frame : Tf ℝ} {r : Ray ℝ E} {t : ℝ} (hfront : V3.dot r.dir frame.rot.c3 < 0) (w : σ)
    (ht : (mkSurf g (absorberReflector absorpt : Optics σ ℝ E) frame).single r = (t : WithTop ℝ)) :
    ∃ out, (mkSurf g (absorberReflector absorpt)  frame).alone w r = [out] ∧ out.vertex = r.vertex + t • r.dir ∧ out.dir = turnedBy frame.rot.c3 r.dir ∧
      out.energy = r.energy * (1 - absorpt) := by
  have hn : g.normal = flatNormal := (FlatGeometry.spec (.rect _ _ _ hg)).1
  have hfind : (g.find frame [r])[0]? = some (t : WithTop ℝ) := by
    unfold Surf.single mkSurf at ht
    simp only at ht
    cases hl : g.find frame [r] with
    | nil => rw [hl] at ht; simp at ht
    | cons a l => rw [hl] at ht; simpa using ht
  have hrec : hitRecs g frame [r] [0] = .ok [⟨0, r, r.at t, g.normal frame (r.at t) r.dir⟩] := by
    unfold hitRecs
    rw [hfind]
    simp only [hitRecs, List.getElem?_cons_zero]
  refine ⟨reflectOne absorpt ⟨0, r, r.at t, g.normal frame (r.at t) r.dir⟩, alone_of_outgoing (w' := w) ?_, rfl, ?_, rfl⟩
  · unfold mkSurf
    simp only [hrec, absorberReflector, List.map_cons, List.map_nil]
    rw [if_neg (not_lt.2 hfront.le)]
  · rw [hn]
    exact reflection_turned frame (r.at t) r.dir

/-- A ray of the sun that falls on a heliostat meets it alone. -/
theorem falls_only (hg : rectPlateGM W L = .ok g) (hg' : rectPlateGM x y = .ok g') (hF : F.Rigid)
    (U : Unobstructed positions W L x y az el H F center direction radius ang) {r : Ray ℝ E} (hS : V3.dist2 center r.vertex ≤ radius ^ 2)
    (hu : InCone direction ang r.dir) {i : Nat} {p : V3 ℝ} {t : ℝ} (hp : positions[i]? = some p)
    (ht : (mkSurf g (absorberReflector absorpt : Optics σ ℝ E) (aimTransform az el H p)).single r = (t : WithTop ℝ)) (ht6 : 1 / 10 ^ 6 < t) :
    Falls center direction radius ang (aimTransform az el H p) W L r.vertex r.dir (r.vertex + t • r.dir) ∧
    (⟨r, none⟩ : Going ℝ E).Only Surf.single (plainPolicy (plantObjs positions g g' absorpt az el H F get set))
      (sites (plantObjs positions g g' absorpt az el H F get set)) ⟨i, 0, mkSurf g (absorberReflector absorpt) (aimTransform az el H p)⟩ t := by
  have ht0 : 0 < t := lt_trans (by norm_num) ht6
  have hfall : Falls center direction radius ang (aimTransform az el H p) W L r.vertex r.dir (r.vertex + t • r.dir) :=
    ⟨hS, hu, ⟨t, ht6, rfl⟩, (plate_on hg (aimTransform_rigid az el H p) ht).2⟩
  refine ⟨hfall, ?_, ?_, ht, by unfold dropTol; exact ht6, ?_⟩
  · rw [plant_sites]
    refine List.mem_append_left _ (List.mem_map.2 ⟨(p, i), ?_, rfl⟩)
    rw [List.mem_zipIdx_iff_getElem?]
    exact hp
  · intro o j hl
    simp at hl
  · intro z hz hne' _ t' ht' _
    rcases plant_site hz with ⟨j, q, hq, rfl⟩ | rfl | rfl
    · have hij : i ≠ j := by
        rintro rfl
        exact hne' ⟨rfl, rfl⟩
      exact plate_clear hg (aimTransform_rigid az el H q) ht0 rfl (U.before i j p q _ _ _ hij hp hq hfall) ht'
    · exact plate_clear hg' hF ht0 rfl (U.past p (List.mem_of_getElem? hp) _ _ _ hfall).1 ht'
    · exact plate_clear hg' (back_rigid hF).1 ht0 rfl (U.past p (List.mem_of_getElem? hp) _ _ _ hfall).2 ht'

/-- What is reflected meets the receiver alone. -/
theorem sent_only (hg : rectPlateGM W L = .ok g) (hg' : rectPlateGM x y = .ok g') (hF : F.Rigid)
    {i : Nat} (hi : i < positions.length) {q : Ray ℝ E} {d : ℝ} (hd : 1 / 10 ^ 6 < d) (hdot : V3.dot q.dir F.rot.c3 < -(1 / 10 ^ 10))
    (hon : Placed F (rectXY x y) (q.vertex + d • q.dir))
    (hcl : ∀ (j : Nat) c, i ≠ j → positions[j]? = some c → Clear (Placed (aimTransform az el H c) (rectXY W L)) q.vertex (q.vertex + d • q.dir)) :
    (⟨q, some (i, 0)⟩ : Going ℝ E).Only Surf.single (plainPolicy (plantObjs positions g g' absorpt az el H F get set))
      (sites (plantObjs positions g g' absorpt az el H F get set)) ⟨positions.length, 0, mkSurf g' (reflectiveReceiver 1 get set) F⟩ d := by
  have hd0 : 0 < d := lt_trans (by norm_num) hd
  have hneg : V3.dot q.dir F.rot.c3 < 0 := lt_trans hdot (by norm_num)
  have hlen : (plantObjs positions g g' absorpt az el H F get set).length = positions.length + 1 := by
    unfold plantObjs; simp
  have hpol : plainPolicy (plantObjs positions g g' absorpt az el H F get set) i = Policy.skip :=
    tower_policy plant_skip (by rw [hlen]; omega)
  refine ⟨?_, ?_, plate_met hg' hF (by rw [abs_of_neg hneg]; linarith) hd0.le hon, by unfold dropTol; exact hd, ?_⟩
  · rw [plant_sites]
    exact List.mem_append_right _ (by simp)
  · intro o j hl
    simp only [Option.some.injEq, Prod.mk.injEq] at hl
    rw [← hl.1, hpol]
    exact ⟨fun h => absurd h (by simp [Policy.skip]), fun h => absurd h (by simp only; omega)⟩
  · intro z hz hne' hm t' ht' _
    rcases plant_site hz with ⟨j, c, hc, rfl⟩ | rfl | rfl
    · have hij : i ≠ j := by
        rintro rfl
        have := (hm i 0 rfl).2 rfl
        rw [hpol] at this
        simp [Policy.skip] at this
      exact plate_clear hg (aimTransform_rigid az el H c) hd0 rfl (hcl j c hij hc) ht'
    · exact absurd ⟨rfl, rfl⟩ hne'
    · obtain ⟨b1, b2, b3⟩ := back_rigid hF
      obtain ⟨_, hon'⟩ := plate_on hg' b1 ht'
      have hpl := placed_plane b1 hon'
      have hpl' := placed_plane hF hon
      rw [b2, b3] at hpl
      have hu : V3.dot F.rot.c3 F.rot.c3 = 1 := ((M3.isRotation_iff _).1 hF).1.2.2.1
      have : (t' - d) * V3.dot q.dir F.rot.c3 + 1 / 10 ^ 10 = 0 := by
        unfold V3.dot at hpl hpl' hu ⊢
        simp only [V3.sub_x, V3.sub_y, V3.sub_z, V3.add_x, V3.add_y, V3.add_z, V3.smul_x, V3.smul_y, V3.smul_z] at hpl hpl'
        linear_combination hpl - hpl' - (1 / 10 ^ 10) * hu
      nlinarith

/-- At most one of them holds. -/
theorem sum_ite_le {ι : Type _} {l : List ι} {C : ι → Prop} [DecidablePred C] {e : ℝ} (he : 0 ≤ e)
    (h : ∀ (i j : Nat) p q, l[i]? = some p → l[j]? = some q → C p → C q → i = j) : (l.map fun p => if C p then e else 0).sum ≤ e := by
  induction l with
  | nil => simpa using he
  | cons a l ih =>
    rw [List.map_cons, List.sum_cons]
    by_cases ha : C a
    · rw [if_pos ha, List.sum_eq_zero, add_zero]
      intro v hv
      obtain ⟨q, hq, rfl⟩ := List.mem_map.1 hv
      refine if_neg fun hc => ?_
      obtain ⟨j, hj⟩ := List.getElem?_of_mem hq
      have := h 0 (j + 1) a q rfl hj ha hc
      omega
    · rw [if_neg ha, zero_add]
      exact ih fun i j p q hi hj hp hq => by have := h (i + 1) (j + 1) p q hi hj hp hq; omega

/-- What one ray of the sun brings to the receiver, at least. -/
theorem ray_delivers (hg : rectPlateGM W L = .ok g) (hg' : rectPlateGM x y = .ok g') (hF : F.Rigid) (ha0 : 0 ≤ absorpt) (ha1 : absorpt ≤ 1)
    (hgs : ∀ acc w, get (set acc w) = acc) {w : σ} (hw : get w = Account.reset) {reps : Nat} (hreps : 2 ≤ reps) {m e : ℝ} (hm : 0 ≤ m) {r : Ray ℝ E}
    (hE : m < r.energy * (1 - absorpt)) (U : Unobstructed positions W L x y az el H F center direction radius ang)
    (hS : V3.dist2 center r.vertex ≤ radius ^ 2) (hu : InCone direction ang r.dir)
    (hstart : ∀ o ∈ plantObjs positions g g' absorpt az el H F get set, ∀ s ∈ o.surfs, ∀ t : ℝ, s.single r = (t : WithTop ℝ) → t ≤ 1 / 10 ^ 10 ∨ 1 / 10 ^ 6 < t)
    (hun : GoingsUntied Surf.single (Surf.alone w) (plainPolicy (plantObjs positions g g' absorpt az el H F get set))
      (sites (plantObjs positions g g' absorpt az el H F get set)) m [r] reps)
    (he : Collects (plantObjs positions g g' absorpt az el H F get set) w get (fun _ => 1) [r] reps m e) :
    (1 - absorpt) * intercepted positions g az el H absorpt r ≤ e := by
  classical
  have hE0 : 0 ≤ r.energy := by
    by_contra hc
    nlinarith
  have hcs : CountedScene (1 - absorpt) (plantObjs positions g g' absorpt az el H F get set) w get 1 := plant_counted hg hg' ha0 ha1 hgs hw
  have hfront : (⟨positions.length, 0, mkSurf g' (reflectiveReceiver 1 get set) F⟩ : Site σ ℝ E) ∈
      sites (plantObjs positions g g' absorpt az el H F get set) := by
    rw [plant_sites]
    exact List.mem_append_right _ (by simp)
  obtain ⟨hx, hflow⟩ := hcs.at hfront rfl hgs (fun z hz hne => by
    rcases plant_site hz with ⟨j, q, _, rfl⟩ | rfl | rfl
    · exact keeps_ignores (mirror_keeps _ _)
    · exact absurd ⟨rfl, rfl⟩ hne
    · exact keeps_ignores (C51_reflective 1 get).1)
  have hset : GoingsSettled Surf.single (Surf.alone w) (plainPolicy (plantObjs positions g g' absorpt az el H F get set))
      (sites (plantObjs positions g g' absorpt az el H F get set)) m [r] reps := flat_settled hcs.plain (plant_flatMirrors hg hg' hF) hstart
  have hef := hflow _ reps r m e hset he
  have hunit : ∀ p : V3 ℝ, (0 : ℝ) ≤ (fun _ : V3 ℝ => (1 : ℝ)) p ∧ (fun _ : V3 ℝ => (1 : ℝ)) p ≤ 1 := fun _ => by norm_num
  by_cases hex : ∃ (i : Nat) (p : V3 ℝ) (t : ℝ), positions[i]? = some p ∧
      (mkSurf g (absorberReflector absorpt) (aimTransform az el H p) : Surf Unit ℝ E).single r = (t : WithTop ℝ) ∧ 1 / 10 ^ 6 < t
  · obtain ⟨i, p, t, hp, ht, ht6⟩ := hex
    have hI : intercepted positions g az el H absorpt r ≤ r.energy := by
      refine sum_ite_le hE0 ?_
      rintro j k p q hj hk ⟨t, ht, h6⟩ ⟨t', ht', h6'⟩
      by_contra hjk
      have f1 := (falls_only (σ := Unit) (absorpt := absorpt) (get := fun _ => Account.reset) (set := fun _ _ => ()) hg hg' hF U hS hu hj ht h6).1
      have f2 := (falls_only (σ := Unit) (absorpt := absorpt) (get := fun _ => Account.reset) (set := fun _ _ => ()) hg hg' hF U hS hu hk ht' h6').1
      have l1 := plate_clear hg (aimTransform_rigid az el H q) (lt_trans (by norm_num) h6) rfl (U.before j k p q _ _ _ hjk hj hk f1) ht'
      have l2 := plate_clear hg (aimTransform_rigid az el H p) (lt_trans (by norm_num) h6') rfl (U.before k j q p _ _ _ (Ne.symm hjk) hk hj f2) ht
      linarith
    obtain ⟨hfall, honly⟩ := falls_only (σ := σ) (absorpt := absorpt) (get := get) (set := set) hg hg' hF U hS hu hp ht ht6
    obtain ⟨out, o1, o2, o3, o4⟩ := plate_out (absorpt := absorpt) hg (U.front p (List.mem_of_getElem? hp) _ hu) w honly.met
    obtain ⟨v, d, hv, hd, hdot, hon, hcl⟩ := U.after i p _ _ _ hp hfall
    have hil : i < positions.length := (List.getElem?_eq_some_iff.1 hp).1
    have honly2 := sent_only (σ := σ) (absorpt := absorpt) (get := get) (set := set) (q := out) hg hg' hF hil hd (by rw [o3, ← hv]; exact hdot)
      (by rw [o2, o3, ← hv]; exact hon) (fun j c hij hc => by rw [o2, o3, ← hv]; exact hcl j c hij hc)
    obtain ⟨n, rfl⟩ : ∃ n, reps = n + 1 + 1 := ⟨reps - 2, by omega⟩
    rw [flow_only honly o1, o4, if_pos hE] at hef
    have hb0 : 0 ≤ brings (fun _ => 1) Surf.single (plainPolicy (plantObjs positions g g' absorpt az el H F get set))
        (sites (plantObjs positions g g' absorpt az el H F get set)) ⟨positions.length, 0, mkSurf g' (reflectiveReceiver 1 get set) F⟩ ⟨r, none⟩ := by
      unfold brings
      split
      · simpa using hE0
      · exact le_rfl
    have hlast : out.energy ≤ flow (fun _ => 1) Surf.single (Surf.alone w) (plainPolicy (plantObjs positions g g' absorpt az el H F get set))
        (sites (plantObjs positions g g' absorpt az el H F get set)) m ⟨positions.length, 0, mkSurf g' (reflectiveReceiver 1 get set) F⟩ (n + 1)
        [⟨out, some (i, 0)⟩] := by
      obtain ⟨f, N, share, h1, h2, _⟩ := PlainMirror.law (δ := Unit) (sites_mirror hx.mirrors hfront) w
      have hout := h2 _ d honly2.met
      generalize hq : (⟨out.at d, reflection out.dir (N (out.at d) out.dir), out.energy * share out.dir, 0, out.ref, out.extra⟩ : Ray ℝ E) = q at hout
      have ho0 : 0 ≤ out.energy := by rw [o4]; linarith
      have hq0 := hx.takes out ho0 q (by rw [hout]; exact List.mem_singleton_self _)
      rw [flow_only honly2 hout, if_neg (by linarith)]
      unfold brings
      rw [if_pos ((honly2.meets selfTol_lt_dropTol.le le_rfl hfront).2 ⟨rfl, rfl⟩)]
      simp
    have := mul_le_mul_of_nonneg_left hI (by linarith : (0 : ℝ) ≤ 1 - absorpt)
    rw [o4] at hlast
    linarith
  · have hI : intercepted positions g az el H absorpt r = 0 := by
      refine List.sum_eq_zero fun v hv => ?_
      obtain ⟨p, hp, rfl⟩ := List.mem_map.1 hv
      refine if_neg fun hc => hex ?_
      obtain ⟨t, h1, h2⟩ := hc
      obtain ⟨i, hi⟩ := List.getElem?_of_mem hp
      exact ⟨i, p, t, hi, h1, h2⟩
    rw [hI, mul_zero, hef]
    exact (flow_le hx hunit reps ⟨r, none⟩ hE0 (staysUntied_of hset hun)).1
open Classical in
/-- What a ray brings that meets no heliostat. -/
theorem direct_ray (hg : rectPlateGM W L = .ok g) (hg' : rectPlateGM x y = .ok g') (hF : F.Rigid) (ha0 : 0 ≤ absorpt) (ha1 : absorpt ≤ 1)
    (hgs : ∀ acc w, get (set acc w) = acc) {w : σ} (hw : get w = Account.reset) {reps : Nat} (hreps : 0 < reps) {m e : ℝ} (hm : 0 ≤ m) {r : Ray ℝ E} (hE : 0 ≤ r.energy)
    (hstart : ∀ o ∈ plantObjs positions g g' absorpt az el H F get set, ∀ s ∈ o.surfs, ∀ t : ℝ, s.single r = (t : WithTop ℝ) → t ≤ 1 / 10 ^ 10 ∨ 1 / 10 ^ 6 < t)
    (hno : ∀ p ∈ positions, ∀ t : ℝ, (mkSurf g (absorberReflector absorpt : Optics σ ℝ E) (aimTransform az el H p)).single r = (t : WithTop ℝ) → t ≤ 1 / 10 ^ 6)
    (he : Collects (plantObjs positions g g' absorpt az el H F get set) w get (fun _ => 1) [r] reps m e) :
    e = if ∃ t : ℝ, (mkSurf g' (reflectiveReceiver 1 get set) F).single r = (t : WithTop ℝ) ∧ 1 / 10 ^ 6 < t ∧
        ∀ t' : ℝ, (mkSurf g' (reflective 1 : Optics σ ℝ E) (F * ⟨1, ⟨0, 0, -(1 / 10 ^ 10)⟩⟩)).single r = (t' : WithTop ℝ) → 1 / 10 ^ 6 < t' → t ≤ t'
      then r.energy else 0 := by
  have hcs : CountedScene (1 - absorpt) (plantObjs positions g g' absorpt az el H F get set) w get 1 := plant_counted hg hg' ha0 ha1 hgs hw
  have hfront : (⟨positions.length, 0, mkSurf g' (reflectiveReceiver 1 get set) F⟩ : Site σ ℝ E) ∈
      sites (plantObjs positions g g' absorpt az el H F get set) := by
    rw [plant_sites]
    exact List.mem_append_right _ (by simp)
  have hback : (⟨positions.length, 1, mkSurf g' (reflective 1) (F * ⟨1, ⟨0, 0, -(1 / 10 ^ 10)⟩⟩)⟩ : Site σ ℝ E) ∈
      sites (plantObjs positions g g' absorpt az el H F get set) := by
    rw [plant_sites]
    exact List.mem_append_right _ (by simp)
  obtain ⟨hx, hflow⟩ := hcs.at hfront rfl hgs (fun z hz hne => by
    rcases plant_site hz with ⟨j, q, _, rfl⟩ | rfl | rfl
    · exact keeps_ignores (mirror_keeps _ _)
    · exact absurd ⟨rfl, rfl⟩ hne
    · exact keeps_ignores (C51_reflective 1 get).1)
  have hset : GoingsSettled Surf.single (Surf.alone w) (plainPolicy (plantObjs positions g g' absorpt az el H F get set))
      (sites (plantObjs positions g g' absorpt az el H F get set)) m [r] reps := flat_settled hcs.plain (plant_flatMirrors hg hg' hF) hstart
  have hef := hflow _ reps r m e hset he
  have hmay : ∀ z : Site σ ℝ E, (⟨r, none⟩ : Going ℝ E).MayMeet (plainPolicy (plantObjs positions g g' absorpt az el H F get set)) z := by
    intro z o j hl
    simp at hl
  have hnot : ∀ (j : Nat) (q : V3 ℝ), positions[j]? = some q → ∀ t : ℝ,
      (mkSurf g (absorberReflector absorpt : Optics σ ℝ E) (aimTransform az el H q)).single r = (t : WithTop ℝ) → ¬ dropTol < t := by
    intro j q hq t ht hlt
    have := hno q (List.mem_of_getElem? hq) t ht
    unfold dropTol at hlt
    linarith
  obtain ⟨n, rfl⟩ : ∃ n, reps = n + 1 := ⟨reps - 1, by omega⟩
  rw [flow_step, one_mul, (List.sum_eq_zero (l := (sites (plantObjs positions g g' absorpt az el H F get set)).map _) fun v hv => ?_), add_zero] at hef
  · rw [hef]
    unfold brings
    have hiff : (⟨r, none⟩ : Going ℝ E).Meets dropTol Surf.single (plainPolicy (plantObjs positions g g' absorpt az el H F get set))
        (sites (plantObjs positions g g' absorpt az el H F get set)) ⟨positions.length, 0, mkSurf g' (reflectiveReceiver 1 get set) F⟩ ↔
        ∃ t : ℝ, (mkSurf g' (reflectiveReceiver 1 get set) F).single r = (t : WithTop ℝ) ∧ 1 / 10 ^ 6 < t ∧
          ∀ t' : ℝ, (mkSurf g' (reflective 1 : Optics σ ℝ E) (F * ⟨1, ⟨0, 0, -(1 / 10 ^ 10)⟩⟩)).single r = (t' : WithTop ℝ) → 1 / 10 ^ 6 < t' → t ≤ t' := by
      constructor
      · rintro ⟨-, t, h1, h2, h3⟩
        exact ⟨t, h1, h2, fun t' h4 h5 => h3 _ hback (hmay _) t' h4 h5⟩
      · rintro ⟨t, h1, h2, h3⟩
        refine ⟨hmay _, t, h1, h2, fun z hz _ t' h4 h5 => ?_⟩
        rcases plant_site hz with ⟨j, q, hq, rfl⟩ | rfl | rfl
        · exact absurd h5 (hnot j q hq t' h4)
        · rw [show t' = t from WithTop.coe_injective (h4.symm.trans h1)]
        · exact h3 t' h4 h5
    simp only [hiff, mul_one]
  · obtain ⟨z, hz, rfl⟩ := List.mem_map.1 hv
    have key : (∀ q ∈ z.surf.alone w r, q.energy ≤ 0) → ∀ (f : Going ℝ E → ℝ),
        ((((z.surf.alone w r).map fun r => (⟨r, some (z.obj, z.num)⟩ : Going ℝ E)).filter fun g => decide (m < g.ray.energy)).map f).sum = 0 := by
      intro h f
      rw [List.filter_eq_nil_iff.2]
      · rfl
      · intro c hc
        obtain ⟨q, hq, rfl⟩ := List.mem_map.1 hc
        have := h q hq
        simp only [decide_eq_true_eq, not_lt]
        linarith
    split
    · rename_i hmeet
      rcases plant_site hz with ⟨j, q, hq, rfl⟩ | rfl | rfl
      · obtain ⟨-, t, h1, h2, -⟩ := hmeet
        exact absurd h2 (hnot j q hq t h1)
      · exact key (fun q hq => by have := hx.takes r hE q hq; simpa using this) _
      · exact key (fun q hq => by
          have := (ReturnsAtMost.gives (ρ := 0) (g := g') le_rfl (.mirror 1 (by norm_num) le_rfl) (F * ⟨1, ⟨0, 0, -(1 / 10 ^ 10)⟩⟩) w r hE q hq).2
          simpa using this) _
    · rfl

/-- What one ray of the sun brings to the receiver, if nothing is in the way. -/
theorem ray_exact (hg : rectPlateGM W L = .ok g) (hg' : rectPlateGM x y = .ok g') (hF : F.Rigid) (ha0 : 0 ≤ absorpt) (ha1 : absorpt ≤ 1)
    (hgs : ∀ acc w, get (set acc w) = acc) {w : σ} (hw : get w = Account.reset) {reps : Nat} (hreps : 2 ≤ reps) {m e e' : ℝ} (hm : 0 ≤ m) {r : Ray ℝ E}
    (hE : m < r.energy * (1 - absorpt)) (U : Unobstructed positions W L x y az el H F center direction radius ang)
    (V : SunUnblocked positions W L x y az el H F center direction radius ang)
    (hS : V3.dist2 center r.vertex ≤ radius ^ 2) (hu : InCone direction ang r.dir)
    (hstart : ∀ o ∈ plantObjs positions g g' absorpt az el H F get set, ∀ s ∈ o.surfs, ∀ t : ℝ, s.single r = (t : WithTop ℝ) → t ≤ 1 / 10 ^ 10 ∨ 1 / 10 ^ 6 < t)
    (he : Collects (plantObjs positions g g' absorpt az el H F get set) w get (fun _ => 1) [r] reps m e)
    (he' : Collects (plantObjs [] g g' absorpt az el H F get set) w get (fun _ => 1) [r] reps m e') :
    e = e' + (1 - absorpt) * intercepted positions g az el H absorpt r := by
  classical
  have hE0 : 0 ≤ r.energy := by
    by_contra hc
    nlinarith
  have hrest := direct_ray (positions := []) hg hg' hF ha0 ha1 hgs hw (by omega) hm hE0
    (fun o ho => hstart o (List.mem_append_right _ ho)) (fun p hp => absurd hp List.not_mem_nil) he'
  by_cases hex : ∃ (i : Nat) (p : V3 ℝ) (t : ℝ), positions[i]? = some p ∧
      (mkSurf g (absorberReflector absorpt) (aimTransform az el H p) : Surf Unit ℝ E).single r = (t : WithTop ℝ) ∧ 1 / 10 ^ 6 < t
  · obtain ⟨i, p, t, hp, ht, ht6⟩ := hex
    have hcs : CountedScene (1 - absorpt) (plantObjs positions g g' absorpt az el H F get set) w get 1 := plant_counted hg hg' ha0 ha1 hgs hw
    have hfront : (⟨positions.length, 0, mkSurf g' (reflectiveReceiver 1 get set) F⟩ : Site σ ℝ E) ∈
        sites (plantObjs positions g g' absorpt az el H F get set) := by
      rw [plant_sites]
      exact List.mem_append_right _ (by simp)
    obtain ⟨hx, hflow⟩ := hcs.at hfront rfl hgs (fun z hz hne => by
      rcases plant_site hz with ⟨j, q, _, rfl⟩ | rfl | rfl
      · exact keeps_ignores (mirror_keeps _ _)
      · exact absurd ⟨rfl, rfl⟩ hne
      · exact keeps_ignores (C51_reflective 1 get).1)
    have hset : GoingsSettled Surf.single (Surf.alone w) (plainPolicy (plantObjs positions g g' absorpt az el H F get set))
        (sites (plantObjs positions g g' absorpt az el H F get set)) m [r] reps := flat_settled hcs.plain (plant_flatMirrors hg hg' hF) hstart
    have hef := hflow _ reps r m e hset he
    have hI : intercepted positions g az el H absorpt r = r.energy := by
      refine le_antisymm (sum_ite_le hE0 ?_) ?_
      · rintro j k p q hj hk ⟨t, ht, h6⟩ ⟨t', ht', h6'⟩
        by_contra hjk
        have f1 := (falls_only (σ := Unit) (absorpt := absorpt) (get := fun _ => Account.reset) (set := fun _ _ => ()) hg hg' hF U hS hu hj ht h6).1
        have f2 := (falls_only (σ := Unit) (absorpt := absorpt) (get := fun _ => Account.reset) (set := fun _ _ => ()) hg hg' hF U hS hu hk ht' h6').1
        have l1 := plate_clear hg (aimTransform_rigid az el H q) (lt_trans (by norm_num) h6) rfl (U.before j k p q _ _ _ hjk hj hk f1) ht'
        have l2 := plate_clear hg (aimTransform_rigid az el H p) (lt_trans (by norm_num) h6') rfl (U.before k j q p _ _ _ (Ne.symm hjk) hk hj f2) ht
        linarith
      · refine (le_of_eq ?_).trans (List.single_le_sum ?_ _ (List.mem_map.2 ⟨p, List.mem_of_getElem? hp, rfl⟩))
        · rw [if_pos ⟨t, ht, ht6⟩]
        · intro v hv
          obtain ⟨p, -, rfl⟩ := List.mem_map.1 hv
          split
          · exact hE0
          · exact le_rfl
    obtain ⟨hfall, honly⟩ := falls_only (σ := σ) (absorpt := absorpt) (get := get) (set := set) hg hg' hF U hS hu hp ht ht6
    obtain ⟨out, o1, o2, o3, o4⟩ := plate_out (absorpt := absorpt) hg (U.front p (List.mem_of_getElem? hp) _ hu) w honly.met
    obtain ⟨v, d, hv, hd, hdot, hon, hcl⟩ := U.after i p _ _ _ hp hfall
    have hil : i < positions.length := (List.getElem?_eq_some_iff.1 hp).1
    have honly2 := sent_only (σ := σ) (absorpt := absorpt) (get := get) (set := set) (q := out) hg hg' hF hil hd (by rw [o3, ← hv]; exact hdot)
      (by rw [o2, o3, ← hv]; exact hon) (fun j c hij hc => by rw [o2, o3, ← hv]; exact hcl j c hij hc)
    obtain ⟨n, rfl⟩ : ∃ n, reps = n + 1 + 1 := ⟨reps - 2, by omega⟩
    have hb0 : brings (fun _ => 1) Surf.single (plainPolicy (plantObjs positions g g' absorpt az el H F get set))
        (sites (plantObjs positions g g' absorpt az el H F get set)) ⟨positions.length, 0, mkSurf g' (reflectiveReceiver 1 get set) F⟩ ⟨r, none⟩ = 0 := by
      unfold brings
      refine if_neg fun hc => ?_
      have := ((honly.meets selfTol_lt_dropTol.le le_rfl hfront).1 hc).1
      simp only at this
      omega
    have hlast : flow (fun _ => 1) Surf.single (Surf.alone w) (plainPolicy (plantObjs positions g g' absorpt az el H F get set))
        (sites (plantObjs positions g g' absorpt az el H F get set)) m ⟨positions.length, 0, mkSurf g' (reflectiveReceiver 1 get set) F⟩ (n + 1)
        [⟨out, some (i, 0)⟩] = out.energy := by
      obtain ⟨f, N, share, h1, h2, _⟩ := PlainMirror.law (δ := Unit) (sites_mirror hx.mirrors hfront) w
      have hout := h2 _ d honly2.met
      generalize hq : (⟨out.at d, reflection out.dir (N (out.at d) out.dir), out.energy * share out.dir, 0, out.ref, out.extra⟩ : Ray ℝ E) = q at hout
      have ho0 : 0 ≤ out.energy := by rw [o4]; linarith
      have hq0 := hx.takes out ho0 q (by rw [hout]; exact List.mem_singleton_self _)
      rw [flow_only honly2 hout, if_neg (by linarith)]
      unfold brings
      rw [if_pos ((honly2.meets selfTol_lt_dropTol.le le_rfl hfront).2 ⟨rfl, rfl⟩)]
      simp
    rw [flow_only honly o1, o4, if_pos hE, hb0, zero_add, one_mul] at hef
    have hdark : e' = 0 := by
      rw [hrest]
      refine if_neg ?_
      rintro ⟨t', h1, h2, -⟩
      have l1 := plate_clear hg' hF (lt_trans (by norm_num) ht6) rfl (U.past p (List.mem_of_getElem? hp) _ _ _ hfall).1 h1
      have l2 := plate_clear hg (aimTransform_rigid az el H p) (lt_trans (by norm_num) h2) rfl
        (V p (List.mem_of_getElem? hp) r.vertex r.dir t' hS hu h2 (plate_on hg' hF h1).2) ht
      linarith
    rw [hdark, hI, hef]
    have := hlast
    rw [o4] at this
    rw [zero_add, mul_comm, ← this]
  · have hI : intercepted positions g az el H absorpt r = 0 := by
      refine List.sum_eq_zero fun v hv => ?_
      obtain ⟨p, hp, rfl⟩ := List.mem_map.1 hv
      refine if_neg fun hc => hex ?_
      obtain ⟨t, h1, h2⟩ := hc
      obtain ⟨i, hi⟩ := List.getElem?_of_mem hp
      exact ⟨i, p, t, hi, h1, h2⟩
    rw [hI, mul_zero, add_zero, hrest]
    refine direct_ray hg hg' hF ha0 ha1 hgs hw (by omega) hm hE0 hstart (fun p hp t ht => ?_) he
    by_contra hc
    obtain ⟨i, hi⟩ := List.getElem?_of_mem hp
    exact hex ⟨i, p, t, hi, ht, not_le.1 hc⟩
end

/-- The directions of the rays of the disk are in the cone. -/
theorem sunRay_cone {center direction : V3 ℝ} {radius ang flux : ℝ} (hdir : direction.IsUnit) (hang : 0 ≤ ang) (hang1 : ang < π / 2) (extra : E) {d : (ℝ × ℝ) × (ℝ × ℝ)}
    (hd : d ∈ angleDraws ×ˢ draws) : InCone direction ang (sunRay center direction radius ang flux extra d).dir := by
  obtain ⟨r1, r2, -⟩ := C27_rotation_to_z hdir
  refine ⟨(sunRay_start hdir extra hd).2, ?_⟩
  have := rot_third r1 (pillboxOne ang d.1.1 d.1.2)
  rw [r2] at this
  show _ ≤ V3.dot ((rotationToZ direction).mulVec (pillboxOne ang d.1.1 d.1.2)) direction
  rw [this]
  exact (pillbox_z hang hang1 hd.1).1

/-- What the heliostats intercept on average. -/
theorem intercepted_mean [MeasurableSpace Ω] {μ : Measure Ω} [IsProbabilityMeasure μ] {W L absorpt az el H : ℝ} {g : Geometry ℝ E} (hW : 0 < W) (hL : 0 < L)
    (hg : rectPlateGM W L = .ok g) {center direction : V3 ℝ} {radius ang flux : ℝ} (hdir : direction.IsUnit) (hr : 0 < radius) (hang : 0 ≤ ang) (hang1 : ang < π / 2)
    (hflux : 0 ≤ flux) (extra : E) {D : Ω → angleDraws ×ˢ draws} (hD : Measurable D)
    (heven : ∀ S, MeasurableSet S → μ {ω | (D ω).1 ∈ S} = volume (S ∩ angleDraws ×ˢ draws) / volume (angleDraws ×ˢ draws)) (l : List (V3 ℝ))
    (hside : ∀ p ∈ l, OneSide direction ang (aimTransform az el H p))
    (hcover : ∀ p ∈ l, SeenFromDisk center direction radius ang (aimTransform az el H p) {q | |q.1| ≤ W / 2 ∧ |q.2| ≤ L / 2})
    (hstart : ∀ p ∈ l, ∀ d ∈ angleDraws ×ˢ draws, ∀ t : ℝ, (mkSurf g (absorberReflector absorpt) (aimTransform az el H p) : Surf Unit ℝ E).single
      (sunRay center direction radius ang flux extra d) = (t : WithTop ℝ) → t ≤ 1 / 10 ^ 10 ∨ 1 / 10 ^ 6 < t) :
    Integrable (fun ω => intercepted l g az el H absorpt (sunRay center direction radius ang flux extra (D ω).1)) μ ∧
    ∫ ω, intercepted l g az el H absorpt (sunRay center direction radius ang flux extra (D ω).1) ∂μ =
      flux * (l.map fun p => W * L * |V3.dot direction (aimTransform az el H p).rot.c3|).sum := by
  classical
  induction l with
  | nil => simp [intercepted]
  | cons p l ih =>
    obtain ⟨hJ, hint⟩ := ih (fun q hq => hside q (List.mem_cons_of_mem _ hq)) (fun q hq => hcover q (List.mem_cons_of_mem _ hq))
      (fun q hq => hstart q (List.mem_cons_of_mem _ hq))
    have hpm : p ∈ p :: l := List.mem_cons_self
    obtain ⟨I, hI, hI0, hI1, hI2, hIint⟩ := plate_mean (μ := μ) (center := center) hW hL hg (aimTransform_rigid az el H p) hdir hr hflux ⟨hang, hang1⟩ (hside p hpm)
      (hcover p hpm) extra (fun d hd t ht => hstart p hpm d hd t ht) hD heven
    have e : ∀ ω, intercepted (p :: l) g az el H absorpt (sunRay center direction radius ang flux extra (D ω).1) =
        I ω + intercepted l g az el H absorpt (sunRay center direction radius ang flux extra (D ω).1) := by
      intro ω
      unfold intercepted
      rw [List.map_cons, List.sum_cons]
      congr 1
      split
      · rename_i h
        obtain ⟨t, h3, h4⟩ := h
        rw [hI1 ω t h3 h4]
        rfl
      · rename_i h
        rcases hI2 ω with h3 | ⟨t, h3, h4⟩
        · exact h3.symm
        · exact absurd ⟨t, h3, h4⟩ h
    simp only [e]
    refine ⟨hI.add hJ, ?_⟩
    rw [integral_add hI hJ, hIint, hint, List.map_cons, List.sum_cons]
    ring

/-- C120: if nothing shades or blocks the heliostats, so that every ray that one of them reflects arrives on the receiver, the power that the receiver reports is at
least what the heliostats intercept, less what they absorb.  With `C120_intercepted`, it is known up to what the sun itself brings to the receiver. -/
theorem C120_delivered [MeasurableSpace Ω] {μ : Measure Ω} [IsProbabilityMeasure μ] {positions : List (V3 ℝ)} {W L absorpt th x y az el ρ ρ' m : ℝ} {F : Tf ℝ}
    {get : σ → Account ℝ} {set : Account ℝ → σ → σ} (hW : 0 < W) (hL : 0 < L) (hx : 0 < x) (hy : 0 < y) (hF : F.Rigid) (ha0 : 0 ≤ absorpt) (ha1 : absorpt ≤ 1)
    {junk junk' : M3 ℝ} {t : Tower σ E} (ht : Tower.new positions W L absorpt th x y F get set junk junk' = .ok t) (ops : List HelioOp)
    (hgs : ∀ acc w, get (set acc w) = acc) {w : σ} (hw : get w = Account.reset)
    {center direction : V3 ℝ} {radius ang flux : ℝ} (h0 : 0 ≤ ρ) (h0' : 0 ≤ ρ') (hρ : (W ^ 2 + L ^ 2) / 4 ≤ ρ ^ 2) (hρ' : (x ^ 2 + y ^ 2) / 4 ≤ ρ' ^ 2)
    (hO : OpenField positions ρ ρ' F.loc center radius)
    (hdir : direction.IsUnit) (hr : 0 < radius) (hang : 0 ≤ ang) (hang1 : ang < π / 2) (hflux : 0 ≤ flux) (extra : E) {reps : Nat} (hreps : 2 ≤ reps)
    (hm : 0 ≤ m) (hmE : m < π * radius ^ 2 * flux * (1 - absorpt))
    (hside : ∀ p ∈ positions, OneSide direction ang (aimTransform az el (heightAfter th ops) p))
    (hcover : ∀ p ∈ positions, SeenFromDisk center direction radius ang (aimTransform az el (heightAfter th ops) p) {q | |q.1| ≤ W / 2 ∧ |q.2| ≤ L / 2})
    (U : Unobstructed positions W L x y az el (heightAfter th ops) F center direction radius ang)
    {D : Ω → angleDraws ×ˢ draws} (hD : Measurable D)
    (heven : ∀ S, MeasurableSet S → μ {ω | (D ω).1 ∈ S} = volume (S ∩ angleDraws ×ˢ draws) / volume (angleDraws ×ˢ draws))
    {power : angleDraws ×ˢ draws → ℝ}
    (hpow : ∀ d : angleDraws ×ˢ draws, Collects (t.onField (runHelio (ops ++ [.aim az el]))).plant.scene w get (fun _ => 1)
      [sunRay center direction radius ang flux extra d.1] reps m (power d)) :
    (1 - absorpt) * (flux * (positions.map fun p => W * L * |V3.dot direction (aimTransform az el (heightAfter th ops) p).rot.c3|).sum) ≤ ∫ ω, power (D ω) ∂μ := by
  classical
  obtain ⟨g, g', hg, hg', hscene⟩ := tower_objs (az := az) (el := el) hW hL hx hy ht ops
  rw [hscene] at hpow
  set H := heightAfter th ops with hH
  set objs := plantObjs positions g g' absorpt az el H F get set with hobjs
  have hcs : CountedScene (1 - absorpt) objs w get 1 := plant_counted hg hg' ha0 ha1 hgs hw
  have hfl : AllSurfs FlatMirror objs := plant_flatMirrors hg hg' hF
  have hstart := plant_start (positions := positions) (absorpt := absorpt) (az := az) (el := el) (H := H) (get := get) (set := set) (ang := ang) (flux := flux)
    hg hg' hF h0 h0' hρ hρ' hO hdir hr extra
  obtain ⟨pl, pp, hp⟩ := scene_planes hfl (plant_distinct hg hg' hF h0 h0' hρ hρ' hO)
  have hme := sunRay_measurable center direction radius ang flux extra
  have hun : ∀ᵐ ω ∂μ, GoingsUntied Surf.single (Surf.alone w) (plainPolicy objs) (sites objs) m [sunRay center direction radius ang flux extra (D ω).1] reps := by
    have hnull : μ {ω | Unlucky pl pp (sunRay center direction radius ang flux extra (D ω).1).vertex (sunRay center direction radius ang flux extra (D ω).1).dir} = 0 := by
      have := heven _ (unlucky_measurable (pl := pl) (pp := pp) hme.vertex hme.dir)
      rw [unlucky_disk (fun i => (hp.one i).1) extra hdir hr hang hang1, ENNReal.zero_div] at this
      exact this
    have : ∀ᵐ ω ∂μ, ¬ Unlucky pl pp (sunRay center direction radius ang flux extra (D ω).1).vertex (sunRay center direction radius ang flux extra (D ω).1).dir := by
      rw [ae_iff]
      simpa using hnull
    filter_upwards [this] with ω hω
    exact lucky_untied hp hω
  have hrm : RayM fun d : (angleDraws ×ˢ draws : Set ((ℝ × ℝ) × (ℝ × ℝ))) => sunRay center direction radius ang flux extra d.1 :=
    ⟨⟨hme.vertex.x.comp measurable_subtype_coe, hme.vertex.y.comp measurable_subtype_coe, hme.vertex.z.comp measurable_subtype_coe⟩,
      ⟨hme.dir.x.comp measurable_subtype_coe, hme.dir.y.comp measurable_subtype_coe, hme.dir.z.comp measurable_subtype_coe⟩,
      hme.energy.comp measurable_subtype_coe⟩
  have hE : ∀ d, (sunRay center direction radius ang flux extra d).energy = π * radius ^ 2 * flux := fun d => rfl
  have hB : 0 ≤ π * radius ^ 2 * flux := by positivity
  have hset : ∀ d : (angleDraws ×ˢ draws : Set ((ℝ × ℝ) × (ℝ × ℝ))), GoingsSettled Surf.single (Surf.alone w) (plainPolicy objs) (sites objs) m
      [sunRay center direction radius ang flux extra d.1] reps := fun d => flat_settled hcs.plain hfl (hstart d.1 d.2)
  have hIpow : Integrable (fun ω => power (D ω)) μ := by
    obtain ⟨C, hC⟩ := power_bounded (B := π * radius ^ 2 * flux) hcs.watched one_weights (fun d => by rw [hE, abs_of_nonneg hB]) hset hpow
    exact Integrable.of_bound ((power_measurable hcs.watched one_weights hrm hset hpow).comp hD).aestronglyMeasurable C
      (Eventually.of_forall fun ω => by rw [Real.norm_eq_abs]; exact hC _)
  obtain ⟨hJ, hint⟩ := intercepted_mean (μ := μ) (absorpt := absorpt) (center := center) hW hL hg hdir hr hang hang1 hflux extra hD heven positions hside hcover
    (fun p hp d hd t ht => hstart d hd _ (List.mem_append_left _ (List.mem_map.2 ⟨p, hp, rfl⟩)) _ (List.mem_cons_self ..) t ht)
  rw [← hint, ← integral_const_mul]
  refine integral_mono_ae (hJ.const_mul _) hIpow ?_
  filter_upwards [hun] with ω hω
  exact ray_delivers hg hg' hF ha0 ha1 hgs hw hreps hm (by rw [hE]; exact hmE) U
    (sunRay_start (center := center) (radius := radius) (ang := ang) (flux := flux) hdir extra (D ω).2).1 (sunRay_cone hdir hang hang1 extra (D ω).2)
    (hstart (D ω).1 (D ω).2) hω (hpow (D ω))

/-- C120: with at least `B^2/(2 ε^2) log(2/η)` rays, where `B = π radius^2 flux`, a trace reports more than that less `ε`, with a probability of at least `1 - η`. -/
theorem C120_delivered_report [MeasurableSpace Ω] {μ : Measure Ω} [IsProbabilityMeasure μ] {positions : List (V3 ℝ)} {W L absorpt th x y az el ρ ρ' m : ℝ} {F : Tf ℝ}
    {get : σ → Account ℝ} {set : Account ℝ → σ → σ} (hW : 0 < W) (hL : 0 < L) (hx : 0 < x) (hy : 0 < y) (hF : F.Rigid) (ha0 : 0 ≤ absorpt) (ha1 : absorpt ≤ 1)
    {junk junk' : M3 ℝ} {t : Tower σ E} (ht : Tower.new positions W L absorpt th x y F get set junk junk' = .ok t) (ops : List HelioOp)
    (hgs : ∀ acc w, get (set acc w) = acc) {w : σ} (hw : get w = Account.reset)
    {center direction : V3 ℝ} {radius ang flux : ℝ} (h0 : 0 ≤ ρ) (h0' : 0 ≤ ρ') (hρ : (W ^ 2 + L ^ 2) / 4 ≤ ρ ^ 2) (hρ' : (x ^ 2 + y ^ 2) / 4 ≤ ρ' ^ 2)
    (hO : OpenField positions ρ ρ' F.loc center radius)
    (hdir : direction.IsUnit) (hr : 0 < radius) (hang : 0 ≤ ang) (hang1 : ang < π / 2) (hflux : 0 < flux) (extra : E) {reps : Nat} (hreps : 2 ≤ reps)
    (hm : 0 ≤ m) (hmE : m < π * radius ^ 2 * flux * (1 - absorpt))
    (hside : ∀ p ∈ positions, OneSide direction ang (aimTransform az el (heightAfter th ops) p))
    (hcover : ∀ p ∈ positions, SeenFromDisk center direction radius ang (aimTransform az el (heightAfter th ops) p) {q | |q.1| ≤ W / 2 ∧ |q.2| ≤ L / 2})
    (U : Unobstructed positions W L x y az el (heightAfter th ops) F center direction radius ang)
    {D : Nat → Ω → angleDraws ×ˢ draws} (hD : ∀ i, Measurable (D i)) (hind : iIndepFun D μ) (hid : ∀ i, IdentDistrib (D i) (D 0) μ μ)
    (heven : ∀ S, MeasurableSet S → μ {ω | (D 0 ω).1 ∈ S} = volume (S ∩ angleDraws ×ˢ draws) / volume (angleDraws ×ˢ draws))
    {n : Nat} (hn : 0 < n) {got : Ω → ℝ}
    (hgot : ∀ ω, ∃ src b, solarDisk center direction radius ang (some flux) ((List.range n).map fun i => (D i ω).1.1)
      ((List.range n).map fun i => (D i ω).1.2) = .ok src ∧ src.rays extra = .ok b ∧
      Collects (t.onField (runHelio (ops ++ [.aim az el]))).plant.scene w get (fun _ => 1) b reps (m / n) (got ω))
    {ε η : ℝ} (hε : 0 < ε) (hη : 0 < η) (henough : (π * radius ^ 2 * flux) ^ 2 / (2 * ε ^ 2) * log (2 / η) ≤ n) :
    μ.real {ω | got ω ≤ (1 - absorpt) * (flux *
      (positions.map fun p => W * L * |V3.dot direction (aimTransform az el (heightAfter th ops) p).rot.c3|).sum) - ε} ≤ η := by
  obtain ⟨g, g'', hg, hg'', hscene⟩ := tower_objs (az := az) (el := el) hW hL hx hy ht ops
  have hcs : CountedScene (1 - absorpt) (t.onField (runHelio (ops ++ [.aim az el]))).plant.scene w get 1 := by
    rw [hscene]
    exact plant_counted hg hg'' ha0 ha1 hgs hw
  choose power hpow using fun d : (angleDraws ×ˢ draws : Set ((ℝ × ℝ) × (ℝ × ℝ))) =>
    C113_exists hcs.watched (fun _ => 1) [sunRay center direction radius ang flux extra d.1] reps m
  have h1 := C120_delivered hW hL hx hy hF ha0 ha1 ht ops hgs hw h0 h0' hρ hρ' hO hdir hr hang hang1 hflux.le extra hreps hm hmE hside hcover U (hD 0) heven hpow
  have h2 := C119_tower hW hL hx hy hF ha0 ha1 ht ops hgs hw h0 h0' hρ hρ' hO hdir hr hang hang1 hflux extra hD hind hid heven {()} (φ := fun _ _ => 1)
    (power := fun _ => power) (got := fun _ => got) (fun _ _ => one_weights) (fun _ _ _ => by norm_num) (fun _ _ => hpow) hn (fun _ _ => hgot) hε hη (by simpa using henough)
  refine (measureReal_mono fun ω hω => ?_).trans h2
  refine ⟨(), Finset.mem_singleton_self _, (neg_le_abs _).trans' ?_⟩
  have hω : got ω ≤ _ := hω
  show ε ≤ -(got ω - ∫ ω, power (D 0 ω) ∂μ)
  linarith

/-- C120: if, besides, no heliostat is in the way of the light that goes to the receiver at once, the power that the receiver reports is what it would report in the same plant
without heliostats, and what the heliostats intercept, less what they absorb. -/
theorem C120_exact [MeasurableSpace Ω] {μ : Measure Ω} [IsProbabilityMeasure μ] {positions : List (V3 ℝ)} {W L absorpt th x y az el ρ ρ' m : ℝ} {F : Tf ℝ}
    {get : σ → Account ℝ} {set : Account ℝ → σ → σ} (hW : 0 < W) (hL : 0 < L) (hx : 0 < x) (hy : 0 < y) (hF : F.Rigid) (ha0 : 0 ≤ absorpt) (ha1 : absorpt ≤ 1)
    {junk junk' : M3 ℝ} {t t0 : Tower σ E} (ht : Tower.new positions W L absorpt th x y F get set junk junk' = .ok t)
    (ht0 : Tower.new [] W L absorpt th x y F get set junk junk' = .ok t0) (ops : List HelioOp)
    (hgs : ∀ acc w, get (set acc w) = acc) {w : σ} (hw : get w = Account.reset)
    {center direction : V3 ℝ} {radius ang flux : ℝ} (h0 : 0 ≤ ρ) (h0' : 0 ≤ ρ') (hρ : (W ^ 2 + L ^ 2) / 4 ≤ ρ ^ 2) (hρ' : (x ^ 2 + y ^ 2) / 4 ≤ ρ' ^ 2)
    (hO : OpenField positions ρ ρ' F.loc center radius)
    (hdir : direction.IsUnit) (hr : 0 < radius) (hang : 0 ≤ ang) (hang1 : ang < π / 2) (hflux : 0 ≤ flux) (extra : E) {reps : Nat} (hreps : 2 ≤ reps)
    (hm : 0 ≤ m) (hmE : m < π * radius ^ 2 * flux * (1 - absorpt))
    (hside : ∀ p ∈ positions, OneSide direction ang (aimTransform az el (heightAfter th ops) p))
    (hcover : ∀ p ∈ positions, SeenFromDisk center direction radius ang (aimTransform az el (heightAfter th ops) p) {q | |q.1| ≤ W / 2 ∧ |q.2| ≤ L / 2})
    (U : Unobstructed positions W L x y az el (heightAfter th ops) F center direction radius ang)
    (V : SunUnblocked positions W L x y az el (heightAfter th ops) F center direction radius ang)
    {D : Ω → angleDraws ×ˢ draws} (hD : Measurable D)
    (heven : ∀ S, MeasurableSet S → μ {ω | (D ω).1 ∈ S} = volume (S ∩ angleDraws ×ˢ draws) / volume (angleDraws ×ˢ draws))
    {power without : angleDraws ×ˢ draws → ℝ}
    (hpow : ∀ d : angleDraws ×ˢ draws, Collects (t.onField (runHelio (ops ++ [.aim az el]))).plant.scene w get (fun _ => 1)
      [sunRay center direction radius ang flux extra d.1] reps m (power d))
    (hwithout : ∀ d : angleDraws ×ˢ draws, Collects (t0.onField (runHelio (ops ++ [.aim az el]))).plant.scene w get (fun _ => 1)
      [sunRay center direction radius ang flux extra d.1] reps m (without d)) :
    ∫ ω, power (D ω) ∂μ = ∫ ω, without (D ω) ∂μ +
      (1 - absorpt) * (flux * (positions.map fun p => W * L * |V3.dot direction (aimTransform az el (heightAfter th ops) p).rot.c3|).sum) := by
  obtain ⟨g, g', hg, hg', hscene⟩ := tower_objs (az := az) (el := el) hW hL hx hy ht ops
  obtain ⟨g0, g0', hg0, hg0', hscene0⟩ := tower_objs (az := az) (el := el) hW hL hx hy ht0 ops
  obtain rfl : g = g0 := by rw [hg] at hg0; exact Except.ok.inj hg0
  obtain rfl : g' = g0' := by rw [hg'] at hg0'; exact Except.ok.inj hg0'
  rw [hscene] at hpow
  rw [hscene0] at hwithout
  set H := heightAfter th ops with hH
  have hcs : CountedScene (1 - absorpt) (plantObjs [] g g' absorpt az el H F get set) w get 1 := plant_counted hg hg' ha0 ha1 hgs hw
  have hfl : AllSurfs FlatMirror (plantObjs [] g g' absorpt az el H F get set) := plant_flatMirrors hg hg' hF
  have hstart := plant_start (positions := positions) (absorpt := absorpt) (az := az) (el := el) (H := H) (get := get) (set := set) (ang := ang) (flux := flux)
    hg hg' hF h0 h0' hρ hρ' hO hdir hr extra
  have hme := sunRay_measurable center direction radius ang flux extra
  have hrm : RayM fun d : (angleDraws ×ˢ draws : Set ((ℝ × ℝ) × (ℝ × ℝ))) => sunRay center direction radius ang flux extra d.1 :=
    ⟨⟨hme.vertex.x.comp measurable_subtype_coe, hme.vertex.y.comp measurable_subtype_coe, hme.vertex.z.comp measurable_subtype_coe⟩,
      ⟨hme.dir.x.comp measurable_subtype_coe, hme.dir.y.comp measurable_subtype_coe, hme.dir.z.comp measurable_subtype_coe⟩,
      hme.energy.comp measurable_subtype_coe⟩
  have hE : ∀ d, (sunRay center direction radius ang flux extra d).energy = π * radius ^ 2 * flux := fun d => rfl
  have hB : 0 ≤ π * radius ^ 2 * flux := by positivity
  have hset : ∀ d : (angleDraws ×ˢ draws : Set ((ℝ × ℝ) × (ℝ × ℝ))), GoingsSettled Surf.single (Surf.alone w) (plainPolicy (plantObjs [] g g' absorpt az el H F get set))
      (sites (plantObjs [] g g' absorpt az el H F get set)) m [sunRay center direction radius ang flux extra d.1] reps :=
    fun d => flat_settled hcs.plain hfl fun o ho => hstart d.1 d.2 o (List.mem_append_right _ ho)
  have hIal : Integrable (fun ω => without (D ω)) μ := by
    obtain ⟨C, hC⟩ := power_bounded (B := π * radius ^ 2 * flux) hcs.watched one_weights (fun d => by rw [hE, abs_of_nonneg hB]) hset hwithout
    exact Integrable.of_bound ((power_measurable hcs.watched one_weights hrm hset hwithout).comp hD).aestronglyMeasurable C
      (Eventually.of_forall fun ω => by rw [Real.norm_eq_abs]; exact hC _)
  obtain ⟨hJ, hint⟩ := intercepted_mean (μ := μ) (absorpt := absorpt) (center := center) hW hL hg hdir hr hang hang1 hflux extra hD heven positions hside hcover
    (fun p hp d hd t ht => hstart d hd _ (List.mem_append_left _ (List.mem_map.2 ⟨p, hp, rfl⟩)) _ (List.mem_cons_self ..) t ht)
  rw [← hint, ← integral_const_mul, ← integral_add hIal (hJ.const_mul _)]
  refine integral_congr_ae (Eventually.of_forall fun ω => ?_)
  exact ray_exact hg hg' hF ha0 ha1 hgs hw hreps hm (by rw [hE]; exact hmE) U V
    (sunRay_start (center := center) (radius := radius) (ang := ang) (flux := flux) hdir extra (D ω).2).1 (sunRay_cone hdir hang hang1 extra (D ω).2)
    (hstart (D ω).1 (D ω).2) (hpow (D ω)) (hwithout (D ω))

/-- C120: with at least `B^2/(2 ε^2) log(2/η)` rays, where `B = π radius^2 flux`, what a trace reports differs from that by less than `ε`, with a probability of at least
`1 - η`. -/
theorem C120_exact_report [MeasurableSpace Ω] {μ : Measure Ω} [IsProbabilityMeasure μ] {positions : List (V3 ℝ)} {W L absorpt th x y az el ρ ρ' m : ℝ} {F : Tf ℝ}
    {get : σ → Account ℝ} {set : Account ℝ → σ → σ} (hW : 0 < W) (hL : 0 < L) (hx : 0 < x) (hy : 0 < y) (hF : F.Rigid) (ha0 : 0 ≤ absorpt) (ha1 : absorpt ≤ 1)
    {junk junk' : M3 ℝ} {t t0 : Tower σ E} (ht : Tower.new positions W L absorpt th x y F get set junk junk' = .ok t)
    (ht0 : Tower.new [] W L absorpt th x y F get set junk junk' = .ok t0) (ops : List HelioOp)
    (hgs : ∀ acc w, get (set acc w) = acc) {w : σ} (hw : get w = Account.reset)
    {center direction : V3 ℝ} {radius ang flux : ℝ} (h0 : 0 ≤ ρ) (h0' : 0 ≤ ρ') (hρ : (W ^ 2 + L ^ 2) / 4 ≤ ρ ^ 2) (hρ' : (x ^ 2 + y ^ 2) / 4 ≤ ρ' ^ 2)
    (hO : OpenField positions ρ ρ' F.loc center radius)
    (hdir : direction.IsUnit) (hr : 0 < radius) (hang : 0 ≤ ang) (hang1 : ang < π / 2) (hflux : 0 < flux) (extra : E) {reps : Nat} (hreps : 2 ≤ reps)
    (hm : 0 ≤ m) (hmE : m < π * radius ^ 2 * flux * (1 - absorpt))
    (hside : ∀ p ∈ positions, OneSide direction ang (aimTransform az el (heightAfter th ops) p))
    (hcover : ∀ p ∈ positions, SeenFromDisk center direction radius ang (aimTransform az el (heightAfter th ops) p) {q | |q.1| ≤ W / 2 ∧ |q.2| ≤ L / 2})
    (U : Unobstructed positions W L x y az el (heightAfter th ops) F center direction radius ang)
    (V : SunUnblocked positions W L x y az el (heightAfter th ops) F center direction radius ang)
    {D : Nat → Ω → angleDraws ×ˢ draws} (hD : ∀ i, Measurable (D i)) (hind : iIndepFun D μ) (hid : ∀ i, IdentDistrib (D i) (D 0) μ μ)
    (heven : ∀ S, MeasurableSet S → μ {ω | (D 0 ω).1 ∈ S} = volume (S ∩ angleDraws ×ˢ draws) / volume (angleDraws ×ˢ draws))
    {without : angleDraws ×ˢ draws → ℝ}
    (hwithout : ∀ d : angleDraws ×ˢ draws, Collects (t0.onField (runHelio (ops ++ [.aim az el]))).plant.scene w get (fun _ => 1)
      [sunRay center direction radius ang flux extra d.1] reps m (without d))
    {n : Nat} (hn : 0 < n) {got : Ω → ℝ}
    (hgot : ∀ ω, ∃ src b, solarDisk center direction radius ang (some flux) ((List.range n).map fun i => (D i ω).1.1)
      ((List.range n).map fun i => (D i ω).1.2) = .ok src ∧ src.rays extra = .ok b ∧
      Collects (t.onField (runHelio (ops ++ [.aim az el]))).plant.scene w get (fun _ => 1) b reps (m / n) (got ω))
    {ε η : ℝ} (hε : 0 < ε) (hη : 0 < η) (henough : (π * radius ^ 2 * flux) ^ 2 / (2 * ε ^ 2) * log (2 / η) ≤ n) :
    μ.real {ω | ε ≤ |got ω - (∫ ω, without (D 0 ω) ∂μ + (1 - absorpt) * (flux *
      (positions.map fun p => W * L * |V3.dot direction (aimTransform az el (heightAfter th ops) p).rot.c3|).sum))|} ≤ η := by
  obtain ⟨g, g'', hg, hg'', hscene⟩ := tower_objs (az := az) (el := el) hW hL hx hy ht ops
  have hcs : CountedScene (1 - absorpt) (t.onField (runHelio (ops ++ [.aim az el]))).plant.scene w get 1 := by
    rw [hscene]
    exact plant_counted hg hg'' ha0 ha1 hgs hw
  choose power hpow using fun d : (angleDraws ×ˢ draws : Set ((ℝ × ℝ) × (ℝ × ℝ))) =>
    C113_exists hcs.watched (fun _ => 1) [sunRay center direction radius ang flux extra d.1] reps m
  have h1 := C120_exact hW hL hx hy hF ha0 ha1 ht ht0 ops hgs hw h0 h0' hρ hρ' hO hdir hr hang hang1 hflux.le extra hreps hm hmE hside hcover U V (hD 0) heven hpow hwithout
  have h2 := C119_tower hW hL hx hy hF ha0 ha1 ht ops hgs hw h0 h0' hρ hρ' hO hdir hr hang hang1 hflux extra hD hind hid heven {()} (φ := fun _ _ => 1)
    (power := fun _ => power) (got := fun _ => got) (fun _ _ => one_weights) (fun _ _ _ => by norm_num) (fun _ _ => hpow) hn (fun _ _ => hgot) hε hη (by simpa using henough)
  rw [← h1]
  refine (measureReal_mono fun ω hω => ?_).trans h2
  exact ⟨(), Finset.mem_singleton_self _, hω⟩

/-! ### One heliostat under the zenith -/

theorem Examples.one_normal : (aimTransform 0 0 (heightAfter 5 [.height 7]) ⟨24, 0, 0⟩).rot.c3 = ⟨-(3 / 5), 0, 4 / 5⟩ := by
  have hs : solarVector 0 0 = ⟨0, 0, 1⟩ := by
    unfold solarVector
    simp
  have hto : toward (⟨24, 0, 0⟩ : V3 ℝ) ⟨0, 0, 7⟩ = ⟨-(24 / 25), 0, 7 / 25⟩ := by
    have e : √(V3.dist2 (⟨0, 0, 7⟩ : V3 ℝ) ⟨24, 0, 0⟩) = 25 := by
      rw [show V3.dist2 (⟨0, 0, 7⟩ : V3 ℝ) ⟨24, 0, 0⟩ = 25 ^ 2 by norm_num [V3.dist2, V3.dot]]
      exact Real.sqrt_sq (by norm_num)
    unfold toward
    rw [e]
    apply V3.ext <;> norm_num
  have hb : solarVector 0 0 + toward (⟨24, 0, 0⟩ : V3 ℝ) ⟨0, 0, 7⟩ = ⟨-(24 / 25), 0, 32 / 25⟩ := by
    rw [hs, hto]
    apply V3.ext <;> norm_num
  show (aimTransform 0 0 7 ⟨24, 0, 0⟩).rot.c3 = _
  rw [aimTransform_c3 _ _ _ _ (by rw [hb]; intro h; have := congrArg V3.z h; norm_num at this), hb, normalizeRow_eq]
  have e : √(V3.dot (⟨-(24 / 25), 0, 32 / 25⟩ : V3 ℝ) ⟨-(24 / 25), 0, 32 / 25⟩) = 8 / 5 := by
    rw [show V3.dot (⟨-(24 / 25), 0, 32 / 25⟩ : V3 ℝ) ⟨-(24 / 25), 0, 32 / 25⟩ = (8 / 5) ^ 2 by norm_num [V3.dot]]
    exact Real.sqrt_sq (by norm_num)
  rw [e]
  apply V3.ext <;> norm_num

theorem Examples.one_open : OpenField [⟨24, 0, 0⟩] 1 8 (towerFace 7).loc ⟨24, 0, 100⟩ 10 := by
  refine ⟨?_, ?_, ?_, ?_⟩
  · intro i j p q hij hi hj
    rcases i with _ | i <;> rcases j with _ | j <;> simp at hi hj hij
  · intro p hp
    rw [List.mem_singleton] at hp
    subst hp
    norm_num [V3.dist2, V3.dot, towerFace]
  · intro p hp
    rw [List.mem_singleton] at hp
    subst hp
    norm_num [V3.dist2, V3.dot]
  · norm_num [V3.dist2, V3.dot, towerFace]

theorem Examples.narrow_sides {u : V3 ℝ} (hu : InCone ⟨0, 0, -1⟩ (5 / 1000) u) : |u.x| ≤ 3 / 200 ∧ |u.y| ≤ 3 / 200 := by
  obtain ⟨h1, h2, h3⟩ := Examples.narrow_cone hu
  exact ⟨abs_le_of_sq_le_sq (by nlinarith [sq_nonneg u.y]) (by norm_num), abs_le_of_sq_le_sq (by nlinarith [sq_nonneg u.x]) (by norm_num)⟩

theorem Examples.one_front {u : V3 ℝ} (hu : InCone ⟨0, 0, -1⟩ (5 / 1000) u) :
    V3.dot u (aimTransform 0 0 (heightAfter 5 [.height 7]) ⟨24, 0, 0⟩).rot.c3 < -(1 / 10 ^ 10) := by
  obtain ⟨h1, h2, h3⟩ := Examples.narrow_cone hu
  obtain ⟨h4, h5⟩ := Examples.narrow_sides hu
  rw [abs_le] at h4
  rw [Examples.one_normal]
  simp only [V3.dot]
  norm_num
  linarith

theorem Examples.one_seen :
    SeenFromDisk ⟨24, 0, 100⟩ ⟨0, 0, -1⟩ 10 (5 / 1000) (aimTransform 0 0 (heightAfter 5 [.height 7]) ⟨24, 0, 0⟩) {q | |q.1| ≤ 1 / 2 ∧ |q.2| ≤ 1 / 2} := by
  intro q hq u hu
  obtain ⟨h1, h2, h3⟩ := Examples.narrow_cone hu
  have ha := abs_le.1 hq.1
  have hb := abs_le.1 hq.2
  obtain ⟨v, hv, hv2⟩ : ∃ v : V3 ℝ, (aimTransform 0 0 (heightAfter 5 [.height 7]) ⟨24, 0, 0⟩).point ⟨q.1, q.2, 0⟩ = v + ⟨24, 0, 0⟩ ∧ V3.dot v v ≤ 1 / 2 := by
    refine ⟨(aimTransform 0 0 (heightAfter 5 [.height 7]) ⟨24, 0, 0⟩).rot.mulVec ⟨q.1, q.2, 0⟩, rfl, ?_⟩
    rw [M3.IsRotation.dot (aimTransform_rigid 0 0 (heightAfter 5 [.height 7]) ⟨24, 0, 0⟩)]
    simp only [V3.dot]
    nlinarith
  rw [hv]
  simp only [V3.dot] at hv2
  have hvx : |v.x| ≤ 1 := abs_le_of_sq_le_sq (by nlinarith [sq_nonneg v.y, sq_nonneg v.z]) (by norm_num)
  have hvy : |v.y| ≤ 1 := abs_le_of_sq_le_sq (by nlinarith [sq_nonneg v.x, sq_nonneg v.z]) (by norm_num)
  have hvz : |v.z| ≤ 1 := abs_le_of_sq_le_sq (by nlinarith [sq_nonneg v.x, sq_nonneg v.y]) (by norm_num)
  rw [abs_le] at hvx hvy hvz
  have hz : 0 < -u.z := by linarith
  obtain ⟨k, hk⟩ : ∃ k, k * -u.z = 100 - v.z := ⟨(100 - v.z) / -u.z, div_mul_cancel₀ _ hz.ne'⟩
  have k1 : 99 ≤ k := by nlinarith
  have k2 : k ≤ 102 := by nlinarith
  obtain ⟨hx, hyy⟩ := Examples.narrow_sides hu
  rw [abs_le] at hx hyy
  refine ⟨k, by norm_num; linarith, ?_, ?_⟩
  · simp only [V3.dot, V3.sub_x, V3.sub_y, V3.sub_z, V3.smul_x, V3.smul_y, V3.smul_z, V3.add_x, V3.add_y, V3.add_z]
    linarith
  · simp only [V3.dist2, V3.dot, V3.sub_x, V3.sub_y, V3.sub_z, V3.smul_x, V3.smul_y, V3.smul_z, V3.add_x, V3.add_y, V3.add_z]
    have e : v.z + 0 - k * u.z - 100 = 0 := by linarith
    rw [e]
    have a1 : |v.x + 24 - k * u.x - 24| ≤ 5 := by rw [abs_le]; constructor <;> nlinarith
    have a2 : |v.y + 0 - k * u.y - 0| ≤ 5 := by rw [abs_le]; constructor <;> nlinarith
    have b1 := sq_le_sq' (abs_le.1 a1).1 (abs_le.1 a1).2
    have b2 := sq_le_sq' (abs_le.1 a2).1 (abs_le.1 a2).2
    nlinarith

theorem Examples.one_unobstructed : Unobstructed [⟨24, 0, 0⟩] 1 1 10 10 0 0 (heightAfter 5 [.height 7]) (towerFace 7) ⟨24, 0, 100⟩ ⟨0, 0, -1⟩ 10 (5 / 1000) := by
  have hone : ∀ {i : Nat} {p : V3 ℝ}, ([⟨24, 0, 0⟩] : List (V3 ℝ))[i]? = some p → i = 0 ∧ p = ⟨24, 0, 0⟩ := by
    intro i p h
    rcases i with _ | i
    · simp at h
      exact ⟨rfl, h.symm⟩
    · simp at h
  have hP : ∀ {P : V3 ℝ}, Placed (aimTransform 0 0 (heightAfter 5 [.height 7]) ⟨24, 0, 0⟩) (rectXY 1 1) P → |P.x - 24| ≤ 1 ∧ |P.y| ≤ 1 ∧ |P.z| ≤ 1 := by
    intro P h
    have h1 := placed_inBall (ρ := 1) (aimTransform_rigid 0 0 (heightAfter 5 [.height 7]) ⟨24, 0, 0⟩) (by norm_num) h
    have h2 : (P.x - 24) ^ 2 + P.y ^ 2 + P.z ^ 2 ≤ 1 := by
      have hl : (aimTransform 0 0 (heightAfter 5 [.height 7]) ⟨24, 0, 0⟩).loc = (⟨24, 0, 0⟩ : V3 ℝ) := rfl
      unfold InBall at h1
      rw [hl] at h1
      simp only [V3.dist2, V3.dot, V3.sub_x, V3.sub_y, V3.sub_z] at h1
      nlinarith
    exact ⟨abs_le_of_sq_le_sq (by nlinarith [sq_nonneg P.y, sq_nonneg P.z]) (by norm_num),
      abs_le_of_sq_le_sq (by nlinarith [sq_nonneg (P.x - 24), sq_nonneg P.z]) (by norm_num),
      abs_le_of_sq_le_sq (by nlinarith [sq_nonneg P.y, sq_nonneg (P.x - 24)]) (by norm_num)⟩
  refine ⟨?_, ?_, ?_, ?_⟩
  · intro p hp u hu
    rw [List.mem_singleton] at hp
    subst hp
    exact (Examples.one_front hu).trans (by norm_num)
  · intro i j p q S u P hij hi hj
    exact absurd ((hone hi).1.trans (hone hj).1.symm) hij
  · intro p hp S u P hf
    rw [List.mem_singleton] at hp
    subst hp
    obtain ⟨hS, -, -, hon⟩ := hf
    obtain ⟨px, -, -⟩ := hP hon
    have hSx : 14 ≤ S.x := by
      simp only [V3.dist2, V3.dot, V3.sub_x, V3.sub_y, V3.sub_z] at hS
      have : |24 - S.x| ≤ 10 := abs_le_of_sq_le_sq (by nlinarith [sq_nonneg (0 - S.y), sq_nonneg (100 - S.z)]) (by norm_num)
      rw [abs_le] at this
      linarith
    rw [abs_le] at px
    have hseg : ∀ s : ℝ, 0 ≤ s → s ≤ 1 → 14 ≤ (S + s • (P - S)).x := by
      intro s s0 s1
      simp only [V3.add_x, V3.smul_x, V3.sub_x]
      nlinarith
    constructor
    · intro s s0 s1 h
      have h1 := placed_plane (towerFace_rigid 7) h
      have h2 := hseg s s0 s1
      rw [towerFace_c3] at h1
      generalize S + s • (P - S) = Q at h1 h2
      simp [V3.dot, towerFace] at h1
      linarith
    · intro s s0 s1 h
      obtain ⟨b1, b2, b3⟩ := back_rigid (towerFace_rigid 7)
      have h1 := placed_plane b1 h
      have h2 := hseg s s0 s1
      rw [b2, b3, towerFace_c3] at h1
      generalize S + s • (P - S) = Q at h1 h2
      simp [V3.dot, towerFace] at h1
      norm_num at h1
      linarith
  · intro i p S u P hi hf
    obtain ⟨rfl, rfl⟩ := hone hi
    obtain ⟨-, hu, -, hon⟩ := hf
    obtain ⟨px, py, pz⟩ := hP hon
    obtain ⟨h1, h2, h3⟩ := Examples.narrow_cone hu
    obtain ⟨hx, hy⟩ := Examples.narrow_sides hu
    rw [abs_le] at px py pz hx hy
    have hv : turnedBy (aimTransform 0 0 (heightAfter 5 [.height 7]) ⟨24, 0, 0⟩).rot.c3 u =
        ⟨7 / 25 * u.x + 24 / 25 * u.z, u.y, 24 / 25 * u.x - 7 / 25 * u.z⟩ := by
      rw [Examples.one_normal]
      unfold turnedBy
      apply V3.ext <;> simp [V3.dot] <;> ring
    have hc : 19 / 20 ≤ -(7 / 25 * u.x + 24 / 25 * u.z) := by linarith
    have hc' : -(7 / 25 * u.x + 24 / 25 * u.z) ≤ 1 := by linarith
    obtain ⟨d, hd⟩ : ∃ d, d * -(7 / 25 * u.x + 24 / 25 * u.z) = P.x := ⟨P.x / -(7 / 25 * u.x + 24 / 25 * u.z), div_mul_cancel₀ _ (by linarith)⟩
    have d1 : 23 ≤ d := by nlinarith
    have d2 : d ≤ 27 := by nlinarith
    refine ⟨_, d, rfl, by norm_num; linarith, ?_, ?_, ?_⟩
    · rw [hv, towerFace_c3]
      simp only [V3.dot]
      norm_num
      linarith
    · rw [hv]
      refine ⟨⟨7 - (P.z + d * (24 / 25 * u.x - 7 / 25 * u.z)), P.y + d * u.y, 0⟩, ⟨rfl, ?_, ?_⟩, ?_⟩
      · have z1 : 1 / 4 ≤ 24 / 25 * u.x - 7 / 25 * u.z := by linarith
        have z2 : 24 / 25 * u.x - 7 / 25 * u.z ≤ 3 / 10 := by linarith
        rw [abs_le]
        constructor <;> nlinarith
      · rw [abs_le]
        constructor <;> nlinarith
      · unfold Tf.point towerFace roty
        apply V3.ext <;> simp <;> linarith
    · intro j q hij hj
      exact absurd (hone hj).1.symm hij

/-- A heliostat of 1 by 1 that absorbs a tenth stands 24 away from a tower of height 7, under a sun in the zenith, of half angle 5 mrad and flux 1000, which falls on it
with a cosine of 4/5.  It delivers 720, whatever the number of reflections from two on: the receiver gets this much at least, and no more than this and what the sun
itself brings. -/
example (reps : Nat) (hreps : 2 ≤ reps) : ∃ (t : Tower (Account ℝ) Unit) (g' : Geometry ℝ Unit) (μ : Measure (Nat → (angleDraws ×ˢ draws : Set ((ℝ × ℝ) × (ℝ × ℝ)))))
      (power alone : (angleDraws ×ˢ draws : Set ((ℝ × ℝ) × (ℝ × ℝ))) → ℝ),
      Tower.new [⟨24, 0, 0⟩] 1 1 (1 / 10) 5 10 10 (towerFace 7) id (fun acc _ => acc) 1 1 = .ok t ∧ rectPlateGM 10 10 = .ok g' ∧ IsProbabilityMeasure μ ∧
      (∀ d, Collects (t.onField (runHelio ([.height 7] ++ [.aim 0 0]))).plant.scene Account.reset id (fun _ => 1)
        [sunRay ⟨24, 0, 100⟩ ⟨0, 0, -1⟩ 10 (5 / 1000) 1000 () d.1] reps 0 (power d)) ∧
      (∀ d, Collects (lone (mkSurf g' (reflectiveReceiver 1 id fun acc _ => acc) (towerFace 7))) Account.reset id (fun _ => 1)
        [sunRay ⟨24, 0, 100⟩ ⟨0, 0, -1⟩ 10 (5 / 1000) 1000 () d.1] 1 0 (alone d)) ∧
      720 ≤ ∫ ω, power (ω 0) ∂μ ∧ ∫ ω, power (ω 0) ∂μ ≤ ∫ ω, alone (ω 0) ∂μ + 720 := by
  obtain ⟨ν, hν, heven⟩ := even_pairs
  obtain ⟨μ, hμ, hD, hind, hid, hlaw⟩ := all_draws_exist ν
  obtain ⟨g, hg⟩ := (C31_constructor (K := ℝ) (E := Unit) 1 1).1 ⟨one_pos, one_pos⟩
  obtain ⟨g', hg'⟩ := (C31_constructor (K := ℝ) (E := Unit) 10 10).1 ⟨by norm_num, by norm_num⟩
  obtain ⟨t, ht, -⟩ := tower_scene (σ := Account ℝ) (positions := [⟨24, 0, 0⟩]) (a := 1 / 10) (th := 5) hg hg' (towerFace 7) id (fun acc _ => acc) 1 1
    [.height 7] 0 0
  obtain ⟨g1, g2, hg1, hg2, hscene⟩ := tower_objs (az := 0) (el := 0) one_pos one_pos (by norm_num) (by norm_num) ht [.height 7]
  have hcs : CountedScene (1 - 1 / 10) (t.onField (runHelio ([.height 7] ++ [.aim 0 0]))).plant.scene Account.reset id 1 := by
    rw [hscene]
    exact plant_counted hg1 hg2 (by norm_num) (by norm_num) (fun _ _ => rfl) rfl
  set s : Surf (Account ℝ) ℝ Unit := mkSurf g' (reflectiveReceiver 1 id fun acc _ => acc) (towerFace 7) with hs
  have hws : WatchedScene (lone s) Account.reset id 1 := by
    refine ⟨lone_plain s, lone_mirrors (.rect _ _ _ hg') (.receiver _ _ _ _ (.mirror _)), rfl, ⟨0, 0, s⟩, ?_, g', reflective 1, towerFace 7, fun acc _ => acc, rfl,
      fun _ _ => rfl, (C51_reflective 1 id).1, ?_⟩
    · rw [lone_sites]; exact List.mem_singleton_self _
    · intro y hy hne
      rw [lone_sites, List.mem_singleton] at hy
      exact absurd ⟨by rw [hy], by rw [hy]⟩ hne
  choose power hpow using fun (d : (angleDraws ×ˢ draws : Set ((ℝ × ℝ) × (ℝ × ℝ)))) =>
    C113_exists hcs.watched (fun _ => 1) [sunRay ⟨24, 0, 100⟩ ⟨0, 0, -1⟩ 10 (5 / 1000) 1000 () d.1] reps 0
  choose alone halone using fun (d : (angleDraws ×ˢ draws : Set ((ℝ × ℝ) × (ℝ × ℝ)))) =>
    C113_exists hws (fun _ => 1) [sunRay ⟨24, 0, 100⟩ ⟨0, 0, -1⟩ 10 (5 / 1000) 1000 () d.1] 1 0
  have hev : ∀ S, MeasurableSet S → μ {ω | (ω 0).1 ∈ S} = volume (S ∩ angleDraws ×ˢ draws) / volume (angleDraws ×ˢ draws) :=
    fun S hS => by rw [← heven S hS]; exact hlaw {d | d.1 ∈ S} (measurable_subtype_coe hS)
  have hside : ∀ p ∈ [(⟨24, 0, 0⟩ : V3 ℝ)], OneSide ⟨0, 0, -1⟩ (5 / 1000) (aimTransform 0 0 (heightAfter 5 [.height 7]) p) := by
    intro p hp
    rw [List.mem_singleton] at hp
    subst hp
    exact Or.inr fun u hu => Examples.one_front hu
  have hseen : ∀ p ∈ [(⟨24, 0, 0⟩ : V3 ℝ)],
      SeenFromDisk ⟨24, 0, 100⟩ ⟨0, 0, -1⟩ 10 (5 / 1000) (aimTransform 0 0 (heightAfter 5 [.height 7]) p) {q | |q.1| ≤ 1 / 2 ∧ |q.2| ≤ 1 / 2} := by
    intro p hp
    rw [List.mem_singleton] at hp
    subst hp
    exact Examples.one_seen
  have h1 := C120_delivered (ρ := 1) (ρ' := 8) (μ := μ) (D := fun ω => ω 0) one_pos one_pos (by norm_num) (by norm_num) (towerFace_rigid 7) (by norm_num) (by norm_num) ht
    [.height 7] (fun _ _ => rfl) rfl (by norm_num) (by norm_num) (by norm_num) (by norm_num) Examples.one_open (by unfold V3.IsUnit; norm_num [V3.dot])
    (by norm_num) (by norm_num) (by linarith [pi_gt_three]) (by norm_num) () hreps le_rfl (by positivity) hside hseen Examples.one_unobstructed (hD 0) hev hpow
  have h2 := C120_intercepted (ρ := 1) (ρ' := 8) (μ := μ) (D := fun ω => ω 0) one_pos one_pos (by norm_num) (by norm_num) (towerFace_rigid 7) (by norm_num) (by norm_num) ht
    [.height 7] (fun _ _ => rfl) rfl (by norm_num) (by norm_num) (by norm_num) (by norm_num) Examples.one_open (by unfold V3.IsUnit; norm_num [V3.dot])
    (by norm_num) (by norm_num) (by linarith [pi_gt_three]) (by norm_num) () hside hseen (hD 0) hev one_weights (fun _ => by norm_num) hpow hg' halone
  have hcos : |V3.dot ⟨0, 0, -1⟩ (aimTransform 0 0 (heightAfter 5 [.height 7]) ⟨24, 0, 0⟩).rot.c3| = 4 / 5 := by
    rw [Examples.one_normal]
    simp only [V3.dot]
    norm_num
  simp only [List.map_cons, List.map_nil, List.sum_cons, List.sum_nil, hcos] at h1 h2
  exact ⟨t, g', μ, power, alone, ht, hg', hμ, hpow, halone, by linarith, by linarith⟩

/-- In the same plant, with enough rays a trace reports more than 700, with a probability of 99 percent. -/
example (reps n : Nat) (hreps : 2 ≤ reps) (hn : (π * 10 ^ 2 * 1000) ^ 2 / (2 * 20 ^ 2) * log (2 / (1 / 100)) ≤ n) (hn0 : 0 < n) {t : Tower (Account ℝ) Unit}
    (ht : Tower.new [⟨24, 0, 0⟩] 1 1 (1 / 10) 5 10 10 (towerFace 7) id (fun acc _ => acc) 1 1 = .ok t) :
    ∃ (μ : Measure (Nat → (angleDraws ×ˢ draws : Set ((ℝ × ℝ) × (ℝ × ℝ))))) (got : (Nat → (angleDraws ×ˢ draws : Set ((ℝ × ℝ) × (ℝ × ℝ)))) → ℝ), IsProbabilityMeasure μ ∧
      (∀ ω, ∃ src b, solarDisk ⟨24, 0, 100⟩ ⟨0, 0, -1⟩ 10 (5 / 1000) (some 1000) ((List.range n).map fun i => (ω i).1.1)
        ((List.range n).map fun i => (ω i).1.2) = .ok src ∧ src.rays () = .ok b ∧
        Collects (t.onField (runHelio ([.height 7] ++ [.aim 0 0]))).plant.scene Account.reset id (fun _ => 1) b reps (0 / n) (got ω)) ∧
      μ.real {ω | got ω ≤ 700} ≤ 1 / 100 := by
  obtain ⟨ν, hν, heven⟩ := even_pairs
  obtain ⟨μ, hμ, hD, hind, hid, hlaw⟩ := all_draws_exist ν
  obtain ⟨g1, g2, hg1, hg2, hscene⟩ := tower_objs (az := 0) (el := 0) one_pos one_pos (by norm_num) (by norm_num) ht [.height 7]
  have hcs : CountedScene (1 - 1 / 10) (t.onField (runHelio ([.height 7] ++ [.aim 0 0]))).plant.scene Account.reset id 1 := by
    rw [hscene]
    exact plant_counted hg1 hg2 (by norm_num) (by norm_num) (fun _ _ => rfl) rfl
  have hex : ∀ (ω : Nat → (angleDraws ×ˢ draws : Set ((ℝ × ℝ) × (ℝ × ℝ)))), ∃ e, ∃ src b,
      solarDisk ⟨24, 0, 100⟩ ⟨0, 0, -1⟩ 10 (5 / 1000) (some 1000) ((List.range n).map fun i => (ω i).1.1)
        ((List.range n).map fun i => (ω i).1.2) = .ok src ∧ src.rays () = .ok b ∧
        Collects (t.onField (runHelio ([.height 7] ++ [.aim 0 0]))).plant.scene Account.reset id (fun _ => 1) b reps (0 / n) e := by
    intro ω
    obtain ⟨src, h1⟩ : ∃ src, solarDisk ⟨24, 0, 100⟩ ⟨0, 0, -1⟩ 10 (5 / 1000) (some 1000) ((List.range n).map fun i => (ω i).1.1)
        ((List.range n).map fun i => (ω i).1.2) = .ok src := ⟨_, by unfold solarDisk; rw [if_neg (by simp; omega)]⟩
    obtain ⟨b, h2⟩ : ∃ b, src.rays () = .ok b := by
      unfold solarDisk at h1
      rw [if_neg (by simp; omega)] at h1
      cases h1
      exact ⟨_, rfl⟩
    obtain ⟨e, he⟩ := C113_exists hcs.watched (fun _ => 1) b reps (0 / n)
    exact ⟨e, src, b, h1, h2, he⟩
  choose got hgot using hex
  refine ⟨μ, got, hμ, hgot, ?_⟩
  have h := C120_delivered_report (ρ := 1) (ρ' := 8) (μ := μ) (D := fun i ω => ω i) (ε := 20) (η := 1 / 100) one_pos one_pos (by norm_num) (by norm_num)
    (towerFace_rigid 7) (by norm_num) (by norm_num) ht [.height 7] (fun _ _ => rfl) rfl (by norm_num) (by norm_num) (by norm_num) (by norm_num) Examples.one_open
    (by unfold V3.IsUnit; norm_num [V3.dot]) (by norm_num) (by norm_num) (by linarith [pi_gt_three]) (by norm_num) () hreps le_rfl (by positivity)
    (fun p hp => by rw [List.mem_singleton] at hp; subst hp; exact Or.inr fun u hu => Examples.one_front hu)
    (fun p hp => by rw [List.mem_singleton] at hp; subst hp; exact Examples.one_seen) Examples.one_unobstructed
    hD hind hid (fun S hS => by rw [← heven S hS]; exact hlaw {d | d.1 ∈ S} (measurable_subtype_coe hS)) hn0 hgot
    (by norm_num) (by norm_num) (by exact_mod_cast hn)
  have hcos : |V3.dot ⟨0, 0, -1⟩ (aimTransform 0 0 (heightAfter 5 [.height 7]) ⟨24, 0, 0⟩).rot.c3| = 4 / 5 := by
    rw [Examples.one_normal]
    simp only [V3.dot]
    norm_num
  simp only [List.map_cons, List.map_nil, List.sum_cons, List.sum_nil, hcos] at h
  refine (measureReal_mono fun ω hω => ?_).trans h
  have hω : got ω ≤ 700 := hω
  show got ω ≤ _
  linarith

theorem Examples.one_unblocked : SunUnblocked [⟨24, 0, 0⟩] 1 1 10 10 0 0 (heightAfter 5 [.height 7]) (towerFace 7) ⟨24, 0, 100⟩ ⟨0, 0, -1⟩ 10 (5 / 1000) := by
  intro p hp S u t hS hu ht hon
  exfalso
  obtain ⟨h1, h2, h3⟩ := Examples.narrow_cone hu
  obtain ⟨hx, hy⟩ := Examples.narrow_sides hu
  have hpl := placed_plane (towerFace_rigid 7) hon
  have hball := placed_inBall (ρ := 8) (towerFace_rigid 7) (by norm_num) hon
  rw [towerFace_c3] at hpl
  simp [V3.dot, towerFace] at hpl
  simp [InBall, V3.dist2, V3.dot, towerFace] at hball
  simp only [V3.dist2, V3.dot, V3.sub_x, V3.sub_y, V3.sub_z] at hS
  have s1 : |24 - S.x| ≤ 10 := abs_le_of_sq_le_sq (by nlinarith [sq_nonneg (0 - S.y), sq_nonneg (100 - S.z)]) (by norm_num)
  have s2 : |100 - S.z| ≤ 10 := abs_le_of_sq_le_sq (by nlinarith [sq_nonneg (0 - S.y), sq_nonneg (24 - S.x)]) (by norm_num)
  have s3 : |S.z + t * u.z - 7| ≤ 8 := abs_le_of_sq_le_sq (by nlinarith [sq_nonneg (S.x + t * u.x), sq_nonneg (S.y + t * u.y)]) (by norm_num)
  rw [abs_le] at hx s1 s2 s3
  have ht0 : 0 < t := lt_trans (by norm_num) ht
  have t1 : t ≤ 120 := by nlinarith
  nlinarith

/-- The heliostat of this plant adds exactly 720 to what the receiver reports without it. -/
example (reps : Nat) (hreps : 2 ≤ reps) : ∃ (t t0 : Tower (Account ℝ) Unit) (μ : Measure (Nat → (angleDraws ×ˢ draws : Set ((ℝ × ℝ) × (ℝ × ℝ)))))
      (power without : (angleDraws ×ˢ draws : Set ((ℝ × ℝ) × (ℝ × ℝ))) → ℝ),
      Tower.new [⟨24, 0, 0⟩] 1 1 (1 / 10) 5 10 10 (towerFace 7) id (fun acc _ => acc) 1 1 = .ok t ∧
      Tower.new [] 1 1 (1 / 10) 5 10 10 (towerFace 7) id (fun acc _ => acc) 1 1 = .ok t0 ∧ IsProbabilityMeasure μ ∧
      (∀ d, Collects (t.onField (runHelio ([.height 7] ++ [.aim 0 0]))).plant.scene Account.reset id (fun _ => 1)
        [sunRay ⟨24, 0, 100⟩ ⟨0, 0, -1⟩ 10 (5 / 1000) 1000 () d.1] reps 0 (power d)) ∧
      (∀ d, Collects (t0.onField (runHelio ([.height 7] ++ [.aim 0 0]))).plant.scene Account.reset id (fun _ => 1)
        [sunRay ⟨24, 0, 100⟩ ⟨0, 0, -1⟩ 10 (5 / 1000) 1000 () d.1] reps 0 (without d)) ∧
      ∫ ω, power (ω 0) ∂μ = ∫ ω, without (ω 0) ∂μ + 720 := by
  obtain ⟨ν, hν, heven⟩ := even_pairs
  obtain ⟨μ, hμ, hD, hind, hid, hlaw⟩ := all_draws_exist ν
  obtain ⟨g, hg⟩ := (C31_constructor (K := ℝ) (E := Unit) 1 1).1 ⟨one_pos, one_pos⟩
  obtain ⟨g', hg'⟩ := (C31_constructor (K := ℝ) (E := Unit) 10 10).1 ⟨by norm_num, by norm_num⟩
  have hex : ∀ l : List (V3 ℝ), ∃ (t : Tower (Account ℝ) Unit) (power : (angleDraws ×ˢ draws : Set ((ℝ × ℝ) × (ℝ × ℝ))) → ℝ),
      Tower.new l 1 1 (1 / 10) 5 10 10 (towerFace 7) id (fun acc _ => acc) 1 1 = .ok t ∧
      ∀ d, Collects (t.onField (runHelio ([.height 7] ++ [.aim 0 0]))).plant.scene Account.reset id (fun _ => 1)
        [sunRay ⟨24, 0, 100⟩ ⟨0, 0, -1⟩ 10 (5 / 1000) 1000 () d.1] reps 0 (power d) := by
    intro l
    obtain ⟨t, ht, -⟩ := tower_scene (σ := Account ℝ) (positions := l) (a := 1 / 10) (th := 5) hg hg' (towerFace 7) id (fun acc _ => acc) 1 1 [.height 7] 0 0
    obtain ⟨g1, g2, hg1, hg2, hscene⟩ := tower_objs (az := 0) (el := 0) one_pos one_pos (by norm_num) (by norm_num) ht [.height 7]
    have hcs : CountedScene (1 - 1 / 10) (t.onField (runHelio ([.height 7] ++ [.aim 0 0]))).plant.scene Account.reset id 1 := by
      rw [hscene]
      exact plant_counted hg1 hg2 (by norm_num) (by norm_num) (fun _ _ => rfl) rfl
    choose power hpow using fun (d : (angleDraws ×ˢ draws : Set ((ℝ × ℝ) × (ℝ × ℝ)))) =>
      C113_exists hcs.watched (fun _ => 1) [sunRay ⟨24, 0, 100⟩ ⟨0, 0, -1⟩ 10 (5 / 1000) 1000 () d.1] reps 0
    exact ⟨t, power, ht, hpow⟩
  obtain ⟨t, power, ht, hpow⟩ := hex [⟨24, 0, 0⟩]
  obtain ⟨t0, without, ht0, hwithout⟩ := hex []
  refine ⟨t, t0, μ, power, without, ht, ht0, hμ, hpow, hwithout, ?_⟩
  have h := C120_exact (ρ := 1) (ρ' := 8) (μ := μ) (D := fun ω => ω 0) one_pos one_pos (by norm_num) (by norm_num) (towerFace_rigid 7) (by norm_num) (by norm_num) ht ht0
    [.height 7] (fun _ _ => rfl) rfl (by norm_num) (by norm_num) (by norm_num) (by norm_num) Examples.one_open (by unfold V3.IsUnit; norm_num [V3.dot])
    (by norm_num) (by norm_num) (by linarith [pi_gt_three]) (by norm_num) () hreps le_rfl (by positivity)
    (fun p hp => by rw [List.mem_singleton] at hp; subst hp; exact Or.inr fun u hu => Examples.one_front hu)
    (fun p hp => by rw [List.mem_singleton] at hp; subst hp; exact Examples.one_seen) Examples.one_unobstructed Examples.one_unblocked (hD 0)
    (fun S hS => by rw [← heven S hS]; exact hlaw {d | d.1 ∈ S} (measurable_subtype_coe hS)) hpow hwithout
  have hcos : |V3.dot ⟨0, 0, -1⟩ (aimTransform 0 0 (heightAfter 5 [.height 7]) ⟨24, 0, 0⟩).rot.c3| = 4 / 5 := by
    rw [Examples.one_normal]
    simp only [V3.dot]
    norm_num
  simp only [List.map_cons, List.map_nil, List.sum_cons, List.sum_nil, hcos] at h
  rw [h]
  norm_num

/-- In the same plant, with enough rays a trace is within 20 of that, with a probability of 99 percent. -/
example (reps n : Nat) (hreps : 2 ≤ reps) (hn : (π * 10 ^ 2 * 1000) ^ 2 / (2 * 20 ^ 2) * log (2 / (1 / 100)) ≤ n) (hn0 : 0 < n) {t t0 : Tower (Account ℝ) Unit}
    (ht : Tower.new [⟨24, 0, 0⟩] 1 1 (1 / 10) 5 10 10 (towerFace 7) id (fun acc _ => acc) 1 1 = .ok t)
    (ht0 : Tower.new [] 1 1 (1 / 10) 5 10 10 (towerFace 7) id (fun acc _ => acc) 1 1 = .ok t0)
    {without : (angleDraws ×ˢ draws : Set ((ℝ × ℝ) × (ℝ × ℝ))) → ℝ}
    (hwithout : ∀ d, Collects (t0.onField (runHelio ([.height 7] ++ [.aim 0 0]))).plant.scene Account.reset id (fun _ => 1)
      [sunRay ⟨24, 0, 100⟩ ⟨0, 0, -1⟩ 10 (5 / 1000) 1000 () d.1] reps 0 (without d)) :
    ∃ (μ : Measure (Nat → (angleDraws ×ˢ draws : Set ((ℝ × ℝ) × (ℝ × ℝ))))) (got : (Nat → (angleDraws ×ˢ draws : Set ((ℝ × ℝ) × (ℝ × ℝ)))) → ℝ), IsProbabilityMeasure μ ∧
      (∀ ω, ∃ src b, solarDisk ⟨24, 0, 100⟩ ⟨0, 0, -1⟩ 10 (5 / 1000) (some 1000) ((List.range n).map fun i => (ω i).1.1)
        ((List.range n).map fun i => (ω i).1.2) = .ok src ∧ src.rays () = .ok b ∧
        Collects (t.onField (runHelio ([.height 7] ++ [.aim 0 0]))).plant.scene Account.reset id (fun _ => 1) b reps (0 / n) (got ω)) ∧
      μ.real {ω | 20 ≤ |got ω - (∫ ω, without (ω 0) ∂μ + 720)|} ≤ 1 / 100 := by
  obtain ⟨ν, hν, heven⟩ := even_pairs
  obtain ⟨μ, hμ, hD, hind, hid, hlaw⟩ := all_draws_exist ν
  obtain ⟨g1, g2, hg1, hg2, hscene⟩ := tower_objs (az := 0) (el := 0) one_pos one_pos (by norm_num) (by norm_num) ht [.height 7]
  have hcs : CountedScene (1 - 1 / 10) (t.onField (runHelio ([.height 7] ++ [.aim 0 0]))).plant.scene Account.reset id 1 := by
    rw [hscene]
    exact plant_counted hg1 hg2 (by norm_num) (by norm_num) (fun _ _ => rfl) rfl
  have hex : ∀ (ω : Nat → (angleDraws ×ˢ draws : Set ((ℝ × ℝ) × (ℝ × ℝ)))), ∃ e, ∃ src b,
      solarDisk ⟨24, 0, 100⟩ ⟨0, 0, -1⟩ 10 (5 / 1000) (some 1000) ((List.range n).map fun i => (ω i).1.1)
        ((List.range n).map fun i => (ω i).1.2) = .ok src ∧ src.rays () = .ok b ∧
        Collects (t.onField (runHelio ([.height 7] ++ [.aim 0 0]))).plant.scene Account.reset id (fun _ => 1) b reps (0 / n) e := by
    intro ω
    obtain ⟨src, h1⟩ : ∃ src, solarDisk ⟨24, 0, 100⟩ ⟨0, 0, -1⟩ 10 (5 / 1000) (some 1000) ((List.range n).map fun i => (ω i).1.1)
        ((List.range n).map fun i => (ω i).1.2) = .ok src := ⟨_, by unfold solarDisk; rw [if_neg (by simp; omega)]⟩
    obtain ⟨b, h2⟩ : ∃ b, src.rays () = .ok b := by
      unfold solarDisk at h1
      rw [if_neg (by simp; omega)] at h1
      cases h1
      exact ⟨_, rfl⟩
    obtain ⟨e, he⟩ := C113_exists hcs.watched (fun _ => 1) b reps (0 / n)
    exact ⟨e, src, b, h1, h2, he⟩
  choose got hgot using hex
  refine ⟨μ, got, hμ, hgot, ?_⟩
  have h := C120_exact_report (ρ := 1) (ρ' := 8) (μ := μ) (D := fun i ω => ω i) (ε := 20) (η := 1 / 100) one_pos one_pos (by norm_num) (by norm_num)
    (towerFace_rigid 7) (by norm_num) (by norm_num) ht ht0 [.height 7] (fun _ _ => rfl) rfl (by norm_num) (by norm_num) (by norm_num) (by norm_num) Examples.one_open
    (by unfold V3.IsUnit; norm_num [V3.dot]) (by norm_num) (by norm_num) (by linarith [pi_gt_three]) (by norm_num) () hreps le_rfl (by positivity)
    (fun p hp => by rw [List.mem_singleton] at hp; subst hp; exact Or.inr fun u hu => Examples.one_front hu)
    (fun p hp => by rw [List.mem_singleton] at hp; subst hp; exact Examples.one_seen) Examples.one_unobstructed Examples.one_unblocked
    hD hind hid (fun S hS => by rw [← heven S hS]; exact hlaw {d | d.1 ∈ S} (measurable_subtype_coe hS)) hwithout hn0 hgot
    (by norm_num) (by norm_num) (by exact_mod_cast hn)
  have hcos : |V3.dot ⟨0, 0, -1⟩ (aimTransform 0 0 (heightAfter 5 [.height 7]) ⟨24, 0, 0⟩).rot.c3| = 4 / 5 := by
    rw [Examples.one_normal]
    simp only [V3.dot]
    norm_num
  simp only [List.map_cons, List.map_nil, List.sum_cons, List.sum_nil, hcos] at h
  have e : (1 - 1 / 10 : ℝ) * (1000 * (1 * 1 * (4 / 5) + 0)) = 720 := by norm_num
  rw [e] at h
  exact h

end Tracer
