import Verif.Spec.SunField
import Verif.Props.SunReport
import Verif.Props.TowerField

/-!
# How many rays of the sun are enough for a heliostat field (C119)

`C119_sun` for the plant of `HeliostatField` and `one_sided_receiver`, whose surfaces have room around them.
-/

namespace Tracer

open MeasureTheory ProbabilityTheory Filter Real

variable {E σ Ω ι : Type _}

/-- What a surface is met in: a ball. -/
def MetIn (c : V3 ℝ) (ρ : ℝ) (s : Surf σ ℝ E) : Prop :=
  ∀ (r : Ray ℝ E) (t : ℝ), s.single r = (t : WithTop ℝ) → 0 ≤ t ∧ InBall c ρ (r.vertex + t • r.dir)

theorem dist2_comm (p q : V3 ℝ) : V3.dist2 p q = V3.dist2 q p := by
  rw [dist2_eq, dist2_eq]
  ring

theorem metIn_apart {c c' : V3 ℝ} {ρ ρ' : ℝ} {s s' : Surf σ ℝ E} (h0 : 0 ≤ ρ) (h0' : 0 ≤ ρ') (h : MetIn c ρ s) (h' : MetIn c' ρ' s')
    (hfar : (ρ + ρ') ^ 2 < V3.dist2 c c') : NeverTogether s s' := by
  intro r t ht ht'
  have h1 := (h r t ht).2
  have h2 := (h' r t ht').2
  unfold InBall at h1 h2
  rw [dist2_comm] at h1
  exact absurd (dist2_triangle h0 h0' h1 h2) (not_le.2 hfar)

theorem metIn_start {c center : V3 ℝ} {ρ radius : ℝ} {s : Surf σ ℝ E} (h0 : 0 ≤ ρ) (hr : 0 ≤ radius) (h : MetIn c ρ s)
    (hfar : (radius + ρ + 1 / 10 ^ 6) ^ 2 < V3.dist2 center c) {q : Ray ℝ E} (hv : V3.dist2 center q.vertex ≤ radius ^ 2) (hu : q.dir.IsUnit) {t : ℝ}
    (ht : s.single q = (t : WithTop ℝ)) : 1 / 10 ^ 6 < t := by
  by_contra hcon
  push Not at hcon
  obtain ⟨h1, h2⟩ := h q t ht
  have h3 : V3.dist2 q.vertex (q.vertex + t • q.dir) ≤ t ^ 2 := by
    have e : V3.dot q.dir q.dir = 1 := hu
    have : V3.dist2 q.vertex (q.vertex + t • q.dir) = t ^ 2 * V3.dot q.dir q.dir := by
      rw [dist2_eq]
      simp [V3.dot]
      ring
    rw [this, e, mul_one]
  have h4 := dist2_triangle (add_nonneg hr h1) h0 (dist2_triangle hr h1 hv h3) h2
  have h5 : (radius + t + ρ) ^ 2 ≤ (radius + ρ + 1 / 10 ^ 6) ^ 2 := by
    apply pow_le_pow_left₀ (by positivity)
    linarith
  linarith

theorem plate_metIn {W L ρ : ℝ} {g : Geometry ℝ E} (hg : rectPlateGM W L = .ok g) {frame : Tf ℝ} (hf : frame.Rigid) (hρ : (W ^ 2 + L ^ 2) / 4 ≤ ρ ^ 2)
    (opt : Optics σ ℝ E) : MetIn frame.loc ρ (mkSurf g opt frame) := by
  intro r t ht
  obtain ⟨h1, h2⟩ := plate_on hg hf ht
  exact ⟨h1, placed_inBall hf hρ h2⟩

section
variable {positions : List (V3 ℝ)} {g g' : Geometry ℝ E} {absorpt az el H W L x y ρ ρ' : ℝ} {F : Tf ℝ} {get : σ → Account ℝ} {set : Account ℝ → σ → σ}

theorem back_metIn (hg' : rectPlateGM x y = .ok g') (hF : F.Rigid) (hρ' : (x ^ 2 + y ^ 2) / 4 ≤ ρ' ^ 2) (h0 : 0 ≤ ρ') (opt : Optics σ ℝ E) :
    MetIn F.loc (ρ' + 1 / 10 ^ 10) (mkSurf g' opt (F * ⟨1, ⟨0, 0, -(1 / 10 ^ 10)⟩⟩)) := by
  intro r t ht
  obtain ⟨h1, h2⟩ := plate_metIn hg' (back_rigid hF).1 hρ' opt r t ht
  refine ⟨h1, ?_⟩
  rw [(back_rigid hF).2.2] at h2
  have e : V3.dot F.rot.c3 F.rot.c3 = 1 := ((M3.isRotation_iff _).1 hF).1.2.2.1
  have h3 : V3.dist2 (F.loc - (1 / 10 ^ 10 : ℝ) • F.rot.c3) F.loc ≤ (1 / 10 ^ 10) ^ 2 := by
    have : V3.dist2 (F.loc - (1 / 10 ^ 10 : ℝ) • F.rot.c3) F.loc = (1 / 10 ^ 10) ^ 2 * V3.dot F.rot.c3 F.rot.c3 := by
      rw [dist2_eq]
      simp [V3.dot]
      ring
    rw [this, e, mul_one]
  exact dist2_triangle h0 (by norm_num) h2 h3

theorem front_metIn (hg' : rectPlateGM x y = .ok g') (hF : F.Rigid) (hρ' : (x ^ 2 + y ^ 2) / 4 ≤ ρ' ^ 2) (h0 : 0 ≤ ρ') (opt : Optics σ ℝ E) :
    MetIn F.loc (ρ' + 1 / 10 ^ 10) (mkSurf g' opt F) := by
  intro r t ht
  obtain ⟨h1, h2⟩ := plate_metIn hg' hF hρ' opt r t ht
  refine ⟨h1, h2.trans ?_⟩
  apply pow_le_pow_left₀ h0
  norm_num

theorem helio_metIn (hg : rectPlateGM W L = .ok g) (hρ : (W ^ 2 + L ^ 2) / 4 ≤ ρ ^ 2) (opt : Optics σ ℝ E) (p : V3 ℝ) :
    MetIn p ρ (mkSurf g opt (aimTransform az el H p)) :=
  plate_metIn hg (aimTransform_rigid az el H p) hρ opt

theorem plant_flatMirrors (hg : rectPlateGM W L = .ok g) (hg' : rectPlateGM x y = .ok g') (hF : F.Rigid) :
    AllSurfs FlatMirror (plantObjs positions g g' absorpt az el H F get set) := by
  intro o ho s hs
  rcases List.mem_append.1 ho with ho | ho
  · obtain ⟨p, _, rfl⟩ := List.mem_map.1 ho
    exact ⟨_, _, _, List.mem_singleton.1 hs, .rect _ _ _ hg, .oneSided _, ((M3.isRotation_iff _).1 (aimTransform_rigid az el H p)).1.2.2.1⟩
  · rw [List.mem_singleton] at ho
    subst ho
    simp only [receiverObj, List.mem_cons, List.not_mem_nil, or_false] at hs
    rcases hs with rfl | rfl
    · exact ⟨_, _, _, rfl, .rect _ _ _ hg', .receiver _ _ _ _ (.mirror _), ((M3.isRotation_iff _).1 hF).1.2.2.1⟩
    · exact ⟨_, _, _, rfl, .rect _ _ _ hg', .mirror _, ((M3.isRotation_iff _).1 (back_rigid hF).1).1.2.2.1⟩

theorem plant_counted (hg : rectPlateGM W L = .ok g) (hg' : rectPlateGM x y = .ok g') (ha0 : 0 ≤ absorpt) (ha1 : absorpt ≤ 1)
    (hgs : ∀ acc w, get (set acc w) = acc) {w : σ} (hw : get w = Account.reset) :
    CountedScene (1 - absorpt) (plantObjs positions g g' absorpt az el H F get set) w get 1 := by
  refine ⟨?_, ?_, ⟨by linarith, by linarith, by norm_num, by norm_num⟩, hw, ⟨positions.length, 0, mkSurf g' (reflectiveReceiver 1 get set) F⟩, ?_, g', reflective 1, F, set,
    rfl, Or.inl rfl, hgs, ?_⟩
  · intro o ho
    refine ⟨?_, Or.inr (plant_skip o ho)⟩
    rcases List.mem_append.1 ho with ho | ho
    · obtain ⟨p, _, rfl⟩ := List.mem_map.1 ho
      rfl
    · rw [List.mem_singleton] at ho
      subst ho
      rfl
  · intro o ho s hs
    rcases List.mem_append.1 ho with ho | ho
    · obtain ⟨p, _, rfl⟩ := List.mem_map.1 ho
      exact ⟨_, _, _, List.mem_singleton.1 hs, .rect _ _ _ hg, .oneSided _ le_rfl ha1⟩
    · rw [List.mem_singleton] at ho
      subst ho
      simp only [receiverObj, List.mem_cons, List.not_mem_nil, or_false] at hs
      rcases hs with rfl | rfl
      · exact ⟨_, _, _, rfl, .rect _ _ _ hg', .receiver _ _ _ _ (.mirror _ (by linarith) le_rfl)⟩
      · exact ⟨_, _, _, rfl, .rect _ _ _ hg', .mirror _ (by linarith) le_rfl⟩
  · rw [plant_sites]
    exact List.mem_append_right _ (by simp)
  · intro z hz hne
    rcases plant_site hz with ⟨j, q, _, rfl⟩ | rfl | rfl
    · exact keeps_ignores (mirror_keeps _ _)
    · exact absurd ⟨rfl, rfl⟩ hne
    · exact keeps_ignores (C51_reflective 1 get).1

/-- The surfaces in turn: the heliostats, the front and the back of the receiver. -/
theorem plant_surfs : (plantObjs positions g g' absorpt az el H F get set).flatMap Obj.surfs =
    positions.map (fun p => (mkSurf g (absorberReflector absorpt) (aimTransform az el H p) : Surf σ ℝ E)) ++
      [mkSurf g' (reflectiveReceiver 1 get set) F, mkSurf g' (reflective 1) (F * ⟨1, ⟨0, 0, -(1 / 10 ^ 10)⟩⟩)] := by
  rw [← sites_surf, plant_sites, List.map_append, List.map_map]
  congr 1
  have e : (Site.surf ∘ fun z : V3 ℝ × Nat => (⟨z.2, 0, mkSurf g (absorberReflector absorpt) (aimTransform az el H z.1)⟩ : Site σ ℝ E)) =
      (fun p => mkSurf g (absorberReflector absorpt) (aimTransform az el H p)) ∘ Prod.fst := rfl
  rw [e, ← List.map_map, List.zipIdx_map_fst]

theorem plant_nth {k : Nat} {s : Surf σ ℝ E} (h : ((plantObjs positions g g' absorpt az el H F get set).flatMap Obj.surfs)[k]? = some s) :
    (∃ p, positions[k]? = some p ∧ s = mkSurf g (absorberReflector absorpt) (aimTransform az el H p)) ∨
    (k = positions.length ∧ s = mkSurf g' (reflectiveReceiver 1 get set) F) ∨
    (k = positions.length + 1 ∧ s = mkSurf g' (reflective 1) (F * ⟨1, ⟨0, 0, -(1 / 10 ^ 10)⟩⟩)) := by
  rw [plant_surfs] at h
  rcases Nat.lt_or_ge k positions.length with hk | hk
  · rw [List.getElem?_append_left (by simpa using hk), List.getElem?_map] at h
    obtain ⟨p, hp, rfl⟩ := Option.map_eq_some_iff.1 h
    exact Or.inl ⟨p, hp, rfl⟩
  · rw [List.getElem?_append_right (by simpa using hk), List.length_map] at h
    right
    obtain ⟨d, rfl⟩ := Nat.exists_eq_add_of_le hk
    rw [Nat.add_sub_cancel_left] at h
    rcases d with _ | _ | d
    · exact Or.inl ⟨rfl, by simpa using h.symm⟩
    · exact Or.inr ⟨rfl, by simpa using h.symm⟩
    · simp at h

theorem front_back (hg' : rectPlateGM x y = .ok g') (hF : F.Rigid) (opt opt' : Optics σ ℝ E) :
    DifferentPlanes (mkSurf g' opt F) (mkSurf g' opt' (F * ⟨1, ⟨0, 0, -(1 / 10 ^ 10)⟩⟩)) := by
  refine ⟨_, _, _, _, _, _, rfl, rfl, .rect _ _ _ hg', .rect _ _ _ hg', F.loc, ?_⟩
  intro h
  have h1 : F.plane.Has F.loc := by simp [Plane.Has, Tf.plane, V3.dot]
  have h2 := h.1 h1
  obtain ⟨-, e2, e3⟩ := back_rigid hF
  have e : V3.dot F.rot.c3 F.rot.c3 = 1 := ((M3.isRotation_iff _).1 hF).1.2.2.1
  unfold Plane.Has Tf.plane at h2
  simp only at h2
  rw [e2, e3] at h2
  have h3 : V3.dot (F.loc - (F.loc - (1 / 10 ^ 10 : ℝ) • F.rot.c3)) F.rot.c3 = 1 / 10 ^ 10 * V3.dot F.rot.c3 F.rot.c3 := by
    simp [V3.dot]
    ring
  rw [h3, e] at h2
  norm_num at h2

theorem DifferentPlanes.symm {s s' : Surf σ ℝ E} (h : DifferentPlanes s s') : DifferentPlanes s' s := by
  obtain ⟨g, opt, F, g', opt', F', e, e', hg, hg', x, hx⟩ := h
  exact ⟨g', opt', F', g, opt, F, e', e, hg', hg, x, fun h => hx h.symm⟩

theorem NeverTogether.symm {s s' : Surf σ ℝ E} (h : NeverTogether s s') : NeverTogether s' s := fun r t ht ht' => h r t ht' ht

theorem plant_distinct (hg : rectPlateGM W L = .ok g) (hg' : rectPlateGM x y = .ok g') (hF : F.Rigid) {center : V3 ℝ} {radius : ℝ}
    (h0 : 0 ≤ ρ) (h0' : 0 ≤ ρ') (hρ : (W ^ 2 + L ^ 2) / 4 ≤ ρ ^ 2) (hρ' : (x ^ 2 + y ^ 2) / 4 ≤ ρ' ^ 2)
    (hO : OpenField positions ρ ρ' F.loc center radius) : Distinct (plantObjs positions g g' absorpt az el H F get set) := by
  have h1' : (0 : ℝ) ≤ ρ' + 1 / 10 ^ 10 := by positivity
  have far : ∀ p ∈ positions, (ρ + (ρ' + 1 / 10 ^ 10)) ^ 2 < V3.dist2 p F.loc := fun p hp => by
    have := hO.receiver p hp
    rwa [← add_assoc]
  have hf : ∀ (k : Nat) (p : V3 ℝ), positions[k]? = some p → NeverTogether (mkSurf g (absorberReflector absorpt) (aimTransform az el H p) : Surf σ ℝ E)
      (mkSurf g' (reflectiveReceiver 1 get set) F) := fun k p hp =>
    metIn_apart h0 h1' (helio_metIn hg hρ _ p) (front_metIn hg' hF hρ' h0' _) (far p (List.mem_of_getElem? hp))
  have hb : ∀ (k : Nat) (p : V3 ℝ), positions[k]? = some p → NeverTogether (mkSurf g (absorberReflector absorpt) (aimTransform az el H p) : Surf σ ℝ E)
      (mkSurf g' (reflective 1) (F * ⟨1, ⟨0, 0, -(1 / 10 ^ 10)⟩⟩)) := fun k p hp =>
    metIn_apart h0 h1' (helio_metIn hg hρ _ p) (back_metIn hg' hF hρ' h0' _) (far p (List.mem_of_getElem? hp))
  intro k k' s s' hs hs' hne
  rcases plant_nth hs with ⟨p, hp, rfl⟩ | ⟨rfl, rfl⟩ | ⟨rfl, rfl⟩ <;> rcases plant_nth hs' with ⟨q, hq, rfl⟩ | ⟨rfl, rfl⟩ | ⟨rfl, rfl⟩
  · right
    refine metIn_apart h0 h0 (helio_metIn hg hρ _ p) (helio_metIn hg hρ _ q) ?_
    rw [← two_mul]
    exact hO.heliostats k k' p q hne hp hq
  · exact Or.inr (hf _ p hp)
  · exact Or.inr (hb _ p hp)
  · exact Or.inr (hf _ q hq).symm
  · exact absurd rfl hne
  · exact Or.inl (front_back hg' hF _ _)
  · exact Or.inr (hb _ q hq).symm
  · exact Or.inl (front_back hg' hF _ _).symm
  · exact absurd rfl hne

/-- The rays of the disk start in the disk, with a direction of unit length. -/
theorem sunRay_start {center direction : V3 ℝ} {radius ang flux : ℝ} (hdir : direction.IsUnit) (extra : E) {d : (ℝ × ℝ) × (ℝ × ℝ)}
    (hd : d ∈ angleDraws ×ˢ draws) : V3.dist2 center (sunRay center direction radius ang flux extra d).vertex ≤ radius ^ 2 ∧
      (sunRay center direction radius ang flux extra d).dir.IsUnit := by
  obtain ⟨r1, r2, -⟩ := C27_rotation_to_z hdir
  constructor
  · have hd2 : d.2.1 ∈ Set.Ico (0 : ℝ) 1 := hd.2.1
    set u : V3 ℝ := ⟨radius * √d.2.1 * cos d.2.2, radius * √d.2.1 * sin d.2.2, 0⟩ with hu
    have hv : (sunRay center direction radius ang flux extra d).vertex = (rotationToZ direction).mulVec u + center := rfl
    have e1 : V3.dist2 center ((rotationToZ direction).mulVec u + center) = V3.dot ((rotationToZ direction).mulVec u) ((rotationToZ direction).mulVec u) := by
      generalize (rotationToZ direction).mulVec u = v
      rw [dist2_eq]
      simp only [V3.dot, V3.add_x, V3.add_y, V3.add_z]
      ring
    rw [hv, e1, r1.dot]
    have e2 : V3.dot u u = radius ^ 2 * (√d.2.1 ^ 2 * (cos d.2.2 ^ 2 + sin d.2.2 ^ 2)) := by
      rw [hu]
      simp only [V3.dot]
      ring
    rw [e2, cos_sq_add_sin_sq, mul_one, sq_sqrt hd2.1]
    nlinarith [sq_nonneg radius, hd2.2.le]
  · show V3.dot ((rotationToZ direction).mulVec _) ((rotationToZ direction).mulVec _) = 1
    rw [r1.dot]
    exact pillbox_unit _ _ _

theorem plant_start (hg : rectPlateGM W L = .ok g) (hg' : rectPlateGM x y = .ok g') (hF : F.Rigid) {center direction : V3 ℝ} {radius ang flux : ℝ}
    (h0 : 0 ≤ ρ) (h0' : 0 ≤ ρ') (hρ : (W ^ 2 + L ^ 2) / 4 ≤ ρ ^ 2) (hρ' : (x ^ 2 + y ^ 2) / 4 ≤ ρ' ^ 2)
    (hO : OpenField positions ρ ρ' F.loc center radius) (hdir : direction.IsUnit) (hr : 0 < radius) (extra : E) :
    ∀ d ∈ angleDraws ×ˢ draws, ∀ o ∈ plantObjs positions g g' absorpt az el H F get set, ∀ s ∈ o.surfs, ∀ t : ℝ,
      s.single (sunRay center direction radius ang flux extra d) = (t : WithTop ℝ) → t ≤ 1 / 10 ^ 10 ∨ 1 / 10 ^ 6 < t := by
  intro d hd o ho s hs t ht
  right
  obtain ⟨hv, hu⟩ := sunRay_start (center := center) (radius := radius) (ang := ang) (flux := flux) hdir extra hd
  have hrec : (radius + (ρ' + 1 / 10 ^ 10) + 1 / 10 ^ 6) ^ 2 < V3.dist2 center F.loc := by
    refine lt_of_le_of_lt ?_ hO.diskReceiver
    apply pow_le_pow_left₀ (by positivity)
    linarith [show (1 : ℝ) / 10 ^ 10 + 1 / 10 ^ 6 ≤ 1 / 10 ^ 5 by norm_num]
  have hsun : ∀ p ∈ positions, (radius + ρ + 1 / 10 ^ 6) ^ 2 < V3.dist2 center p := by
    intro p hp
    refine lt_of_le_of_lt ?_ (hO.disk p hp)
    apply pow_le_pow_left₀ (by positivity)
    linarith [show (1 : ℝ) / 10 ^ 6 ≤ 1 / 10 ^ 5 by norm_num]
  rcases List.mem_append.1 ho with ho | ho
  · obtain ⟨p, hp, rfl⟩ := List.mem_map.1 ho
    rw [List.mem_singleton.1 hs] at ht
    exact metIn_start h0 hr.le (helio_metIn hg hρ _ p) (hsun p hp) hv hu ht
  · rw [List.mem_singleton] at ho
    subst ho
    simp only [receiverObj, List.mem_cons, List.not_mem_nil, or_false] at hs
    rcases hs with rfl | rfl
    · exact metIn_start (by positivity) hr.le (front_metIn hg' hF hρ' h0' _) hrec hv hu ht
    · exact metIn_start (by positivity) hr.le (back_metIn hg' hF hρ' h0' _) hrec hv hu ht

/-- What is built from a field and a receiver is their objects, after any calls that end with `aim_to_sun`. -/
theorem tower_objs (hW : 0 < W) (hL : 0 < L) (hx : 0 < x) (hy : 0 < y) {th : ℝ} {junk junk' : M3 ℝ} {t : Tower σ E}
    (ht : Tower.new positions W L absorpt th x y F get set junk junk' = .ok t) (ops : List HelioOp) :
    ∃ g g' : Geometry ℝ E, rectPlateGM W L = .ok g ∧ rectPlateGM x y = .ok g' ∧
      (t.onField (runHelio (ops ++ [.aim az el]))).plant.scene = plantObjs positions g g' absorpt az el (heightAfter th ops) F get set := by
  obtain ⟨g, hg⟩ := (C31_constructor (K := ℝ) (E := E) W L).1 ⟨hW, hL⟩
  obtain ⟨g', hg'⟩ := (C31_constructor (K := ℝ) (E := E) x y).1 ⟨hx, hy⟩
  obtain ⟨t', ht', hobjs⟩ := tower_scene (σ := σ) (positions := positions) (a := absorpt) (th := th) hg hg' F get set junk junk' ops az el
  rw [ht] at ht'
  obtain rfl := Except.ok.inj ht'
  refine ⟨g, g', hg, hg', ?_⟩
  unfold Asm.scene plantObjs
  rw [hobjs, List.map_append, List.map_map]
  rfl
end

/-- C119: a heliostat field and its receiver, with room around every plate, after any history of calls that ends with `aim_to_sun`, under the rays of
`solar_disk_bundle` from any direction.  With at least `B^2/(2 ε^2) log(2 N/η)` rays, where `B = π radius^2 flux` is the power of the disk, the reports of
all the `N` cells of a flux map of the receiver are right within `ε` with a probability of at least `1 - η`, after any number of reflections. -/
theorem C119_tower [MeasurableSpace Ω] {μ : Measure Ω} [IsProbabilityMeasure μ] {positions : List (V3 ℝ)} {W L absorpt th x y az el ρ ρ' m : ℝ} {F : Tf ℝ}
    {get : σ → Account ℝ} {set : Account ℝ → σ → σ} (hW : 0 < W) (hL : 0 < L) (hx : 0 < x) (hy : 0 < y) (hF : F.Rigid) (ha0 : 0 ≤ absorpt) (ha1 : absorpt ≤ 1)
    {junk junk' : M3 ℝ} {t : Tower σ E} (ht : Tower.new positions W L absorpt th x y F get set junk junk' = .ok t) (ops : List HelioOp)
    (hgs : ∀ acc w, get (set acc w) = acc) {w : σ} (hw : get w = Account.reset)
    {center direction : V3 ℝ} {radius ang flux : ℝ} (h0 : 0 ≤ ρ) (h0' : 0 ≤ ρ') (hρ : (W ^ 2 + L ^ 2) / 4 ≤ ρ ^ 2) (hρ' : (x ^ 2 + y ^ 2) / 4 ≤ ρ' ^ 2)
    (hO : OpenField positions ρ ρ' F.loc center radius)
    (hdir : direction.IsUnit) (hr : 0 < radius) (hang : 0 ≤ ang) (hang1 : ang < π / 2) (hflux : 0 < flux) (extra : E) {reps : Nat}
    {D : Nat → Ω → angleDraws ×ˢ draws} (hD : ∀ i, Measurable (D i)) (hind : iIndepFun D μ) (hid : ∀ i, IdentDistrib (D i) (D 0) μ μ)
    (heven : ∀ S, MeasurableSet S → μ {ω | (D 0 ω).1 ∈ S} = volume (S ∩ angleDraws ×ˢ draws) / volume (angleDraws ×ˢ draws))
    (cells : Finset ι) {φ : ι → V3 ℝ → ℝ} (hφ : ∀ c ∈ cells, Weights (φ c)) (hφ1 : ∀ c ∈ cells, ∀ p, 0 ≤ φ c p ∧ φ c p ≤ 1)
    {power : ι → angleDraws ×ˢ draws → ℝ}
    (hpow : ∀ c ∈ cells, ∀ d : angleDraws ×ˢ draws, Collects (t.onField (runHelio (ops ++ [.aim az el]))).plant.scene w get (φ c)
      [sunRay center direction radius ang flux extra d.1] reps m (power c d))
    {n : Nat} (hn : 0 < n) {got : ι → Ω → ℝ}
    (hgot : ∀ c ∈ cells, ∀ ω, ∃ src b, solarDisk center direction radius ang (some flux) ((List.range n).map fun i => (D i ω).1.1)
      ((List.range n).map fun i => (D i ω).1.2) = .ok src ∧ src.rays extra = .ok b ∧
      Collects (t.onField (runHelio (ops ++ [.aim az el]))).plant.scene w get (φ c) b reps (m / n) (got c ω))
    {ε η : ℝ} (hε : 0 < ε) (hη : 0 < η) (henough : (π * radius ^ 2 * flux) ^ 2 / (2 * ε ^ 2) * log (2 * cells.card / η) ≤ n) :
    μ.real {ω | ∃ c ∈ cells, ε ≤ |got c ω - ∫ ω, power c (D 0 ω) ∂μ|} ≤ η := by
  obtain ⟨g, g', hg, hg', hscene⟩ := tower_objs (az := az) (el := el) hW hL hx hy ht ops
  rw [hscene] at hpow hgot
  exact C119_sun (plant_counted hg hg' ha0 ha1 hgs hw) (plant_flatMirrors hg hg' hF) (plant_distinct hg hg' hF h0 h0' hρ hρ' hO) hdir hr hang hang1 hflux extra
    (plant_start hg hg' hF h0 h0' hρ hρ' hO hdir hr extra) hD hind hid heven cells hφ hφ1 hpow hn hgot hε hη henough

/-- C114: for the same fields, almost surely, whatever the number of rays: a higher threshold makes the report of the receiver smaller, by at most the threshold for
each ray; more iterations make it greater, by at most the share of the power that the heliostats reflect so many times. -/
theorem C114_tower [MeasurableSpace Ω] {μ : Measure Ω} {positions : List (V3 ℝ)} {W L absorpt th x y az el ρ ρ' : ℝ} {F : Tf ℝ}
    {get : σ → Account ℝ} {set : Account ℝ → σ → σ} (hW : 0 < W) (hL : 0 < L) (hx : 0 < x) (hy : 0 < y) (hF : F.Rigid) (ha0 : 0 ≤ absorpt) (ha1 : absorpt ≤ 1)
    {junk junk' : M3 ℝ} {t : Tower σ E} (ht : Tower.new positions W L absorpt th x y F get set junk junk' = .ok t) (ops : List HelioOp)
    (hgs : ∀ acc w, get (set acc w) = acc) {w : σ} (hw : get w = Account.reset)
    {center direction : V3 ℝ} {radius ang flux : ℝ} (h0 : 0 ≤ ρ) (h0' : 0 ≤ ρ') (hρ : (W ^ 2 + L ^ 2) / 4 ≤ ρ ^ 2) (hρ' : (x ^ 2 + y ^ 2) / 4 ≤ ρ' ^ 2)
    (hO : OpenField positions ρ ρ' F.loc center radius)
    (hdir : direction.IsUnit) (hr : 0 < radius) (hang : 0 ≤ ang) (hang1 : ang < π / 2) (hflux : 0 ≤ flux) (extra : E)
    {D : Nat → Ω → angleDraws ×ˢ draws}
    (heven : ∀ i S, MeasurableSet S → μ {ω | (D i ω).1 ∈ S} = volume (S ∩ angleDraws ×ˢ draws) / volume (angleDraws ×ˢ draws)) :
    ∀ᵐ ω ∂μ, ∀ (n : Nat) (src : SourceBundle) (b : Bundle ℝ E), 0 < n →
      solarDisk center direction radius ang (some flux) ((List.range n).map fun i => (D i ω).1.1) ((List.range n).map fun i => (D i ω).1.2) = .ok src →
      src.rays extra = .ok b → ∀ (φ : V3 ℝ → ℝ), (∀ p, 0 ≤ φ p ∧ φ p ≤ 1) →
      (∀ (reps : Nat) (m m' e e' : ℝ), m ≤ m' → 0 ≤ m' → Collects (t.onField (runHelio (ops ++ [.aim az el]))).plant.scene w get φ b reps m e →
        Collects (t.onField (runHelio (ops ++ [.aim az el]))).plant.scene w get φ b reps m' e' → e' ≤ e ∧ e ≤ e' + n * m') ∧
      (∀ (reps reps' : Nat) (m e e' : ℝ), reps ≤ reps' → Collects (t.onField (runHelio (ops ++ [.aim az el]))).plant.scene w get φ b reps m e →
        Collects (t.onField (runHelio (ops ++ [.aim az el]))).plant.scene w get φ b reps' m e' →
        e ≤ e' ∧ e' ≤ e + (1 - absorpt) ^ reps * (π * radius ^ 2 * flux)) := by
  obtain ⟨g, g', hg, hg', hscene⟩ := tower_objs (az := az) (el := el) hW hL hx hy ht ops
  rw [hscene]
  exact C114_sun (plant_counted hg hg' ha0 ha1 hgs hw) (plant_flatMirrors hg hg' hF) (plant_distinct hg hg' hF h0 h0' hρ hρ' hO) hdir hr hang hang1 hflux extra
    (plant_start hg hg' hF h0 h0' hρ hρ' hO hdir hr extra) heven

/-! ### Two heliostats -/

/-- Two heliostats, eight apart, a tower of height ten, and a disk of radius 10 in a height of 100. -/
theorem Examples.two_open : OpenField [⟨4, 4, 0⟩, ⟨4, -4, 0⟩] 1 1 (towerFace 10).loc ⟨0, 0, 100⟩ 10 := by
  refine ⟨?_, ?_, ?_, ?_⟩
  · intro i j p q hij hi hj
    rcases i with _ | _ | i <;> rcases j with _ | _ | j <;> simp at hi hj hij <;> subst hi hj <;> norm_num [V3.dist2, V3.dot]
  · intro p hp
    simp at hp
    rcases hp with rfl | rfl <;> norm_num [V3.dist2, V3.dot, towerFace]
  · intro p hp
    simp at hp
    rcases hp with rfl | rfl <;> norm_num [V3.dist2, V3.dot]
  · norm_num [V3.dist2, V3.dot, towerFace]

/-- The field was aimed once, got another tower, and was aimed again; the rays come from the zenith, with half angle 5 mrad and flux 1000.  With enough rays, both the part of the
receiver's report from above 1 and the part from below are right within 1000, with a probability of 99 percent. -/
example (reps n : Nat) (hn : (π * 10 ^ 2 * 1000) ^ 2 / (2 * 1000 ^ 2) * log (2 * 2 / (1 / 100)) ≤ n) (hn0 : 0 < n) :
    ∃ (t : Tower (Account ℝ) Unit) (μ : Measure (Nat → (angleDraws ×ˢ draws : Set ((ℝ × ℝ) × (ℝ × ℝ)))))
      (power : Bool → (angleDraws ×ˢ draws : Set ((ℝ × ℝ) × (ℝ × ℝ))) → ℝ) (got : Bool → (Nat → (angleDraws ×ˢ draws : Set ((ℝ × ℝ) × (ℝ × ℝ)))) → ℝ),
      Tower.new [⟨4, 4, 0⟩, ⟨4, -4, 0⟩] 1 1 (1 / 10) 7 1 1 (towerFace 10) id (fun acc _ => acc) 1 1 = .ok t ∧ IsProbabilityMeasure μ ∧
      (∀ c d, Collects (t.onField (runHelio ([.aim 0 0, .height 10] ++ [.aim 0 (π / 2)]))).plant.scene Account.reset id (upper c)
        [sunRay ⟨0, 0, 100⟩ ⟨0, 0, -1⟩ 10 (5 / 1000) 1000 () d.1] reps 0 (power c d)) ∧
      (∀ c ω, ∃ src b, solarDisk ⟨0, 0, 100⟩ ⟨0, 0, -1⟩ 10 (5 / 1000) (some 1000) ((List.range n).map fun i => (ω i).1.1)
        ((List.range n).map fun i => (ω i).1.2) = .ok src ∧ src.rays () = .ok b ∧
        Collects (t.onField (runHelio ([.aim 0 0, .height 10] ++ [.aim 0 (π / 2)]))).plant.scene Account.reset id (upper c) b reps (0 / n) (got c ω)) ∧
      μ.real {ω | ∃ c ∈ (Finset.univ : Finset Bool), 1000 ≤ |got c ω - ∫ ω, power c (ω 0) ∂μ|} ≤ 1 / 100 := by
  obtain ⟨ν, hν, heven⟩ := even_pairs
  obtain ⟨μ, hμ, hD, hind, hid, hlaw⟩ := all_draws_exist ν
  obtain ⟨g, hg⟩ := (C31_constructor (K := ℝ) (E := Unit) 1 1).1 ⟨one_pos, one_pos⟩
  obtain ⟨t, ht, -⟩ := tower_scene (σ := Account ℝ) (positions := [⟨4, 4, 0⟩, ⟨4, -4, 0⟩]) (a := 1 / 10) (th := 7) hg hg (towerFace 10) id (fun acc _ => acc) 1 1
    [.aim 0 0, .height 10] 0 (π / 2)
  obtain ⟨g1, g2, hg1, hg2, hscene⟩ := tower_objs (az := 0) (el := π / 2) one_pos one_pos one_pos one_pos ht [.aim 0 0, .height 10]
  have hcs : CountedScene (1 - 1 / 10) (t.onField (runHelio ([.aim 0 0, .height 10] ++ [.aim 0 (π / 2)]))).plant.scene Account.reset id 1 := by
    rw [hscene]
    exact plant_counted hg1 hg2 (by norm_num) (by norm_num) (fun _ _ => rfl) rfl
  choose power hpow using fun c (d : (angleDraws ×ˢ draws : Set ((ℝ × ℝ) × (ℝ × ℝ)))) =>
    C113_exists hcs.watched (upper c) [sunRay ⟨0, 0, 100⟩ ⟨0, 0, -1⟩ 10 (5 / 1000) 1000 () d.1] reps 0
  have hex : ∀ c (ω : Nat → (angleDraws ×ˢ draws : Set ((ℝ × ℝ) × (ℝ × ℝ)))), ∃ e, ∃ src b,
      solarDisk ⟨0, 0, 100⟩ ⟨0, 0, -1⟩ 10 (5 / 1000) (some 1000) ((List.range n).map fun i => (ω i).1.1)
        ((List.range n).map fun i => (ω i).1.2) = .ok src ∧ src.rays () = .ok b ∧
        Collects (t.onField (runHelio ([.aim 0 0, .height 10] ++ [.aim 0 (π / 2)]))).plant.scene Account.reset id (upper c) b reps (0 / n) e := by
    intro c ω
    obtain ⟨src, h1⟩ : ∃ src, solarDisk ⟨0, 0, 100⟩ ⟨0, 0, -1⟩ 10 (5 / 1000) (some 1000) ((List.range n).map fun i => (ω i).1.1)
        ((List.range n).map fun i => (ω i).1.2) = .ok src := ⟨_, by unfold solarDisk; rw [if_neg (by simp; omega)]⟩
    obtain ⟨b, h2⟩ : ∃ b, src.rays () = .ok b := by
      unfold solarDisk at h1
      rw [if_neg (by simp; omega)] at h1
      cases h1
      exact ⟨_, rfl⟩
    obtain ⟨e, he⟩ := C113_exists hcs.watched (upper c) b reps (0 / n)
    exact ⟨e, src, b, h1, h2, he⟩
  choose got hgot using hex
  refine ⟨t, μ, power, got, ht, hμ, hpow, hgot, C119_tower (ρ := 1) (ρ' := 1) one_pos one_pos one_pos one_pos (towerFace_rigid 10) (by norm_num) (by norm_num) ht
    [.aim 0 0, .height 10] (fun _ _ => rfl) rfl (by norm_num) (by norm_num) (by norm_num) (by norm_num) Examples.two_open (by unfold V3.IsUnit; norm_num [V3.dot])
    (by norm_num) (by norm_num) (by linarith [pi_gt_three]) (by norm_num) () hD hind hid
    (fun S hS => by rw [← heven S hS]; exact hlaw {d | d.1 ∈ S} (measurable_subtype_coe hS)) Finset.univ (fun c _ => upper_weights c)
    (fun c _ p => by unfold upper; split <;> norm_num) (fun c _ => hpow c) hn0 (fun c _ => hgot c) (by norm_num) (by norm_num) ?_⟩
  rw [Finset.card_univ, Fintype.card_bool]
  exact_mod_cast hn

/-- In the same plant 3 iterations instead of any more take away at most 0.729 of the power, almost surely. -/
example {t : Tower (Account ℝ) Unit} (ht : Tower.new [⟨4, 4, 0⟩, ⟨4, -4, 0⟩] 1 1 (1 / 10) 7 1 1 (towerFace 10) id (fun acc _ => acc) 1 1 = .ok t) :
    ∃ (μ : Measure (Nat → (angleDraws ×ˢ draws : Set ((ℝ × ℝ) × (ℝ × ℝ))))) (_ : IsProbabilityMeasure μ), ∀ᵐ ω ∂μ, ∀ (n : Nat) (src : SourceBundle) (b : Bundle ℝ Unit),
    0 < n → solarDisk ⟨0, 0, 100⟩ ⟨0, 0, -1⟩ 10 (5 / 1000) (some 1000) ((List.range n).map fun i => (ω i).1.1) ((List.range n).map fun i => (ω i).1.2) = .ok src →
    src.rays () = .ok b → ∀ (reps : Nat) (e e' : ℝ), 3 ≤ reps →
    Collects (t.onField (runHelio ([.aim 0 0, .height 10] ++ [.aim 0 (π / 2)]))).plant.scene Account.reset id (fun _ => 1) b 3 0 e →
    Collects (t.onField (runHelio ([.aim 0 0, .height 10] ++ [.aim 0 (π / 2)]))).plant.scene Account.reset id (fun _ => 1) b reps 0 e' →
    e' ≤ e + (9 / 10) ^ 3 * (π * 10 ^ 2 * 1000) := by
  obtain ⟨ν, hν, heven⟩ := even_pairs
  obtain ⟨μ, hμ, hD, -, hid, hlaw⟩ := all_draws_exist ν
  refine ⟨μ, hμ, ?_⟩
  have hev : ∀ (i : Nat) S, MeasurableSet S → μ {ω | (ω i).1 ∈ S} = volume (S ∩ angleDraws ×ˢ draws) / volume (angleDraws ×ˢ draws) := by
    intro i S hS
    have hS' : MeasurableSet {d : (angleDraws ×ˢ draws : Set ((ℝ × ℝ) × (ℝ × ℝ))) | d.1 ∈ S} := measurable_subtype_coe hS
    rw [← heven S hS, ← hlaw {d | d.1 ∈ S} hS']
    exact (hid i).measure_mem_eq hS'
  have := C114_tower (az := 0) (el := π / 2) (ρ := 1) (ρ' := 1) (flux := 1000) (ang := 5 / 1000) (direction := ⟨0, 0, -1⟩) (w := Account.reset) one_pos one_pos one_pos one_pos
    (towerFace_rigid 10) (by norm_num) (by norm_num) ht
    [.aim 0 0, .height 10] (fun _ _ => rfl) rfl (by norm_num) (by norm_num) (by norm_num) (by norm_num) Examples.two_open (by unfold V3.IsUnit; norm_num [V3.dot])
    (by norm_num) (by norm_num) (by linarith [pi_gt_three]) (by norm_num) () hev
  filter_upwards [this] with ω hω n src b hn hs hb reps e e' hr he he'
  have := ((hω n src b hn hs hb (fun _ => 1) fun _ => by norm_num).2 3 reps 0 e e' hr he he').2
  norm_num at this ⊢
  exact this

end Tracer
