import Verif.Lemmas.TowerWindow
import Verif.Props.TowerField

/-!
# The window with the solar tower (C107)

`examples/tower_gui.py`: what the window shows after any history of what its user did, and what the flux map holds.
-/

namespace Tracer

open Real

variable {E σ : Type _}

theorem runHelio_pos (ops : List HelioOp) (f : HelioField σ E) : (runHelio ops f).pos = f.pos := by
  induction ops generalizing f with
  | nil => rfl
  | cons op ops ih =>
    have : runHelio (op :: ops) f = runHelio ops (runHelio [op] f) := by rw [← runHelio_append]; rfl
    rw [this, ih]
    cases op <;> rfl

theorem onField_pos (ops : List HelioOp) (t : Tower σ E) : (t.onField (runHelio ops)).pos = t.pos := by
  obtain ⟨pos, aim, plant⟩ := t
  obtain ⟨own, subs, objs⟩ := plant
  cases subs with
  | nil => rfl
  | cons sub subs =>
    unfold Tower.onField
    exact runHelio_pos ops _

theorem onField_nil (t : Tower σ E) : t.onField (runHelio []) = t := by
  obtain ⟨pos, aim, plant⟩ := t
  obtain ⟨own, subs, objs⟩ := plant
  cases subs <;> rfl

theorem heightAfter_aim (h : ℝ) (ops : List HelioOp) (az el : ℝ) : heightAfter h (ops ++ [.aim az el]) = heightAfter h ops := by
  induction ops generalizing h with
  | nil => rfl
  | cons op ops ih => cases op <;> exact ih _

/-- The plant of the window, built for the distances `d`, was then aimed only. -/
def Tower.Of (get : σ → Account ℝ) (set : Account ℝ → σ → σ) (junk junk' : M3 ℝ) (d : ℝ × ℝ) (ops : List HelioOp) (tower : Tower σ E) : Prop :=
  ∃ t, Tower.new (towerPositions d.2 d.1) (1 / 2) (1 / 2) 0 10 1 1 (towerFace 10) get set junk junk' = .ok t ∧ heightAfter 10 ops = 10 ∧
    tower = t.onField (runHelio ops)

section
variable {get : σ → Account ℝ} {set : Account ℝ → σ → σ} {junk junk' : M3 ℝ} {d p : ℝ × ℝ} {tower : Tower σ E} {ops : List HelioOp}
  {extra : E}

theorem half_plate : ∃ g : Geometry ℝ E, rectPlateGM (1 / 2) (1 / 2) = .ok g :=
  (C31_constructor (K := ℝ) (E := E) (1 / 2) (1 / 2)).1 ⟨by norm_num, by norm_num⟩

theorem unit_plate : ∃ g : Geometry ℝ E, rectPlateGM 1 1 = .ok g :=
  (C31_constructor (K := ℝ) (E := E) 1 1).1 ⟨by norm_num, by norm_num⟩

theorem Tower.Of.pos (h : tower.Of get set junk junk' d ops) : tower.pos = towerPositions d.2 d.1 := by
  obtain ⟨t, h1, _, rfl⟩ := h
  obtain ⟨g, hg⟩ := half_plate (E := E)
  obtain ⟨g', hg'⟩ := unit_plate (E := E)
  obtain ⟨t', h1', hpos, _⟩ := tower_new_scene (σ := σ) (positions := towerPositions d.2 d.1) (th := 10) hg hg' (towerFace 10) get set junk junk'
  rw [h1] at h1'
  cases h1'
  rw [onField_pos, hpos]

theorem Tower.Of.aim (h : tower.Of get set junk junk' d ops) (az el : ℝ) :
    (tower.onField (HelioField.aimToSun az el)).Of get set junk junk' d (ops ++ [.aim az el]) := by
  obtain ⟨t, h1, h2, rfl⟩ := h
  refine ⟨t, h1, by rw [heightAfter_aim, h2], ?_⟩
  rw [onField_onField]
  congr 1
  funext x
  rw [runHelio_append]
  rfl

/-- The objects of the aimed plant. -/
theorem Tower.Of.objects {az el : ℝ} (h : tower.Of get set junk junk' d (ops ++ [.aim az el])) {g g' : Geometry ℝ E}
    (hg : rectPlateGM (1 / 2) (1 / 2) = .ok g) (hg' : rectPlateGM 1 1 = .ok g') :
    tower.plant.getObjects = plantNodes ((towerPositions d.2 d.1).map (aimTransform az el 10)) g g' (towerFace 10) get set := by
  obtain ⟨t, h1, h2, rfl⟩ := h
  rw [heightAfter_aim] at h2
  obtain ⟨t', h1', hobj⟩ := tower_scene (σ := σ) (positions := towerPositions d.2 d.1) (a := 0) (th := 10) hg hg' (towerFace 10) get set junk junk'
    ops az el
  rw [h1] at h1'
  cases h1'
  rw [hobj, h2]
  unfold plantNodes
  rw [List.map_map]
  rfl

theorem aimed_frames {az el H : ℝ} {positions : List (V3 ℝ)} : ∀ T ∈ positions.map (aimTransform az el H), T.Rigid := by
  intro T hT
  obtain ⟨p, _, rfl⟩ := List.mem_map.1 hT
  exact aimTransform_rigid _ _ _ p

theorem towerRays_ok (positions : List (V3 ℝ)) (az el : ℝ) (ref : Option ℝ) (extra : E) :
    ∀ r ∈ towerRays positions az el ref extra, r.dir.IsUnit ∧ r.energy = 1 := by
  intro r hr
  obtain ⟨p, _, rfl⟩ := List.mem_map.1 hr
  refine ⟨?_, rfl⟩
  have := (C59_solar_vector az el).1
  unfold V3.IsUnit V3.dot at this ⊢
  simpa using this

/-- What holds of the window after any history: the plant is the one for the distances `d`, aimed at the sun at `p`, and the lines were drawn
from a trace of that plant. -/
structure TowerHolds (get : σ → Account ℝ) (set : Account ℝ → σ → σ) (junk junk' : M3 ℝ) (extra : E) (d p : ℝ × ℝ) (s : TowerShown σ E) : Prop where
  az : s.1.az = p.1
  el : s.1.el = p.2
  tower : ∃ ops, s.1.tower.Of get set junk junk' d (ops ++ [.aim (p.1 * degree) (p.2 * degree)])
  plot : ∃ w, firstPlot s.1.tower.plant.scene w (towerRays (towerPositions d.2 d.1) (p.1 * degree) (p.2 * degree) none extra) = .ok s.2

theorem aimField_holds {s : TowerWindow σ E} (h : ∃ ops, s.tower.Of get set junk junk' d ops) :
    ∃ s', s.aimField extra = .ok s' ∧ TowerHolds get set junk junk' extra d (s.az, s.el) s' := by
  obtain ⟨g, hg⟩ := half_plate (E := E)
  obtain ⟨g', hg'⟩ := unit_plate (E := E)
  obtain ⟨ops, h⟩ := h
  have ha := h.aim (s.az * degree) (s.el * degree)
  obtain ⟨res, points, connections, hplot, _⟩ := plant_plot hg hg' (towerFace_rigid 10) aimed_frames (ha.objects hg hg') (w := s.world)
    (towerRays_ok (towerPositions d.2 d.1) (s.az * degree) (s.el * degree) none extra)
  have hrays : s.rays extra = towerRays (towerPositions d.2 d.1) (s.az * degree) (s.el * degree) none extra := by
    unfold TowerWindow.rays
    rw [h.pos]
  refine ⟨(⟨s.tower.onField (HelioField.aimToSun (s.az * degree) (s.el * degree)), s.az, s.el, res.world⟩, res, points, connections), ?_,
    rfl, rfl, ⟨ops, ha⟩, s.world, hplot⟩
  unfold TowerWindow.aimField
  simp only [hrays, hplot]

theorem genPlant_ok (hd : d.1 ≠ 0 ∧ d.2 ≠ 0) : ∃ t : Tower σ E, genPlant d.1 d.2 get set junk junk' = .ok t ∧ t.Of get set junk junk' d [] := by
  obtain ⟨g, hg⟩ := half_plate (E := E)
  obtain ⟨g', hg'⟩ := unit_plate (E := E)
  obtain ⟨t, h1, _, _⟩ := tower_new_scene (σ := σ) (positions := towerPositions d.2 d.1) (th := 10) hg hg' (towerFace 10) get set junk junk'
  refine ⟨t, ?_, t, h1, rfl, (onField_nil t).symm⟩
  unfold genPlant
  rw [if_neg (by rintro (h | h); exacts [hd.1 h, hd.2 h]), h1]

theorem new_holds (hd : d.1 ≠ 0 ∧ d.2 ≠ 0) (p : ℝ × ℝ) (w : σ) :
    ∃ s, TowerWindow.new d.1 d.2 p.1 p.2 get set junk junk' w extra = .ok s ∧ TowerHolds get set junk junk' extra d p s := by
  obtain ⟨g, hg⟩ := half_plate (E := E)
  obtain ⟨g', hg'⟩ := unit_plate (E := E)
  obtain ⟨t, h1, hof⟩ := genPlant_ok (get := get) (set := set) (junk := junk) (junk' := junk') (E := E) hd
  obtain ⟨t', h2, hpos, hobj⟩ := tower_new_scene (σ := σ) (positions := towerPositions d.2 d.1) (th := 10) hg hg' (towerFace 10) get set junk junk'
  have ht : t' = t := by
    obtain ⟨t0, h3, _, h4⟩ := hof
    rw [h2] at h3
    cases h3
    rw [h4, onField_nil]
  subst ht
  obtain ⟨res, points, connections, hplot, _⟩ := plant_plot hg hg' (towerFace_rigid 10) (fun T hT => by
      obtain ⟨q, _, rfl⟩ := List.mem_map.1 hT
      exact (C26_rigid π 0 0 0).1) hobj (w := set Account.reset w)
    (towerRays_ok t'.pos (p.1 * degree) (p.2 * degree) none extra)
  obtain ⟨s, hs, hh⟩ := aimField_holds (extra := extra) (s := (⟨t', p.1, p.2, res.world⟩ : TowerWindow σ E)) ⟨[], hof⟩
  refine ⟨s, ?_, hh⟩
  unfold TowerWindow.new TowerWindow.rays
  simp only [h1, hplot, hs]

theorem replacePlant_holds {s : TowerWindow σ E} (hd : d.1 ≠ 0 ∧ d.2 ≠ 0) :
    ∃ s', s.replacePlant d.1 d.2 get set junk junk' extra = .ok s' ∧ TowerHolds get set junk junk' extra d (s.az, s.el) s' := by
  obtain ⟨t, h1, hof⟩ := genPlant_ok (get := get) (set := set) (junk := junk) (junk' := junk') (E := E) hd
  obtain ⟨s', hs, hh⟩ := aimField_holds (extra := extra) (s := (⟨t, s.az, s.el, set Account.reset s.world⟩ : TowerWindow σ E)) ⟨[], hof⟩
  refine ⟨s', ?_, hh⟩
  unfold TowerWindow.replacePlant
  simp only [h1, hs]

/-! ### The rays for the flux map -/

theorem replicate_flatten_getElem? {α : Type _} (l : List α) (n k : Nat) (hk : k < n * l.length) :
    (List.replicate n l).flatten[k]? = l[k % l.length]? := by
  induction n generalizing k with
  | zero => simp at hk
  | succ n ih =>
    rw [List.replicate_succ, List.flatten_cons]
    rcases Nat.lt_or_ge k l.length with h | h
    · rw [List.getElem?_append_left h, Nat.mod_eq_of_lt h]
    · rw [List.getElem?_append_right h, ih _ (by rw [Nat.succ_mul] at hk; omega), ← Nat.mod_eq_sub_mod h]

theorem neg_isUnit {v : V3 ℝ} (h : v.IsUnit) : (-v).IsUnit := by
  unfold V3.IsUnit V3.dot at h ⊢
  simpa using h

/-- C107: for the flux map there are `n` rays for each heliostat.  Each of them has energy 1 and a direction within 4.65 mrad of the middle of the
sun, and after one unit of length it is in the square of side 0.5 around its heliostat, in the plane that faces the sun. -/
theorem C107_rays {n : Nat} {pos : List (V3 ℝ)} {az el : ℝ} {dirDraws xy : List (ℝ × ℝ)} (extra : E)
    (hd : dirDraws.length = n * pos.length ∧ ∀ d ∈ dirDraws, 0 ≤ d.2 ∧ d.2 ≤ 1)
    (hq : xy.length = n * pos.length ∧ ∀ q ∈ xy, |q.1| ≤ 1 / 4 ∧ |q.2| ≤ 1 / 4) :
    (fluxRays n pos az el dirDraws xy extra).length = n * pos.length ∧
    ∃ u v, Orthonormal3 u v (-solarVector az el) ∧ ∀ k r, (fluxRays n pos az el dirDraws xy extra)[k]? = some r →
      ∃ p, pos[k % pos.length]? = some p ∧ r.energy = 1 ∧ r.dir.IsUnit ∧ deviation r.dir (-solarVector az el) ≤ 465 / 100000 ∧
        OnSquare p (-solarVector az el) u v (1 / 2) (r.vertex + (1 : ℝ) • r.dir) := by
  have hu := neg_isUnit (C59_solar_vector az el).1
  obtain ⟨r1, r2, _⟩ := C27_rotation_to_z hu
  have hort := r1.orthonormal
  rw [r2] at hort
  obtain ⟨hcl, hcone⟩ := C55_cone (ang := 465 / 100000) (by norm_num) (by linarith [pi_gt_three]) hd.2
  have hlen : (fluxRays n pos az el dirDraws xy extra).length = n * pos.length := by
    unfold fluxRays
    simp [hcl, hd.1, hq.1]
  refine ⟨hlen, _, _, hort, ?_⟩
  intro k r hr
  have hk : k < n * pos.length := hlen ▸ (List.getElem?_eq_some_iff.1 hr).1
  unfold fluxRays at hr
  simp only [List.getElem?_zipWith_eq_some] at hr
  obtain ⟨b, dir, ⟨p, q, hp, hqk, rfl⟩, hdir, rfl⟩ := hr
  rw [replicate_flatten_getElem? _ _ _ hk] at hp
  obtain ⟨v, hv, rfl⟩ := List.mem_map.1 (List.mem_of_getElem? hdir)
  obtain ⟨v1, v2⟩ := hcone v hv
  obtain ⟨q1, q2⟩ := hq.2 q (List.mem_of_getElem? hqk)
  refine ⟨p, hp, rfl, ?_, ?_, ?_⟩
  · change ((rotationToZ (-solarVector az el)).mulVec v).IsUnit
    unfold V3.IsUnit at *
    rw [r1.dot]
    exact v1
  · unfold deviation at *
    rw [rotationToZ_dot_axis hu]
    simpa [V3.dot] using v2
  · generalize (rotationToZ (-solarVector az el)) = R at hort ⊢
    generalize -solarVector az el = ax at hort ⊢
    obtain ⟨o1, o2, _, o4, o5, o6⟩ := hort
    have e : p + (q.1 • R.c1 + q.2 • R.c2) - R.mulVec v + (1 : ℝ) • R.mulVec v - p = q.1 • R.c1 + q.2 • R.c2 := by
      apply V3.ext <;> simp
    unfold OnSquare
    simp only
    rw [e]
    have d0 : V3.dot (q.1 • R.c1 + q.2 • R.c2) ax = 0 := by
      unfold V3.dot at *
      simp only [V3.add_x, V3.add_y, V3.add_z, V3.smul_x, V3.smul_y, V3.smul_z]
      linear_combination q.1 * o5 + q.2 * o6
    have d1 : V3.dot (q.1 • R.c1 + q.2 • R.c2) R.c1 = q.1 := by
      unfold V3.dot at *
      simp only [V3.add_x, V3.add_y, V3.add_z, V3.smul_x, V3.smul_y, V3.smul_z]
      linear_combination q.1 * o1 + q.2 * o4
    have d2 : V3.dot (q.1 • R.c1 + q.2 • R.c2) R.c2 = q.2 := by
      unfold V3.dot at *
      simp only [V3.add_x, V3.add_y, V3.add_z, V3.smul_x, V3.smul_y, V3.smul_z]
      linear_combination q.1 * o4 + q.2 * o2
    rw [d0, d1, d2]
    refine ⟨rfl, ?_, ?_⟩
    · linarith
    · linarith

theorem fluxRays_ok {n : Nat} {pos : List (V3 ℝ)} {az el : ℝ} {dirDraws xy : List (ℝ × ℝ)} (extra : E)
    (hd : ∀ d ∈ dirDraws, 0 ≤ d.2 ∧ d.2 ≤ 1) : ∀ r ∈ fluxRays n pos az el dirDraws xy extra, r.dir.IsUnit ∧ r.energy = 1 := by
  intro r hr
  obtain ⟨k, hk⟩ := List.getElem?_of_mem hr
  unfold fluxRays at hk
  simp only [List.getElem?_zipWith_eq_some] at hk
  obtain ⟨b, dir, _, hdir, rfl⟩ := hk
  obtain ⟨v, hv, rfl⟩ := List.mem_map.1 (List.mem_of_getElem? hdir)
  obtain ⟨v1, _⟩ := (C55_cone (ang := 465 / 100000) (by norm_num) (by linarith [pi_gt_three]) hd).2 v hv
  refine ⟨?_, rfl⟩
  obtain ⟨r1, _, _⟩ := C27_rotation_to_z (neg_isUnit (C59_solar_vector az el).1)
  change ((rotationToZ (-solarVector az el)).mulVec v).IsUnit
  unfold V3.IsUnit at *
  rw [r1.dot]
  exact v1

/-- The flux map of a window that holds what it should. -/
theorem fluxMap_holds (hgs : ∀ acc w, get (set acc w) = acc) {s : TowerShown σ E} (h : TowerHolds get set junk junk' extra d p s)
    {dirDraws xy : List (ℝ × ℝ)} (hd : ∀ e ∈ dirDraws, 0 ≤ e.2 ∧ e.2 ≤ 1) :
    ∃ (s' : TowerWindow σ E) (res : TraceResult σ ℝ E) (H : List (List ℝ)),
      s.1.fluxMap dirDraws xy get set extra = .ok (s', res, H) ∧ TowerHolds get set junk junk' extra d p (s', s.2) ∧
      s'.tower = s.1.tower ∧
      (∃ w0, get w0 = Account.reset ∧ rayTracer s.1.tower.plant.scene w0
        (fluxRays 1000 (towerPositions d.2 d.1) (p.1 * degree) (p.2 * degree) dirDraws xy extra) 1000 (1 / 20) true = .ok res) ∧
      res.tree.head? = some (fluxRays 1000 (towerPositions d.2 d.1) (p.1 * degree) (p.2 * degree) dirDraws xy extra) ∧
      (H.length = 50 ∧ ∀ row ∈ H, row.length = 50) ∧ cellTotal H = (get res.world).absorbed.flatten.sum ∧
      ((∀ lvl ∈ res.tree, ∀ r ∈ lvl, NoTie Surf.single (s.1.tower.plant.scene.flatMap Obj.surfs) r) →
        cellTotal H ≤ (fluxRays 1000 (towerPositions d.2 d.1) (p.1 * degree) (p.2 * degree) dirDraws xy extra).length) := by
  obtain ⟨g, hg⟩ := half_plate (E := E)
  obtain ⟨g', hg'⟩ := unit_plate (E := E)
  obtain ⟨h1, h2, ⟨ops, h3⟩, h4⟩ := h
  obtain ⟨res, H, hres, hH, hhead, hsize, hcell, hle⟩ := plant_map hg hg' (towerFace_rigid 10) aimed_frames (h3.objects hg hg') hgs
    (w := set Account.reset s.1.world) (hgs _ _)
    (fluxRays_ok (n := 1000) (pos := towerPositions d.2 d.1) (az := p.1 * degree) (el := p.2 * degree) (xy := xy) extra hd) 1000
  refine ⟨{ s.1 with world := res.world }, res, H, ?_, ⟨h1, h2, ⟨ops, h3⟩, h4⟩, rfl, ⟨_, hgs _ _, hres⟩, hhead, hsize, hcell, hle⟩
  unfold TowerWindow.fluxMap
  simp only [h1, h2, h3.pos, hres, hH]

/-- What holds after any history. -/
theorem events_hold (hgs : ∀ acc w, get (set acc w) = acc) {es : List TowerEvent} (hes : ∀ e ∈ es, e.Allowed) {s : TowerShown σ E}
    (h : TowerHolds get set junk junk' extra d p s) :
    ∃ s', towerEvents get set junk junk' extra s es = .ok s' ∧
      TowerHolds get set junk junk' extra (distances d es) (sunPlace p es) s' := by
  induction es generalizing d p s with
  | nil => exact ⟨s, rfl, h⟩
  | cons e es ih =>
    have hes' := fun e he => hes e (List.mem_cons_of_mem _ he)
    have he := hes e (List.mem_cons_self ..)
    cases e with
    | sun az el =>
      obtain ⟨ops, h3⟩ := h.tower
      obtain ⟨s1, hs1, hh1⟩ := aimField_holds (extra := extra) (s := { s.1 with az := az, el := el }) ⟨_, h3⟩
      obtain ⟨s2, hs2, hh2⟩ := ih hes' hh1
      refine ⟨s2, ?_, hh2⟩
      simp only [towerEvents, hs1, hs2]
    | place radialRes angRes =>
      obtain ⟨s1, hs1, hh1⟩ := replacePlant_holds (get := get) (set := set) (junk := junk) (junk' := junk') (extra := extra) (s := s.1)
        (d := (radialRes, angRes)) he
      rw [h.az, h.el] at hh1
      obtain ⟨s2, hs2, hh2⟩ := ih hes' hh1
      refine ⟨s2, ?_, hh2⟩
      simp only [towerEvents, hs1, hs2]
    | fluxMap dirDraws xy =>
      obtain ⟨s', res, H, hs1, hh1, _⟩ := fluxMap_holds hgs h (xy := xy) he
      obtain ⟨s2, hs2, hh2⟩ := ih hes' hh1
      refine ⟨s2, ?_, hh2⟩
      simp only [towerEvents, hs1, hs2]

end

section
variable {get : σ → Account ℝ} {set : Account ℝ → σ → σ} (hgs : ∀ acc w, get (set acc w) = acc) (junk junk' : M3 ℝ) (extra : E)
  {radialRes angRes : ℝ}
include hgs

/-- C107: with distances that are not zero the window opens, wherever the sun is, and whatever is then done in it raises no exception. -/
theorem C107_runs (hd : radialRes ≠ 0 ∧ angRes ≠ 0) (az el : ℝ) (w : σ) {es : List TowerEvent} (hes : ∀ e ∈ es, e.Allowed) :
    ∃ s s', TowerWindow.new radialRes angRes az el get set junk junk' w extra = .ok s ∧ towerEvents get set junk junk' extra s es = .ok s' := by
  obtain ⟨s, hs, hh⟩ := new_holds (get := get) (set := set) (junk := junk) (junk' := junk') (extra := extra) (d := (radialRes, angRes)) hd (az, el) w
  obtain ⟨s', hs', _⟩ := events_hold hgs hes hh
  exact ⟨s, s', hs, hs'⟩

variable {junk junk' extra} {az el : ℝ} {w : σ} {s s' : TowerShown σ E} {es : List TowerEvent}

theorem reached_holds (hd : radialRes ≠ 0 ∧ angRes ≠ 0) (hes : ∀ e ∈ es, e.Allowed)
    (hnew : TowerWindow.new radialRes angRes az el get set junk junk' w extra = .ok s)
    (hrun : towerEvents get set junk junk' extra s es = .ok s') :
    TowerHolds get set junk junk' extra (distances (radialRes, angRes) es) (sunPlace (az, el) es) s' := by
  obtain ⟨s0, hs0, hh⟩ := new_holds (get := get) (set := set) (junk := junk) (junk' := junk') (extra := extra) (d := (radialRes, angRes)) hd (az, el) w
  rw [hnew] at hs0
  cases hs0
  obtain ⟨s1, hs1, hh1⟩ := events_hold hgs hes hh
  rw [hrun] at hs1
  cases hs1
  exact hh1

/-- C107: after any history, the rays that the window shows start at one unit of length towards the sun from each heliostat; the places of the
heliostats are those for the distances in the form, and the sun is where the sliders are.  The rays of the trace have energy 0 or 1.  The
lines go from the start of every ray to the starts of its children, and along every ray that has energy left and no child, by one unit of
length; there are no other lines. -/
theorem C107_shows (hd : radialRes ≠ 0 ∧ angRes ≠ 0) (hes : ∀ e ∈ es, e.Allowed)
    (hnew : TowerWindow.new radialRes angRes az el get set junk junk' w extra = .ok s)
    (hrun : towerEvents get set junk junk' extra s es = .ok s') :
    let d := distances (radialRes, angRes) es
    let q := sunPlace (az, el) es
    let tree := s'.2.1.tree
    tree.head? = some (towerRays (towerPositions d.2 d.1) (q.1 * degree) (q.2 * degree) none extra) ∧
    (∀ lvl ∈ tree, ∀ r ∈ lvl, r.energy = 0 ∨ r.energy = 1) ∧
    ∀ p p', Drawn s'.2.2.1 s'.2.2.2 p p' ↔ ToChild tree p p' ∨
      ∃ k i r, InTree tree k i r ∧ r.energy ≠ 0 ∧ (∀ j c, InTree tree (k + 1) j c → c.parent ≠ i) ∧
        p = r.vertex ∧ p' = r.vertex + (1 : ℝ) • r.dir := by
  obtain ⟨g, hg⟩ := half_plate (E := E)
  obtain ⟨g', hg'⟩ := unit_plate (E := E)
  obtain ⟨_, _, ⟨ops, h3⟩, w', h4⟩ := reached_holds hgs hd hes hnew hrun
  obtain ⟨res, points, connections, hplot, h⟩ := plant_plot hg hg' (towerFace_rigid 10) aimed_frames (h3.objects hg hg') (w := w')
    (towerRays_ok (towerPositions (distances (radialRes, angRes) es).2 (distances (radialRes, angRes) es).1)
      ((sunPlace (az, el) es).1 * degree) ((sunPlace (az, el) es).2 * degree) none extra)
  rw [hplot] at h4
  cases hh : s'.2 with
  | mk res' rest =>
    rw [hh] at h4
    cases h4
    exact h

/-- C107: if the distances in the form are the default ones or larger ones, and the sun is above the horizon, the window shows the light of the sun
on its way to the tower: the rays of the source are followed by one ray from each heliostat's centre to the point at height 10 on the tower,
with energy 1, and those by one ray without energy from that point for each heliostat; there is nothing else. -/
theorem C107_delivers (hd : radialRes ≠ 0 ∧ angRes ≠ 0) (hes : ∀ e ∈ es, e.Allowed)
    (hnew : TowerWindow.new radialRes angRes az el get set junk junk' w extra = .ok s)
    (hrun : towerEvents get set junk junk' extra s es = .ok s')
    (hrad : 1 ≤ (distances (radialRes, angRes) es).1) (hang : π / 8 ≤ (distances (radialRes, angRes) es).2)
    (hang' : (distances (radialRes, angRes) es).2 ≤ π) (hsun : 0 ≤ (sunPlace (az, el) es).2 ∧ (sunPlace (az, el) es).2 ≤ 90) :
    let positions := towerPositions (distances (radialRes, angRes) es).2 (distances (radialRes, angRes) es).1
    let tree := s'.2.1.tree
    (((tree[1]?).getD []).map fun r => (r.vertex, r.dir, r.energy)).Perm (positions.map fun p => (p, toward p ⟨0, 0, 10⟩, 1)) ∧
    (((tree[2]?).getD []).map fun r => (r.vertex, r.energy)).Perm (positions.map fun _ => (⟨0, 0, 10⟩, 0)) ∧
    ∀ k : Nat, 3 ≤ k → (tree[k]?).getD [] = [] := by
  obtain ⟨_, _, ⟨ops, t, h1, h2, h3⟩, w', h4⟩ := reached_holds hgs hd hes hnew hrun
  generalize distances (radialRes, angRes) es = d at *
  generalize sunPlace (az, el) es = q at *
  rw [heightAfter_aim] at h2
  have hcos : 0 ≤ cos (q.2 * degree) := by
    refine cos_nonneg_of_mem_Icc ⟨?_, ?_⟩
    · unfold degree
      have := mul_nonneg hsun.1 (div_nonneg pi_pos.le (by norm_num : (0 : ℝ) ≤ 180))
      linarith [pi_pos]
    · unfold degree
      nlinarith [mul_le_mul_of_nonneg_right hsun.2 pi_pos.le]
  have D := (towerPositions_spread hrad hang hang').delivery (W := 1 / 2) (L := 1 / 2) (absorpt := 0) (x := 1) (y := 1) (az := q.1 * degree)
    (el := q.2 * degree) (ρ' := 8) (minE := 1 / 20) (by norm_num) (by norm_num) (by norm_num) (by norm_num) (by norm_num) (by norm_num) (by norm_num)
    (by norm_num) hcos (by norm_num) none extra
  rw [← h2] at D
  obtain ⟨t', res, g1, g2, _, g4, g5, g6, _⟩ := tower_trace (get := get) (set := set) (th := 10) (by norm_num) (by norm_num) one_pos one_pos
    junk junk' ops D (by norm_num) w' (reps := 200000000) (by norm_num)
  rw [h2] at g1
  rw [h1] at g1
  cases g1
  rw [← h3] at g2
  rw [h2] at g4 g5
  have htree : s'.2.1 = res := by
    unfold firstPlot at h4
    rw [g2] at h4
    simp only at h4
    split at h4
    · cases h4
    · cases hh : s'.2 with
      | mk res' rest =>
        rw [hh] at h4
        cases h4
        rfl
  simp only [htree]
  refine ⟨g4.trans (List.Perm.of_eq ?_), g5.trans (List.Perm.of_eq ?_), g6⟩
  · unfold towerRays
    rw [List.zipWith_map_left, List.zipWith_self]
    simp
  · unfold towerRays
    rw [List.map_map]
    rfl

/-- C107: after any history, a press on the button for the flux map raises no exception.  1000 rays for each heliostat are traced from the sun where
the sliders are, up to 1000 times and as long as they have 0.05 of their energy, with an empty memory of the receiver.  The map has 50 by 50 cells, and their sum is what the receiver absorbed of these rays, and of no earlier ones.  It is no more
than their number, if no ray meets two surfaces at the same time. -/
theorem C107_map (hd : radialRes ≠ 0 ∧ angRes ≠ 0) (hes : ∀ e ∈ es, e.Allowed)
    (hnew : TowerWindow.new radialRes angRes az el get set junk junk' w extra = .ok s)
    (hrun : towerEvents get set junk junk' extra s es = .ok s') {dirDraws xy : List (ℝ × ℝ)}
    (hdraw : ∀ e ∈ dirDraws, 0 ≤ e.2 ∧ e.2 ≤ 1) :
    let d := distances (radialRes, angRes) es
    let q := sunPlace (az, el) es
    let rays := fluxRays 1000 (towerPositions d.2 d.1) (q.1 * degree) (q.2 * degree) dirDraws xy extra
    ∃ (s2 : TowerWindow σ E) (res : TraceResult σ ℝ E) (H : List (List ℝ)),
      s'.1.fluxMap dirDraws xy get set extra = .ok (s2, res, H) ∧
      (∃ w0, get w0 = Account.reset ∧ rayTracer s2.tower.plant.scene w0 rays 1000 (1 / 20) true = .ok res) ∧ res.tree.head? = some rays ∧
      (H.length = 50 ∧ ∀ row ∈ H, row.length = 50) ∧ cellTotal H = (get res.world).absorbed.flatten.sum ∧
      ((∀ lvl ∈ res.tree, ∀ r ∈ lvl, NoTie Surf.single (s2.tower.plant.scene.flatMap Obj.surfs) r) → cellTotal H ≤ rays.length) := by
  obtain ⟨s2, res, H, h1, _, h2, h3⟩ := fluxMap_holds hgs (reached_holds hgs hd hes hnew hrun) (xy := xy) hdraw
  refine ⟨s2, res, H, h1, ?_⟩
  rw [h2]
  exact h3

end

/-- C107: with a distance of zero the window does not open, and one that is open raises an exception. -/
theorem C107_zero {radialRes angRes : ℝ} (hd : radialRes = 0 ∨ angRes = 0) (get : σ → Account ℝ) (set : Account ℝ → σ → σ) (junk junk' : M3 ℝ)
    (extra : E) : (∀ az el w, TowerWindow.new radialRes angRes az el get set junk junk' w extra = .error .zerodiv) ∧
    ∀ s : TowerWindow σ E, s.replacePlant radialRes angRes get set junk junk' extra = .error .zerodiv := by
  have h : (genPlant radialRes angRes get set junk junk' : Except Err (Tower σ E)) = .error .zerodiv := by
    unfold genPlant
    rw [if_pos hd]
  refine ⟨fun az el w => ?_, fun s => ?_⟩
  · unfold TowerWindow.new
    simp only [h]
  · unfold TowerWindow.replacePlant
    simp only [h]

/-- C107: wherever the sliders are, the directions that `aim_to_sun` divides by their length are not zero. -/
theorem C107_defined {radialRes angRes az el : ℝ} (hel : 0 ≤ el ∧ el ≤ 90) {p : V3 ℝ} (hp : p ∈ towerPositions angRes radialRes) :
    p ≠ ⟨0, 0, 10⟩ ∧ solarVector (az * degree) (el * degree) + toward p ⟨0, 0, 10⟩ ≠ 0 := by
  obtain ⟨q, _, rfl⟩ := List.mem_map.1 hp
  have hcos : 0 ≤ cos (el * degree) := by
    refine cos_nonneg_of_mem_Icc ⟨?_, ?_⟩
    · unfold degree
      have := mul_nonneg hel.1 (div_nonneg pi_pos.le (by norm_num : (0 : ℝ) ≤ 180))
      linarith [pi_pos]
    · unfold degree
      nlinarith [mul_le_mul_of_nonneg_right hel.2 pi_pos.le]
  refine ⟨by simp, fun h => ?_⟩
  have hz := congrArg V3.z h
  have h1 : (solarVector (az * degree) (el * degree)).z = cos (el * degree) := rfl
  have h2 : 0 < (toward (⟨q.1, q.2, 0⟩ : V3 ℝ) ⟨0, 0, 10⟩).z := by
    unfold toward
    simp only [V3.smul_z, V3.sub_z, sub_zero]
    have : 0 < V3.dist2 (⟨0, 0, 10⟩ : V3 ℝ) ⟨q.1, q.2, 0⟩ := by
      rw [dist2_eq]
      simp only
      nlinarith [sq_nonneg (0 - q.1), sq_nonneg (0 - q.2)]
    have := sqrt_pos.2 this
    positivity
  rw [V3.add_z, h1] at hz
  have : (0 : V3 ℝ).z = 0 := rfl
  rw [this] at hz
  linarith

/-! ### The hypotheses can be met -/

/-- The window as it opens, with the sun moved twice, the field made coarser, and the flux map asked for in between. -/
example : ∃ s s', TowerWindow.new 1 (π / 8) 90 45 id (fun acc _ => acc) 1 1 Account.reset () = .ok s ∧
    towerEvents id (fun acc _ => acc) 1 1 () s [.sun 30 60, .fluxMap [(1, 1 / 2)] [(1 / 8, -(1 / 8))], .place 2 (π / 4), .sun 0 90] = .ok s' ∧
    (((s'.2.1.tree[1]?).getD []).map fun r => (r.vertex, r.dir, r.energy)).Perm
      ((towerPositions (π / 4) 2).map fun p => (p, toward p ⟨0, 0, 10⟩, 1)) := by
  have hd : (1 : ℝ) ≠ 0 ∧ π / 8 ≠ 0 := ⟨one_ne_zero, by positivity⟩
  have hes : ∀ e ∈ [TowerEvent.sun 30 60, .fluxMap [(1, 1 / 2)] [(1 / 8, -(1 / 8))], .place 2 (π / 4), .sun 0 90], e.Allowed := by
    intro e he
    simp only [List.mem_cons, List.not_mem_nil, or_false] at he
    rcases he with rfl | rfl | rfl | rfl
    · norm_num [TowerEvent.Allowed]
    · norm_num [TowerEvent.Allowed]
    · exact ⟨two_ne_zero, by positivity⟩
    · norm_num [TowerEvent.Allowed]
  obtain ⟨s, s', h1, h2⟩ := C107_runs (get := id) (set := fun acc _ => acc) (fun _ _ => rfl) 1 1 () hd 90 45 Account.reset hes
  refine ⟨s, s', h1, h2, ?_⟩
  exact (C107_delivers (fun _ _ => rfl) hd hes h1 h2 (by norm_num [distances]) (by simp only [distances]; linarith [pi_pos])
    (by simp only [distances]; linarith [pi_pos]) (by norm_num [sunPlace])).1

/-- Rays for the flux map of two heliostats, one for each. -/
example : (fluxRays 1 [⟨4, 4, 0⟩, ⟨4, -4, 0⟩] 1 1 [(1, 1 / 2), (2, 1 / 3)] [(1 / 8, -(1 / 8)), (0, 1 / 4)] ()).length = 2 :=
  (C107_rays () ⟨rfl, by intro d hd; simp at hd; rcases hd with rfl | rfl <;> norm_num⟩
    ⟨rfl, by intro d hd; simp at hd; rcases hd with rfl | rfl <;> norm_num [abs_le]⟩).1

end Tracer
