import Verif.Model.Windows
import Verif.Props.Drawing
import Verif.Props.Programs
import Verif.Props.Following
import Verif.Props.Collectors
import Verif.Props.EnergyLibrary

/-!
# What the dish window shows (C104)
-/

namespace Tracer

open Real

variable {E σ : Type _}

/-! ## The numbers in the form -/

/-- The numbers that make a dish. -/
def MakesDish (concent refl : ℝ) : Prop := 0 < concent ∧ 0 < refl + 1 ∧ (refl + 1) * (1 / 2 * √(π / concent)) < 1

theorem dish_measures {concent refl : ℝ} (hc : 0 < concent) (hne : (refl + 1) * (1 / 2 * √(π / concent)) ≠ 1) :
    ∃ f W H, standardMinidishMeasures 1 concent refl = .ok (f, W, H) ∧ 0 < f ∧ 0 < W ∧ (0 < H ↔ MakesDish concent refl) := by
  have hpc : 0 < π / concent := div_pos pi_pos hc
  have hW : 0 < 1 / 2 * √(π / concent) := mul_pos (by norm_num) (sqrt_pos.2 hpc)
  have hf : 0 < (1 : ℝ) / 4 / (√2 - 1) := div_pos (by norm_num) sqrt_two_sub_one_pos
  have hden : 1 - (refl + 1) * (1 / 2 * √(π / concent)) ≠ 0 := fun h => hne (by linarith)
  refine ⟨_, _, _, by unfold standardMinidishMeasures; simp only; rw [if_neg hc.ne', if_neg (not_lt.2 hpc.le), if_neg hden], hf, hW, ?_⟩
  unfold MakesDish
  generalize 1 / 2 * √(π / concent) = W at *
  generalize (1 : ℝ) / 4 / (√2 - 1) = f at *
  have hWf := mul_pos hW hf
  rw [div_pos_iff]
  constructor
  · rintro (⟨h1, h2⟩ | ⟨h1, h2⟩)
    · have : 0 < (refl + 1) * (W * f) := by linarith
      exact ⟨hc, pos_of_mul_pos_left this hWf.le, by linarith⟩
    · have h3 : (refl + 1) * (W * f) < 0 := by linarith
      have h4 : refl + 1 < 0 := by
        by_contra h
        exact absurd h3 (not_lt.2 (mul_nonneg (not_lt.1 h) hWf.le))
      nlinarith
  · rintro ⟨_, h1, h2⟩
    exact .inl ⟨by positivity, by linarith⟩

/-- C104: other numbers raise what the division, the square root or the flat plates raise. -/
theorem C104_raises (concent refl : ℝ) (dirDraws posDraws : List (ℝ × ℝ)) (get : σ → Account ℝ) (set : Account ℝ → σ → σ) (junk : M3 ℝ)
    (w : σ) (extra : E) :
    ((concent = 0 ∨ (0 < concent ∧ (refl + 1) * (1 / 2 * √(π / concent)) = 1)) →
      dishWindow concent refl dirDraws posDraws get set junk w extra = .error .zerodiv) ∧
    (concent ≠ 0 → ¬ (0 < concent ∧ 0 < refl + 1 ∧ (refl + 1) * (1 / 2 * √(π / concent)) < 1) → (0 < concent → (refl + 1) * (1 / 2 * √(π / concent)) ≠ 1) →
      dishWindow concent refl dirDraws posDraws get set junk w extra = .error .value) := by
  constructor
  · intro h
    have : standardMinidishMeasures 1 concent refl = .error .zerodiv := by
      rcases h with h | ⟨hc, h⟩
      · unfold standardMinidishMeasures
        simp only
        rw [if_pos h]
      · exact C63_limit hc h
    unfold dishWindow dishSource standardMinidish
    rw [this]
  · intro h0 hno hne
    unfold dishWindow dishSource standardMinidish
    rcases lt_or_gt_of_ne h0 with hc | hc
    · have : standardMinidishMeasures 1 concent refl = .error .value := by
        unfold standardMinidishMeasures
        simp only
        rw [if_neg h0, if_pos (div_neg_of_pos_of_neg pi_pos hc)]
      rw [this]
    · obtain ⟨f, W, H, hm, hf, hW, hH⟩ := dish_measures hc (hne hc)
      have hle : H ≤ 0 := by
        by_contra h
        exact hno (hH.1 (not_le.1 h))
      obtain ⟨g, hg⟩ := (C31_constructor (K := ℝ) (E := E) W (W * 1)).1 ⟨hW, by linarith⟩
      have hp : (rectPlateGM H (W * 1) : Except Err (Geometry ℝ E)) = .error .value := by
        unfold rectPlateGM
        rw [if_pos hle]
      rw [hm]
      unfold miniDish homogenizedLocalReceiver oneSidedReceiver
      simp only [hg, rectHomogenizer, rectOneSidedMirror, hp]
      rfl

/-! ## What is shown -/

/-- The sun of the window: as many rays as were asked for, on the disk above the dish, down to within 4.65 mrad, with equal shares of 1000. -/
theorem dish_sun {dirDraws posDraws : List (ℝ × ℝ)} (hlen : dirDraws.length = posDraws.length)
    (hd : ∀ d ∈ dirDraws, 0 ≤ d.2 ∧ d.2 ≤ 1) (hp : ∀ d ∈ posDraws, 0 ≤ d.1 ∧ d.1 ≤ 1) (top : ℝ) (extra : E) :
    ∃ s sun, solarDisk ⟨0, 0, top⟩ ⟨0, 0, -1⟩ (1 / 2) (465 / 100000) none dirDraws posDraws = .ok s ∧
      SourceBundle.rays { s with energy := some (List.replicate posDraws.length (1 * 1000 / (posDraws.length : ℝ))) } extra = .ok sun ∧
      sun.length = posDraws.length ∧
      ∀ r ∈ sun, r.dir.IsUnit ∧ deviation r.dir ⟨0, 0, -1⟩ ≤ 465 / 100000 ∧ OnDisk ⟨0, 0, top⟩ ⟨0, 0, -1⟩ (1 / 2) r.vertex ∧
        r.energy = 1000 / (posDraws.length : ℝ) := by
  have hu : V3.IsUnit (⟨0, 0, -1⟩ : V3 ℝ) := by
    unfold V3.IsUnit V3.dot
    norm_num
  have hdisk := C56_disk (center := ⟨0, 0, top⟩) (radius := 1 / 2) hu (ang := 465 / 100000) (by norm_num) (by linarith [two_le_pi])
    none hlen hd hp
  refine ⟨_, _, by unfold solarDisk; rw [if_neg (by simp)], rfl, ?_, ?_⟩
  · simp only [List.length_zipWith, List.length_zip, hdisk.1, hdisk.2.1, List.length_replicate, min_self]
  · intro r hr
    obtain ⟨i, hi⟩ := List.getElem?_of_mem hr
    rw [List.getElem?_zipWith_eq_some] at hi
    obtain ⟨p, x, h1, h2, rfl⟩ := hi
    rw [List.getElem?_zip_eq_some] at h1
    have := hdisk.2.2.2 _ (List.mem_of_getElem? h1.2)
    refine ⟨this.1, this.2, hdisk.2.2.1 _ (List.mem_of_getElem? h1.1), ?_⟩
    rw [(List.mem_replicate.1 (List.mem_of_getElem? h2)).2, one_mul]

/-- A callable that keeps a ray's energy or takes all of it. -/
def AllOrNothing (opt : Optics σ ℝ E) : Prop := Optics.Obeys opt fun _ h r => r.energy = 0 ∨ r.energy = h.ray.energy

theorem allOrNothing_mono {opt : Optics σ ℝ E} {law : V3 ℝ → HitRec ℝ E → Ray ℝ E → Prop} (h : Optics.Obeys opt law)
    (hl : ∀ up h r, law up h r → r.energy = 0 ∨ r.energy = h.ray.energy) : AllOrNothing opt := by
  intro w up hits out w' ho r hr
  obtain ⟨q, hq, h1, h2, h3⟩ := h w up hits out w' ho r hr
  exact ⟨q, hq, h1, h2, hl up q r h3⟩

/-- A perfect collector's tree: every ray has the energy of a source ray, or none. -/
theorem perfect_energies {g0 : Geometry ℝ E} (hg0 : PlainGeometry g0) (pos : ℝ) {x y depth : ℝ} (hx : 0 < x) (hy : 0 < y) (hd : 0 < depth)
    {get : σ → Account ℝ} {set : Account ℝ → σ → σ} (junk : M3 ℝ) {a : SceneAsm σ ℝ E}
    (h : homogenizedLocalReceiver (Surface.new g0 (reflective (1 - 1)) 1) pos (x, y) depth 1 get set junk = .ok a) {e : ℝ}
    {w : σ} {b : Bundle ℝ E} {reps : Nat} {minE : ℝ} {res : TraceResult σ ℝ E} (hb : ∀ r ∈ b, r.energy = e)
    (hres : rayTracer (a.set (.transform 1)).scene w b reps minE true = .ok res) :
    ∀ lvl ∈ res.tree, ∀ r ∈ lvl, r.energy = 0 ∨ r.energy = e := by
  obtain ⟨a', ha, hlib, _, _⟩ := collector_library (Surface.new g0 (reflective (1 - 1)) 1) hg0 (.mirror _) Tf.Rigid.one pos
    hx hy hd 1 get set junk Tf.Rigid.one
  rw [h] at ha
  cases ha
  have hmir : ∀ c : ℝ, c = 0 ∨ c = 1 → AllOrNothing (reflective c : Optics σ ℝ E) := by
    intro c hc
    refine allOrNothing_mono (C74_reflective c) fun up q r hl => ?_
    rw [hl.energy]
    rcases hc with rfl | rfl
    · right; ring
    · left; ring
  have hone : AllOrNothing (absorberReflector (1 - 1) : Optics σ ℝ E) := by
    refine allOrNothing_mono (C74_one_sided (1 - 1)) fun up q r hl => ?_
    rcases le_or_gt (V3.dot q.ray.dir up) 0 with h0 | h0
    · rw [hl.front h0]
      right; ring
    · exact .inl (hl.back h0)
  have hlaw := collector_surfs (Surface.new g0 (reflective (1 - 1)) 1) pos hx hy hd 1 get set junk 1 h AllOrNothing hone
    (C74_receiver (hmir 1 (.inr rfl)) 1 get set) (hmir 1 (.inr rfl)) (hmir (1 - 1) (.inl (by norm_num)))
  have hlen : ∀ o ∈ (a.set (.transform 1)).getObjects, ∀ s ∈ o.surfs, s.data.1.LengthOk := fun o ho s hs => (hlib.geometry o ho s hs).lengthOk
  have key : ∀ (k : Nat) (lvl : Bundle ℝ E), res.tree[k]? = some lvl → ∀ r ∈ lvl, r.energy = 0 ∨ r.energy = e := by
    intro k
    induction k with
    | zero =>
      intro lvl hk r hr
      have h0 := (C11_iteration_limit hlib.shapeOk hres).1
      rw [List.head?_eq_getElem?, hk] at h0
      cases h0
      exact .inr (hb r hr)
    | succ k ih =>
      intro lvl hk r hr
      obtain ⟨prev, p, hp, hp', o, ho, s, hs, t, _, _, _, hl⟩ := C74_law (fun _ _ h r => r.energy = 0 ∨ r.energy = h.ray.energy)
        hlib.shapeOk hlen hlaw (fun _ _ _ _ _ _ h => h) hres hk hr
      rcases hl with hl | hl
      · exact .inl hl
      · rw [hl]
        exact ih prev hp p (List.mem_of_getElem? hp')
  intro lvl hl
  obtain ⟨k, hk⟩ := List.getElem?_of_mem hl
  exact key k lvl hk

/-- All that is shown of the window. -/
theorem dishWindow_runs {concent refl : ℝ} (hmake : MakesDish concent refl) {dirDraws posDraws : List (ℝ × ℝ)}
    (hlen : dirDraws.length = posDraws.length) (hd : ∀ d ∈ dirDraws, 0 ≤ d.2 ∧ d.2 ≤ 1)
    (hp : ∀ d ∈ posDraws, 0 ≤ d.1 ∧ d.1 ≤ 1) (get : σ → Account ℝ) (set : Account ℝ → σ → σ) (junk : M3 ℝ) (w : σ) (extra : E) :
    ∃ (dish : SceneAsm σ ℝ E) (res : TraceResult σ ℝ E) (points : List (V3 ℝ)) (connections : List (Nat × Nat)) (f W H : ℝ) (sun : Bundle ℝ E),
      dishWindow concent refl dirDraws posDraws get set junk w extra = .ok (dish, res, points, connections) ∧
      standardMinidish 1 concent refl 1 1 get set junk = .ok (dish, f, W, H) ∧
      rayTracer dish.scene w sun 200000000 (1 / 20) true = .ok res ∧ showRays res.tree 1 none = .ok (points, connections) ∧
      (∀ o ∈ dish.scene, o.ShapeOk) ∧ AllSurfs Surf.LengthOk dish.scene ∧ AllSurfs Surf.ParentsOk dish.scene ∧
      sun.length = posDraws.length ∧
      (∀ r ∈ sun, r.dir.IsUnit ∧ deviation r.dir ⟨0, 0, -1⟩ ≤ 465 / 100000 ∧ OnDisk ⟨0, 0, f + H + 1 / 2⟩ ⟨0, 0, -1⟩ (1 / 2) r.vertex ∧
        r.energy = 1000 / (posDraws.length : ℝ)) ∧
      ∀ lvl ∈ res.tree, ∀ r ∈ lvl, r.energy = 0 ∨ r.energy = 1000 / (posDraws.length : ℝ) := by
  obtain ⟨f, W, H, hm, hf, hW, hH⟩ := dish_measures hmake.1 hmake.2.2.ne
  have hH := hH.2 hmake
  have hW1 : 0 < W * 1 := by linarith
  obtain ⟨s, sun, hs, hsun, hsl, hsr⟩ := dish_sun hlen hd hp (f + H + 1 / 2) extra
  let refl0 : SceneSurf σ ℝ E := Surface.new (parabolicDishGM 1 f) (reflective (1 - 1)) 1
  obtain ⟨a, ha, hlib, _, hopq⟩ := collector_library refl0 (.dish _ _ one_pos hf) (.mirror _) Tf.Rigid.one (f + H) hW hW1 hH 1 get set junk
    Tf.Rigid.one
  obtain ⟨a', ha', htr⟩ := C75_collector refl0 (.dish _ _ one_pos hf) (.mirror _) Tf.Rigid.one (f + H) hW hW1 hH 1 get set junk Tf.Rigid.one
  rw [ha] at ha'
  cases ha'
  have hscene : a.scene = (a.set (.transform 1)).scene := by
    unfold Asm.scene
    rw [(collector_home refl0 (f + H) W (W * 1) H 1 get set junk ha).2.2]
  obtain ⟨res, hres⟩ := htr w sun 200000000 (1 / 20) fun r hr => (hsr r hr).1
  have hen := perfect_energies (.dish _ _ one_pos hf) (f + H) hW hW1 hH junk ha (fun r hr => (hsr r hr).2.2.2) hres
  have hlen' : AllSurfs Surf.LengthOk a.scene := by
    rw [hscene]
    exact scene_all fun o ho s hs => mkSurf_lengthOk (hlib.geometry o ho s hs).lengthOk _ _
  have hpar : AllSurfs Surf.ParentsOk a.scene := by
    rw [hscene]
    exact scene_all fun o ho s hs => mkSurf_parentsOk _ (hopq o ho s hs).keeps_unit.atHit _
  have hshape : ∀ o ∈ a.scene, o.ShapeOk := by
    rw [hscene]
    exact hlib.shapeOk
  rw [← hscene] at hres
  obtain ⟨hne, hhas⟩ := C65_drawable hshape hlen' hpar hres
  obtain ⟨points, connections, hshow, _⟩ := C65_lines (1 : ℝ) (sel := none) (fun f hf => by cases hf) hne hhas
  have hmade : standardMinidish 1 concent refl 1 1 get set junk = .ok (a, f, W, H) := by
    unfold standardMinidish
    rw [hm]
    unfold miniDish
    simp only
    rw [ha]
  refine ⟨a, res, points, connections, f, W, H, sun, ?_, hmade, hres, hshow, hshape, hlen', hpar, hsl, hsr, hen⟩
  unfold dishWindow dishSource
  rw [hmade]
  simp only
  rw [hs]
  simp only
  rw [hsun]
  simp only [firstPlot, hres, hshow]

/-- C104: the window opens, and can be changed to show another dish, exactly for a positive concentration, a number of reflections above -1, and
a homogenizer less wide than the dish's diameter over one more than that number. -/
theorem C104_opens {dirDraws posDraws : List (ℝ × ℝ)} (hlen : dirDraws.length = posDraws.length) (hd : ∀ d ∈ dirDraws, 0 ≤ d.2 ∧ d.2 ≤ 1)
    (hp : ∀ d ∈ posDraws, 0 ≤ d.1 ∧ d.1 ≤ 1) (get : σ → Account ℝ) (set : Account ℝ → σ → σ) (junk : M3 ℝ) (w : σ) (extra : E) (concent refl : ℝ) :
    (∃ shown, dishWindow concent refl dirDraws posDraws get set junk w extra = .ok shown) ↔
      0 < concent ∧ -1 < refl ∧ (refl + 1) * (1 / 2 * √(π / concent)) < 1 := by
  constructor
  · rintro ⟨shown, h⟩
    by_contra hno
    obtain ⟨h1, h2⟩ := C104_raises concent refl dirDraws posDraws get set junk w extra
    have hno' : ¬ MakesDish concent refl := fun hm => hno ⟨hm.1, by linarith [hm.2.1], hm.2.2⟩
    by_cases hz : concent = 0 ∨ (0 < concent ∧ (refl + 1) * (1 / 2 * √(π / concent)) = 1)
    · rw [h1 hz] at h
      cases h
    · rw [h2 (fun h => hz (.inl h)) hno' fun hc h => hz (.inr ⟨hc, h⟩)] at h
      cases h
  · rintro ⟨h1, h2, h3⟩
    obtain ⟨a, res, points, connections, _, _, _, _, h, _⟩ := dishWindow_runs ⟨h1, by linarith, h3⟩ hlen hd hp get set junk w extra
    exact ⟨_, h⟩

/-- C104: with less than 20000 rays the lines are exactly those from each ray to its children, and those of the childless rays that were not
absorbed along their directions; and a line begins at the start of each of the sun's rays. -/
theorem C104_shows {concent refl : ℝ} (hmake : 0 < concent ∧ -1 < refl ∧ (refl + 1) * (1 / 2 * √(π / concent)) < 1)
    {dirDraws posDraws : List (ℝ × ℝ)} (hlen : dirDraws.length = posDraws.length) (hd : ∀ d ∈ dirDraws, 0 ≤ d.2 ∧ d.2 ≤ 1)
    (hp : ∀ d ∈ posDraws, 0 ≤ d.1 ∧ d.1 ≤ 1) (hfew : posDraws.length < 20000) (get : σ → Account ℝ) (set : Account ℝ → σ → σ) (junk : M3 ℝ) (w : σ)
    (extra : E) :
    ∃ (dish : SceneAsm σ ℝ E) (res : TraceResult σ ℝ E) (points : List (V3 ℝ)) (connections : List (Nat × Nat)) (f W H : ℝ) (sun : Bundle ℝ E),
      dishWindow concent refl dirDraws posDraws get set junk w extra = .ok (dish, res, points, connections) ∧
      standardMinidish 1 concent refl 1 1 get set junk = .ok (dish, f, W, H) ∧
      res.tree.head? = some sun ∧ sun.length = posDraws.length ∧
      (∀ r ∈ sun, r.dir.IsUnit ∧ deviation r.dir ⟨0, 0, -1⟩ ≤ 465 / 100000 ∧ OnDisk ⟨0, 0, f + H + 1 / 2⟩ ⟨0, 0, -1⟩ (1 / 2) r.vertex ∧
        r.energy = 1000 / (posDraws.length : ℝ)) ∧
      (∀ p q, Drawn points connections p q ↔ ToChild res.tree p q ∨
        ∃ k i r, InTree res.tree k i r ∧ r.energy ≠ 0 ∧ (∀ j c, InTree res.tree (k + 1) j c → c.parent ≠ i) ∧
          p = r.vertex ∧ q = r.vertex + (1 : ℝ) • r.dir) ∧
      ∀ r ∈ sun, ∃ q, Drawn points connections r.vertex q := by
  obtain ⟨a, res, points, connections, f, W, H, sun, h, hmade, hres, hshow, hshape, hlen', hpar, hsl, hsr, hen⟩ :=
    dishWindow_runs ⟨hmake.1, by linarith [hmake.2.1], hmake.2.2⟩ hlen hd hp get set junk w extra
  have h0 := (C11_iteration_limit hshape hres).1
  have hpos : ∀ r ∈ sun, (1 : ℝ) / 20 < 1000 / (posDraws.length : ℝ) := by
    intro r hr
    have h1 : 0 < posDraws.length := by
      rw [← hsl]
      exact List.length_pos_of_mem hr
    have h2 : (0 : ℝ) < posDraws.length := by exact_mod_cast h1
    have h3 : (posDraws.length : ℝ) < 20000 := by exact_mod_cast hfew
    rw [div_lt_div_iff₀ (by norm_num) h2]
    linarith
  have hpos' : ∀ lvl ∈ res.tree, ∀ r ∈ lvl, (1 : ℝ) / 20 < 1000 / (posDraws.length : ℝ) := by
    intro lvl hl r hr
    obtain ⟨q, hq⟩ : ∃ q, q ∈ sun := by
      obtain ⟨k, hk⟩ := List.getElem?_of_mem hl
      induction k generalizing lvl r with
      | zero =>
        rw [List.head?_eq_getElem?, hk] at h0
        cases h0
        exact ⟨r, hr⟩
      | succ k ih =>
        obtain ⟨prev, p, hp, hp', _⟩ := C06_parents_valid hshape hlen' hpar hres hk hr
        exact ih prev (List.mem_of_getElem? hp) p (List.mem_of_getElem? hp') hp
    exact hpos q hq
  obtain ⟨points', connections', hshow', hvalid, hdrawn⟩ := C65_trace_partial hshape hlen' hpar (by norm_num) (by
    intro r hr
    rw [(hsr r hr).2.2.2]
    have := hpos r hr
    exact (by linarith : (0 : ℝ) < 1000 / (posDraws.length : ℝ)).ne') hres (by
    intro k lvl hk r hr
    have hl := List.mem_of_getElem? hk
    rcases hen lvl hl r hr with he | he
    · exact .inl he
    · exact .inr (by rw [he]; exact hpos' lvl hl r hr)) (1 : ℝ)
  rw [hshow] at hshow'
  cases hshow'
  refine ⟨a, res, points, connections, f, W, H, sun, h, hmade, h0, hsl, hsr, hdrawn, ?_⟩
  intro r hr
  obtain ⟨i, hi⟩ := List.getElem?_of_mem hr
  have hin : InTree res.tree 0 i r := ⟨sun, by rw [← List.head?_eq_getElem?]; exact h0, hi⟩
  by_cases hc : ∀ j c, InTree res.tree (0 + 1) j c → c.parent ≠ i
  · refine ⟨r.vertex + (1 : ℝ) • r.dir, (hdrawn _ _).2 (.inr ⟨0, i, r, hin, ?_, hc, rfl, rfl⟩)⟩
    rw [(hsr r hr).2.2.2]
    have := hpos r hr
    exact (by linarith : (0 : ℝ) < 1000 / (posDraws.length : ℝ)).ne'
  · push Not at hc
    obtain ⟨j, c, hc, hcp⟩ := hc
    exact ⟨c.vertex, (hdrawn _ _).2 (.inl ⟨0, i, j, r, c, hin, hc, hcp, rfl, rfl⟩)⟩

/-- C104: with 20000 rays or more no ray is followed beyond the first surface it meets. -/
theorem C104_many {concent refl : ℝ} (hmake : 0 < concent ∧ -1 < refl ∧ (refl + 1) * (1 / 2 * √(π / concent)) < 1)
    {dirDraws posDraws : List (ℝ × ℝ)} (hlen : dirDraws.length = posDraws.length) (hd : ∀ d ∈ dirDraws, 0 ≤ d.2 ∧ d.2 ≤ 1)
    (hp : ∀ d ∈ posDraws, 0 ≤ d.1 ∧ d.1 ≤ 1) (hmany : 20000 ≤ posDraws.length) (get : σ → Account ℝ) (set : Account ℝ → σ → σ) (junk : M3 ℝ) (w : σ)
    (extra : E) {dish : SceneAsm σ ℝ E} {res : TraceResult σ ℝ E} {points : List (V3 ℝ)} {connections : List (Nat × Nat)}
    (h : dishWindow concent refl dirDraws posDraws get set junk w extra = .ok (dish, res, points, connections)) : res.tree.length ≤ 2 := by
  obtain ⟨a, res', points', connections', f, W, H, sun, h', _, hres, _, hshape, _, _, _, _, hen⟩ :=
    dishWindow_runs ⟨hmake.1, by linarith [hmake.2.1], hmake.2.2⟩ hlen hd hp get set junk w extra
  rw [h] at h'
  cases h'
  by_contra hlong
  have h1 : 1 < res.tree.length := by omega
  have := C11_stops hshape hres (k := 0) (List.getElem?_eq_getElem h1) (by
    intro r hr
    have h3 : (20000 : ℝ) ≤ posDraws.length := by exact_mod_cast hmany
    rcases hen _ (List.getElem_mem h1) r hr with he | he
    · rw [he]; norm_num
    · rw [he, div_le_div_iff₀ (by linarith) (by norm_num)]
      linarith)
  omega

/-- C104: the sun has no energies until they are set, and its rays cannot be traced before. -/
theorem C104_unlit {center direction : V3 ℝ} {radius ang : ℝ} {dirDraws posDraws : List (ℝ × ℝ)} {s : SourceBundle}
    (h : solarDisk center direction radius ang none dirDraws posDraws = .ok s) (extra : E) : s.rays extra = .error .attribute := by
  unfold solarDisk at h
  rw [if_neg (by simp)] at h
  cases h
  rfl

/-! ## The hypotheses are met -/

example : ∃ s, solarDisk ⟨0, 0, 3⟩ ⟨0, 0, -1⟩ (1 / 2) (465 / 100000) none [(0, 0)] [(0, 0)] = .ok s := by
  unfold solarDisk
  rw [if_neg (by simp)]
  exact ⟨_, rfl⟩


/-- The numbers with which the window opens, and two draws. -/
example : (0 : ℝ) < 450 ∧ (-1 : ℝ) < 1 ∧ ((1 : ℝ) + 1) * (1 / 2 * √(π / 450)) < 1 := by
  refine ⟨by norm_num, by norm_num, ?_⟩
  have : √(π / 450) < 1 := by
    rw [Real.sqrt_lt' one_pos, div_lt_iff₀ (by norm_num)]
    linarith [pi_le_four]
  linarith

/-- A window that does not open: as many virtual sources as the concentration π allows, and more. -/
example : dishWindow (E := Unit) π 1 [(0, 0)] [(0, 0)] id (fun a _ => a) 1 (Account.reset : Account ℝ) () = .error .zerodiv ∧
    dishWindow (E := Unit) π 2 [(0, 0)] [(0, 0)] id (fun a _ => a) 1 (Account.reset : Account ℝ) () = .error .value := by
  have h1 : √(π / π) = 1 := by rw [div_self pi_pos.ne', sqrt_one]
  refine ⟨(C104_raises _ _ _ _ _ _ _ _ _).1 (.inr ⟨pi_pos, by rw [h1]; norm_num⟩), (C104_raises _ _ _ _ _ _ _ _ _).2 pi_pos.ne' ?_ ?_⟩
  · rintro ⟨_, _, h⟩
    rw [h1] at h
    norm_num at h
  · intro _
    rw [h1]
    norm_num

end Tracer
