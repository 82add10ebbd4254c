import Verif.Lemmas.TwoMirrors
import Verif.Lemmas.WindowScene
import Verif.Props.Windows

/-!
# The window with two mirrors and two rays (C106)
-/

namespace Tracer

open Real

variable {E σ : Type _}

/-! ## The scene -/

/-- The leaning mirror's frame. -/
noncomputable def leaning : Tf ℝ := ⟨⟨⟨-1, 0, 0⟩, ⟨0, √2 / 2, √2 / 2⟩, ⟨0, √2 / 2, -(√2 / 2)⟩⟩, 0⟩

theorem leaning_eq : (⟨(rotx (π / 4)).rot * (roty π).rot, 0⟩ : Tf ℝ) = leaning := by
  unfold leaning rotx roty
  simp only [cos_pi_div_four, sin_pi_div_four, cos_pi, sin_pi]
  show (⟨⟨_, _, _⟩, _⟩ : Tf ℝ) = _
  simp [M3.mulVec]

/-- One of the mirrors, in its place. -/
noncomputable def tenByTen (F : Tf ℝ) : Surf σ ℝ E := mkSurf (finiteFlatGM (rectOutside 10 10)) (absorberReflector 0) F

theorem ten_plate : (rectPlateGM 10 10 : Except Err (Geometry ℝ E)) = .ok (finiteFlatGM (rectOutside 10 10)) := by
  unfold rectPlateGM
  rw [if_neg (by norm_num), if_neg (by norm_num)]

theorem twoMirrors_objects (junk : M3 ℝ) : ∃ a : SceneAsm σ ℝ E, twoMirrors junk = .ok a ∧
    a.getObjects = [⟨leaning, [⟨1, leaning, (finiteFlatGM (rectOutside 10 10), absorberReflector 0)⟩], (Obj.defaultOwn, Obj.skipNext 1)⟩,
      ⟨1, [⟨1, 1, (finiteFlatGM (rectOutside 10 10), absorberReflector 0)⟩], (Obj.defaultOwn, Obj.skipNext 1)⟩] := by
  have hm : (rectOneSidedMirror 10 10 0 : Except Err (SceneObj σ ℝ E)) =
      .ok (ObjNode.new [Surface.new (finiteFlatGM (rectOutside 10 10)) (absorberReflector 0) 1] 1 (Obj.defaultOwn, Obj.skipNext 1)) := by
    unfold rectOneSidedMirror; rw [ten_plate]
  refine ⟨_, by unfold twoMirrors; simp only [hm]; rfl, ?_⟩
  rw [new_getObjects, ← leaning_eq]
  have h1 : ({ (1 : Tf ℝ) with rot := (rotx (π / 4)).rot * (roty π).rot } : Tf ℝ) = ⟨(rotx (π / 4)).rot * (roty π).rot, 0⟩ := rfl
  simp only [List.map_cons, List.map_nil, ObjNode.new, ObjNode.set, ObjNode.transformChildren, SurfNode.transformFrame, Surface.new,
    Tf.one_mul', Tf.mul_one', Change.apply, h1]

theorem leaning_rigid : leaning.Rigid := by
  rw [← leaning_eq]
  exact ((C26_rigid (π / 4) 0 0 0).1.mul (C26_rigid π 0 0 0).2.1 : Tf.Rigid (rotx (π / 4) * roty π))

theorem half_sqrt_two : √2 / 2 * (√2 / 2) = 1 / 2 := by
  have := mul_self_sqrt (show (0 : ℝ) ≤ 2 by norm_num)
  linarith

theorem half_sqrt_two_pos : 0 < √2 / 2 := by positivity

theorem finite_of_flat {outside : Tf ℝ → V3 ℝ → Bool} {F : Tf ℝ} {v d : V3 ℝ} {t : ℝ} (h : flatParam F v d = (t : WithTop ℝ)) :
    finiteParam outside F v d = if outside F (v + t • d) then ⊤ else (t : WithTop ℝ) := by
  unfold finiteParam
  rw [h]

theorem finite_of_none {outside : Tf ℝ → V3 ℝ → Bool} {F : Tf ℝ} {v d : V3 ℝ} (h : flatParam F v d = ⊤) :
    finiteParam outside F v d = ⊤ := by
  unfold finiteParam
  rw [h]

theorem level_outside (p q : ℝ) : rectOutside 10 10 (1 : Tf ℝ) ⟨0, p, q⟩ = decide (5 < |p|) := by
  obtain ⟨k1, k2⟩ := toLocal_rigid Tf.Rigid.one (⟨0, p, q⟩ : V3 ℝ)
  have k3 : (toLocal (1 : Tf ℝ) ⟨0, p, q⟩).x = 0 := by
    rw [k1]
    show (0 - 0) * (1 : ℝ) + (p - 0) * 0 + (q - 0) * 0 = 0
    ring
  have k4 : (toLocal (1 : Tf ℝ) ⟨0, p, q⟩).y = p := by
    rw [k2]
    show (0 - 0) * (0 : ℝ) + (p - 0) * 1 + (q - 0) * 0 = p
    ring
  unfold rectOutside
  simp only [k3, k4]
  norm_num

theorem leaning_outside (p q : ℝ) : rectOutside 10 10 leaning ⟨0, p, q⟩ = decide (5 < |√2 / 2 * (p + q)|) := by
  obtain ⟨k1, k2⟩ := toLocal_rigid leaning_rigid (⟨0, p, q⟩ : V3 ℝ)
  have k3 : (toLocal leaning ⟨0, p, q⟩).x = 0 := by
    rw [k1]
    show (0 - 0) * (-1 : ℝ) + (p - 0) * 0 + (q - 0) * 0 = 0
    ring
  have k4 : (toLocal leaning ⟨0, p, q⟩).y = √2 / 2 * (p + q) := by
    rw [k2]
    show (0 - 0) * (0 : ℝ) + (p - 0) * (√2 / 2) + (q - 0) * (√2 / 2) = _
    ring
  unfold rectOutside
  simp only [k3, k4]
  norm_num

theorem onward (p q a b t : ℝ) : (⟨0, p, q⟩ : V3 ℝ) + t • (⟨0, a, b⟩ : V3 ℝ) = ⟨0, p + t * a, q + t * b⟩ := by
  show (⟨0 + t * 0, p + t * a, q + t * b⟩ : V3 ℝ) = _
  rw [mul_zero, add_zero]

/-- Where a ray in the plane x = 0 meets the level mirror. -/
theorem level_param (p q a b : ℝ) : finiteParam (rectOutside 10 10) (1 : Tf ℝ) ⟨0, p, q⟩ ⟨0, a, b⟩ =
    if parallelTol < |b| then
      if -q / b < 0 then ⊤ else if 5 < |p + -q / b * a| then ⊤ else ((-q / b : ℝ) : WithTop ℝ)
    else ⊤ := by
  have hd : V3.dot (⟨0, a, b⟩ : V3 ℝ) (1 : Tf ℝ).rot.c3 = b := by
    show 0 * 0 + a * 0 + b * 1 = b
    ring
  have hn : V3.dot (1 : Tf ℝ).rot.c3 ((⟨0, p, q⟩ : V3 ℝ) - (1 : Tf ℝ).loc) = q := by
    show 0 * ((0 : ℝ) - 0) + 0 * (p - 0) + 1 * (q - 0) = q
    ring
  have hf : flatParam (1 : Tf ℝ) ⟨0, p, q⟩ ⟨0, a, b⟩ = if parallelTol < |b| then if -q / b < 0 then ⊤ else ((-q / b : ℝ) : WithTop ℝ) else ⊤ := by
    unfold flatParam
    simp only [hd, hn]
  split_ifs with h h0 h1
  · rw [if_pos h, if_pos h0] at hf
    exact finite_of_none hf
  · rw [if_pos h, if_neg h0] at hf
    rw [finite_of_flat hf, onward, level_outside, if_pos (decide_eq_true h1)]
  · rw [if_pos h, if_neg h0] at hf
    rw [finite_of_flat hf, onward, level_outside, if_neg (by simpa using h1)]
  · rw [if_neg h] at hf
    exact finite_of_none hf

/-- Where a ray in the plane x = 0 meets the leaning mirror. -/
theorem leaning_param (p q a b : ℝ) : finiteParam (rectOutside 10 10) leaning ⟨0, p, q⟩ ⟨0, a, b⟩ =
    if parallelTol < |√2 / 2 * (a - b)| then
      if (q - p) / (a - b) < 0 then ⊤
      else if 5 < |√2 / 2 * ((p + (q - p) / (a - b) * a) + (q + (q - p) / (a - b) * b))| then ⊤ else (((q - p) / (a - b) : ℝ) : WithTop ℝ)
    else ⊤ := by
  have hs := half_sqrt_two_pos
  have hd : V3.dot (⟨0, a, b⟩ : V3 ℝ) leaning.rot.c3 = √2 / 2 * (a - b) := by
    show 0 * 0 + a * (√2 / 2) + b * -(√2 / 2) = _
    ring
  have hn : V3.dot leaning.rot.c3 ((⟨0, p, q⟩ : V3 ℝ) - leaning.loc) = √2 / 2 * (p - q) := by
    show 0 * ((0 : ℝ) - 0) + √2 / 2 * (p - 0) + -(√2 / 2) * (q - 0) = _
    ring
  have hf : flatParam leaning ⟨0, p, q⟩ ⟨0, a, b⟩ = if parallelTol < |√2 / 2 * (a - b)| then
      if (q - p) / (a - b) < 0 then ⊤ else (((q - p) / (a - b) : ℝ) : WithTop ℝ) else ⊤ := by
    have ht : -(√2 / 2 * (p - q)) / (√2 / 2 * (a - b)) = (q - p) / (a - b) := by
      rw [← mul_neg, neg_sub, mul_div_mul_left _ _ hs.ne']
    unfold flatParam
    simp only [hd, hn, ht]
  split_ifs with h h0 h1
  · rw [if_pos h, if_pos h0] at hf
    exact finite_of_none hf
  · rw [if_pos h, if_neg h0] at hf
    rw [finite_of_flat hf, onward, leaning_outside, if_pos (decide_eq_true h1)]
  · rw [if_pos h, if_neg h0] at hf
    rw [finite_of_flat hf, onward, leaning_outside, if_neg (by simpa using h1)]
  · rw [if_neg h] at hf
    exact finite_of_none hf

theorem tenByTen_register (F : Tf ℝ) (rays : Bundle ℝ E) :
    (tenByTen F : Surf σ ℝ E).register rays = rays.map fun r => finiteParam (rectOutside 10 10) F r.vertex r.dir := rfl

theorem tenByTen_outgoing (F : Tf ℝ) (w : σ) {rays : Bundle ℝ E} {i : Nat} {r : Ray ℝ E} {t : ℝ} (hr : rays[i]? = some r)
    (ht : finiteParam (rectOutside 10 10) F r.vertex r.dir = (t : WithTop ℝ)) :
    (tenByTen F : Surf σ ℝ E).outgoing w rays [i] =
      .ok ([if 0 < V3.dot r.dir F.rot.c3 then { reflectOne 0 ⟨i, r, r.at t, flatNormal F (r.at t) r.dir⟩ with energy := 0 }
        else reflectOne 0 ⟨i, r, r.at t, flatNormal F (r.at t) r.dir⟩], w) := by
  have hfind : ((finiteFlatGM (rectOutside 10 10) : Geometry ℝ E).find F rays)[i]? = some (some t) := by
    show (rays.map fun r => finiteParam (rectOutside 10 10) F r.vertex r.dir)[i]? = _
    rw [List.getElem?_map, hr, Option.map_some, ht]
    rfl
  unfold tenByTen mkSurf
  simp only [hitRecs, hr, hfind, absorberReflector, List.map_cons, List.map_nil]
  rfl

theorem leaning_hit {p q a b t : ℝ} (h : parallelTol < |√2 / 2 * (a - b)|) (ht : t * (a - b) = q - p) (h0 : 0 ≤ t)
    (h5 : |√2 / 2 * ((p + t * a) + (q + t * b))| ≤ 5) :
    finiteParam (rectOutside 10 10) leaning ⟨0, p, q⟩ ⟨0, a, b⟩ = (t : WithTop ℝ) := by
  have hab : a - b ≠ 0 := by
    intro h0
    rw [h0, mul_zero, abs_zero] at h
    unfold parallelTol at h
    norm_num at h
  have e : (q - p) / (a - b) = t := by rw [div_eq_iff hab, ht]
  rw [leaning_param, e, if_pos h, if_neg (not_lt.2 h0), if_neg (not_lt.2 h5)]

theorem leaning_behind {p q a b : ℝ} (h : (q - p) * (a - b) < 0) : finiteParam (rectOutside 10 10) leaning ⟨0, p, q⟩ ⟨0, a, b⟩ = ⊤ := by
  rw [leaning_param]
  split_ifs with h1 h2
  · rfl
  · rfl
  · exact absurd (mul_neg_iff.1 h) fun hc => h2 (div_neg_iff.2 hc)
  · rfl

theorem leaning_parallel (p q a : ℝ) : finiteParam (rectOutside 10 10) leaning ⟨0, p, q⟩ ⟨0, a, a⟩ = ⊤ := by
  rw [leaning_param, if_neg]
  rw [sub_self, mul_zero, abs_zero]
  unfold parallelTol
  norm_num

theorem level_hit {p q a b t : ℝ} (h : parallelTol < |b|) (ht : t * b = -q) (h0 : 0 ≤ t) (h5 : |p + t * a| ≤ 5) :
    finiteParam (rectOutside 10 10) 1 ⟨0, p, q⟩ ⟨0, a, b⟩ = (t : WithTop ℝ) := by
  have hb : b ≠ 0 := by
    rintro rfl
    rw [abs_zero] at h
    unfold parallelTol at h
    norm_num at h
  have e : -q / b = t := by rw [div_eq_iff hb, ht]
  rw [level_param, e, if_pos h, if_neg (not_lt.2 h0), if_neg (not_lt.2 h5)]

theorem level_behind {p q a b : ℝ} (h : 0 < q * b) : finiteParam (rectOutside 10 10) 1 ⟨0, p, q⟩ ⟨0, a, b⟩ = ⊤ := by
  rw [level_param]
  split_ifs with h1 h2
  · rfl
  · rfl
  · exact absurd (mul_pos_iff.1 h) fun hc => h2 (div_neg_iff.2 (hc.symm.imp (fun k => ⟨by linarith [k.1], k.2⟩) fun k => ⟨by linarith [k.1], k.2⟩))
  · rfl

theorem level_parallel (p q a : ℝ) : finiteParam (rectOutside 10 10) 1 ⟨0, p, q⟩ ⟨0, a, 0⟩ = ⊤ := by
  rw [level_param, if_neg]
  rw [abs_zero]
  unfold parallelTol
  norm_num

theorem tenByTen_reflects {F : Tf ℝ} {u v : ℝ} (hF : F.rot.c3 = ⟨0, u, v⟩) (w : σ) {rays : Bundle ℝ E} {i : Nat} {p q a b t : ℝ} {k : Nat}
    {extra : E} (hr : rays[i]? = some ⟨⟨0, p, q⟩, ⟨0, a, b⟩, 1, k, none, extra⟩)
    (ht : finiteParam (rectOutside 10 10) F ⟨0, p, q⟩ ⟨0, a, b⟩ = (t : WithTop ℝ)) (hd : a * u + b * v < 0) {p' q' a' b' : ℝ}
    (hp : p + t * a = p') (hq : q + t * b = q') (ha : a - 2 * ((a * u + b * v) * u) = a') (hb : b - 2 * ((a * u + b * v) * v) = b') :
    (tenByTen F : Surf σ ℝ E).outgoing w rays [i] = .ok ([⟨⟨0, p', q'⟩, ⟨0, a', b'⟩, 1, i, none, extra⟩], w) := by
  have hdot : V3.dot (⟨0, a, b⟩ : V3 ℝ) F.rot.c3 = a * u + b * v := by
    rw [hF]
    show 0 * 0 + a * u + b * v = _
    ring
  rw [tenByTen_outgoing F w hr ht]
  have hn : ∀ x : V3 ℝ, flatNormal F x (⟨0, a, b⟩ : V3 ℝ) = ⟨0, u, v⟩ := by
    intro x
    unfold flatNormal
    rw [hdot, if_neg (not_lt.2 hd.le), hF]
  simp only [hdot, if_neg (not_lt.2 hd.le), reflectOne, hn, Ray.at, onward, hp, hq]
  have hrefl : reflection (⟨0, a, b⟩ : V3 ℝ) ⟨0, u, v⟩ = ⟨0, a', b'⟩ := by
    rw [hF] at hdot
    unfold reflection
    rw [hdot, ← ha, ← hb]
    show (⟨0 - 2 * ((a * u + b * v) * 0), _, _⟩ : V3 ℝ) = _
    rw [mul_zero, mul_zero, sub_zero]
    rfl
  rw [hrefl, sub_zero, mul_one]

/-! ## The paths -/

/-- The two rays on their way: from the source, between the mirrors, and away. -/
noncomputable def pathsBetween (y z : ℝ) (extra : E) : List (Bundle ℝ E) :=
  [[⟨⟨0, y, z⟩, ⟨0, -(√2 / 2), √2 / 2⟩, 1, 0, none, extra⟩, ⟨⟨0, y, z⟩, ⟨0, 0, -1⟩, 1, 0, none, extra⟩],
   [⟨⟨0, (y + z) / 2, (y + z) / 2⟩, ⟨0, √2 / 2, -(√2 / 2)⟩, 1, 0, none, extra⟩, ⟨⟨0, y, 0⟩, ⟨0, 0, 1⟩, 1, 1, none, extra⟩],
   [⟨⟨0, y, y⟩, ⟨0, 1, 0⟩, 1, 1, none, extra⟩, ⟨⟨0, y + z, 0⟩, ⟨0, √2 / 2, √2 / 2⟩, 1, 0, none, extra⟩]]

theorem twoRays_eq (y z : ℝ) (extra : E) :
    twoRays y z extra = [⟨⟨0, y, z⟩, ⟨0, -(√2 / 2), √2 / 2⟩, 1, 0, none, extra⟩, ⟨⟨0, y, z⟩, ⟨0, 0, -1⟩, 1, 0, none, extra⟩] := by
  have h : 1 / √2 = √2 / 2 := by
    rw [div_eq_div_iff (by positivity) (by norm_num), one_mul, mul_self_sqrt (by norm_num)]
  unfold twoRays
  simp only [h]

theorem pair_trace {y z : ℝ} (hz : 1 / 10 ^ 10 < z) (hzy : 1 / 10 ^ 9 < y - z) (hy : 1 / 10 ^ 5 < y) (h1 : y + z ≤ 5) (h2 : √2 * y ≤ 5)
    (w : σ) (extra : E) (n : Nat) :
    rayTracer (mirrorPair (tenByTen leaning) (tenByTen 1)) w (twoRays y z extra) (n + 3) (1 / 20) true =
      .ok ⟨[], [], pathsBetween y z extra, w⟩ := by
  have hs := half_sqrt_two_pos
  have hss := half_sqrt_two
  have hs1 : √2 / 2 < 1 := by nlinarith
  have hs2 : 1 / 2 < √2 / 2 := by nlinarith
  rw [twoRays_eq]
  have tol : ∀ {x : ℝ}, 1 / 2 < x → (parallelTol : ℝ) < |x| := by
    intro x hx
    unfold parallelTol
    exact lt_of_lt_of_le (by linarith) (le_abs_self x)
  have tol' : ∀ {x : ℝ}, x < -(1 / 2) → (parallelTol : ℝ) < |x| := by
    intro x hx
    rw [← abs_neg]
    exact tol (by linarith)
  have fA : finiteParam (rectOutside 10 10) leaning ⟨0, y, z⟩ ⟨0, -(√2 / 2), √2 / 2⟩ = ((√2 / 2 * (y - z) : ℝ) : WithTop ℝ) := by
    refine leaning_hit (tol' (by nlinarith)) ?_ (by nlinarith) ?_
    · linear_combination 2 * (z - y) * hss
    · rw [abs_le]
      constructor <;> nlinarith
  have fB : finiteParam (rectOutside 10 10) leaning ⟨0, y, z⟩ ⟨0, 0, -1⟩ = ⊤ := leaning_behind (by nlinarith)
  have gA : finiteParam (rectOutside 10 10) 1 ⟨0, y, z⟩ ⟨0, -(√2 / 2), √2 / 2⟩ = ⊤ := level_behind (by nlinarith)
  have gB : finiteParam (rectOutside 10 10) 1 ⟨0, y, z⟩ ⟨0, 0, -1⟩ = (z : WithTop ℝ) :=
    level_hit (tol' (by norm_num)) (by ring) (by linarith) (by rw [mul_zero, add_zero, abs_le]; constructor <;> linarith)
  have gA' : finiteParam (rectOutside 10 10) 1 ⟨0, (y + z) / 2, (y + z) / 2⟩ ⟨0, √2 / 2, -(√2 / 2)⟩ = ((√2 / 2 * (y + z) : ℝ) : WithTop ℝ) := by
    refine level_hit (tol' (by linarith)) ?_ (by nlinarith) ?_
    · linear_combination -(y + z) * hss
    · have : (y + z) / 2 + √2 / 2 * (y + z) * (√2 / 2) = y + z := by linear_combination (y + z) * hss
      rw [this, abs_le]
      constructor <;> linarith
  have fB' : finiteParam (rectOutside 10 10) leaning ⟨0, y, 0⟩ ⟨0, 0, 1⟩ = (y : WithTop ℝ) := by
    refine leaning_hit (tol' (by nlinarith)) (by ring) (by linarith) ?_
    rw [abs_le]
    constructor <;> nlinarith
  have fA'' : finiteParam (rectOutside 10 10) leaning ⟨0, y + z, 0⟩ ⟨0, √2 / 2, √2 / 2⟩ = ⊤ := leaning_parallel _ _ _
  have gB'' : finiteParam (rectOutside 10 10) 1 ⟨0, y, y⟩ ⟨0, 1, 0⟩ = ⊤ := level_parallel _ _ _
  have c1 : leaning.rot.c3 = ⟨0, √2 / 2, -(√2 / 2)⟩ := rfl
  have c2 : (1 : Tf ℝ).rot.c3 = ⟨0, 0, 1⟩ := rfl
  refine two_reflections (s1 := tenByTen leaning) (s2 := tenByTen 1) (b2 := ⟨⟨0, y, y⟩, ⟨0, 1, 0⟩, 1, 0, none, extra⟩)
    (a2 := ⟨⟨0, y + z, 0⟩, ⟨0, √2 / 2, √2 / 2⟩, 1, 0, none, extra⟩) n ?_ ?_ ?_ ?_ ?_ ?_ ?_ ?_ ?_ ?_ ?_ ?_ ?_ ?_ ?_ ?_ ?_ ?_ ?_ ?_ ?_ ?_
    (ta := √2 / 2 * (y - z)) (tb := z) (ta' := √2 / 2 * (y + z)) (tb' := y)
  · rw [tenByTen_register]
    simp only [List.map_cons, List.map_nil, fA, fB]
  · rw [tenByTen_register]
    simp only [List.map_cons, List.map_nil, gA, gB]
  · unfold selfTol
    nlinarith
  · exact hz
  · exact tenByTen_reflects c1 w rfl fA (by linarith) (by linear_combination (z - y) * hss) (by linear_combination (y - z) * hss)
      (by linear_combination 4 * (√2 / 2) * hss) (by linear_combination -4 * (√2 / 2) * hss)
  · exact tenByTen_reflects c2 w rfl gB (by norm_num) (by ring) (by ring) (by ring) (by ring)
  · rfl
  · rfl
  · rw [tenByTen_register]
    simp only [List.map_cons, List.map_nil, fB']
  · rw [tenByTen_register]
    simp only [List.map_cons, List.map_nil, gA']
  · unfold dropTol
    nlinarith
  · unfold dropTol
    linarith
  · exact tenByTen_reflects c1 w rfl fB' (by linarith) (by ring) (by ring) (by linear_combination 2 * hss) (by linear_combination -2 * hss)
  · exact tenByTen_reflects c2 w rfl gA' (by linarith) (by linear_combination (y + z) * hss) (by linear_combination -(y + z) * hss)
      (by ring) (by ring)
  · rfl
  · rfl
  · rw [tenByTen_register]
    simp only [List.map_cons, List.map_nil, fA'']
  · rw [tenByTen_register]
    simp only [List.map_cons, List.map_nil, gB'']
  all_goals norm_num

/-! ## What the window shows -/

theorem twoMirrors_scene (junk : M3 ℝ) : ∃ a : SceneAsm σ ℝ E, twoMirrors junk = .ok a ∧ a.scene = mirrorPair (tenByTen leaning) (tenByTen 1) ∧
    (∀ (w : σ) (b : Bundle ℝ E) (reps : Nat) (minE : ℝ), (∀ r ∈ b, r.dir.IsUnit) → ∃ res, rayTracer a.scene w b reps minE true = .ok res) ∧
    (∀ o ∈ a.scene, o.ShapeOk) ∧ AllSurfs Surf.LengthOk a.scene ∧ AllSurfs Surf.ParentsOk a.scene ∧
    ∀ (w : σ) (b : Bundle ℝ E) (reps : Nat) (minE : ℝ) (res : TraceResult σ ℝ E), (∀ r ∈ b, r.energy = 1) →
      rayTracer a.scene w b reps minE true = .ok res → ∀ lvl ∈ res.tree, ∀ r ∈ lvl, r.energy = 0 ∨ r.energy = 1 := by
  obtain ⟨a, ha, hobj⟩ := twoMirrors_objects (σ := σ) (E := E) junk
  have hall : ∀ P : SceneSurf σ ℝ E → Prop,
      (∀ F own : Tf ℝ, F.Rigid → P ⟨own, F, (finiteFlatGM (rectOutside 10 10), absorberReflector 0)⟩) →
      ∀ o ∈ a.getObjects, ∀ s ∈ o.surfs, P s := by
    intro P hP o ho s hs
    rw [hobj, List.mem_cons, List.mem_singleton] at ho
    rcases ho with rfl | rfl <;> rw [List.mem_singleton] at hs <;> subst hs
    · exact hP _ _ leaning_rigid
    · exact hP _ _ Tf.Rigid.one
  have hplain : ∀ o ∈ a.getObjects, ∀ s ∈ o.surfs, PlainGeometry s.data.1 := hall _ fun _ _ _ => .rect 10 10 _ ten_plate
  have hopq : ∀ o ∈ a.getObjects, ∀ s ∈ o.surfs, OpaqueOptics s.data.2 := hall _ fun _ _ _ => .oneSided 0
  have hlib : LibraryScene 1 2 a := by
    refine ⟨⟨_, by rw [hobj]; exact List.mem_cons_self, by simp⟩, hall _ fun _ _ h => h, fun o ho s hs => .plain _ (hplain o ho s hs),
      fun o ho s hs => (hopq o ho s hs).library 1 2, ?_⟩
    intro o ho
    rw [hobj, List.mem_cons, List.mem_singleton] at ho
    rcases ho with rfl | rfl <;> exact .inr rfl
  have hone : AllOrNothing (absorberReflector 0 : Optics σ ℝ E) := by
    refine allOrNothing_mono (C74_one_sided 0) fun up q r hl => ?_
    rcases le_or_gt (V3.dot q.ray.dir up) 0 with h0 | h0
    · rw [hl.front h0]
      right; ring
    · exact .inl (hl.back h0)
  refine ⟨a, ha, ?_, fun w b reps minE hb => C75_opaque hlib hplain hopq w hb minE (.inl rfl), hlib.shapeOk,
    scene_all fun o ho s hs => mkSurf_lengthOk (hlib.geometry o ho s hs).lengthOk _ _,
    scene_all fun o ho s hs => mkSurf_parentsOk _ (hopq o ho s hs).keeps_unit.atHit _, ?_⟩
  · unfold Asm.scene
    rw [hobj]
    rfl
  · intro w b reps minE res hb hres lvl hl
    obtain ⟨k, hk⟩ := List.getElem?_of_mem hl
    clear hl
    induction k generalizing lvl with
    | zero =>
      intro r hr
      have h0 := (C11_iteration_limit hlib.shapeOk hres).1
      rw [List.head?_eq_getElem?, hk] at h0
      cases h0
      exact .inr (hb r hr)
    | succ k ih =>
      intro r hr
      obtain ⟨prev, p, hp, hp', o, ho, s, hs, t, _, _, _, hl⟩ := C74_law (fun _ _ h r => r.energy = 0 ∨ r.energy = h.ray.energy)
        hlib.shapeOk (fun o ho s hs => (hlib.geometry o ho s hs).lengthOk) (hall _ fun _ _ _ => hone) (fun _ _ _ _ _ _ h => h) hres hk hr
      rcases hl with hl | hl
      · exact .inl hl
      · rw [hl]
        exact ih prev hp p (List.mem_of_getElem? hp')

theorem twoRays_unit (y z : ℝ) (extra : E) : ∀ r ∈ twoRays y z extra, r.dir.IsUnit ∧ r.energy = 1 := by
  have hss := half_sqrt_two
  intro r hr
  rw [twoRays_eq, List.mem_cons, List.mem_singleton] at hr
  rcases hr with rfl | rfl
  · refine ⟨?_, rfl⟩
    show 0 * 0 + -(√2 / 2) * -(√2 / 2) + √2 / 2 * (√2 / 2) = 1
    linarith
  · refine ⟨?_, rfl⟩
    show (0 : ℝ) * 0 + 0 * 0 + -1 * -1 = 1
    norm_num

/-- C106: wherever the sliders are put, the window shows exactly the lines from each ray to its children, and a line of length 1 for each ray
that was not absorbed and has none. -/
theorem C106_shows (y z : ℝ) (junk : M3 ℝ) (w : σ) (extra : E) :
    ∃ (res : TraceResult σ ℝ E) (points : List (V3 ℝ)) (connections : List (Nat × Nat)),
      mirrorsWindow y z junk w extra = .ok (res, points, connections) ∧ res.tree.head? = some (twoRays y z extra) ∧
      (∀ lvl ∈ res.tree, ∀ r ∈ lvl, r.energy = 0 ∨ r.energy = 1) ∧
      ∀ p q, Drawn points connections p q ↔ ToChild res.tree p q ∨
        ∃ k i r, InTree res.tree k i r ∧ r.energy ≠ 0 ∧ (∀ j c, InTree res.tree (k + 1) j c → c.parent ≠ i) ∧
          p = r.vertex ∧ q = r.vertex + (1 : ℝ) • r.dir := by
  obtain ⟨a, ha, _, hrun, hshape, hlen, hpar, hen⟩ := twoMirrors_scene (σ := σ) (E := E) junk
  obtain ⟨res, hres⟩ := hrun w (twoRays y z extra) 200000000 (1 / 20) fun r hr => (twoRays_unit y z extra r hr).1
  have hen := hen _ _ _ _ _ (fun r hr => (twoRays_unit y z extra r hr).2) hres
  obtain ⟨points, connections, hshow, _, hdrawn⟩ := C65_trace_partial hshape hlen hpar (by norm_num)
    (fun r hr => by rw [(twoRays_unit y z extra r hr).2]; norm_num) hres (by
      intro k lvl hk r hr
      rcases hen lvl (List.mem_of_getElem? hk) r hr with he | he
      · exact .inl he
      · exact .inr (by rw [he]; norm_num)) (1 : ℝ)
  refine ⟨res, points, connections, ?_, (C11_iteration_limit hshape hres).1, hen, hdrawn⟩
  unfold mirrorsWindow
  rw [ha]
  simp only [firstPlot, hres, hshow]

/-- The lines of two rays that are both reflected twice. -/
theorem lines_twice {a0 b0 a1 b1 a2 b2 : Ray ℝ E} (pa1 : a1.parent = 0) (pb1 : b1.parent = 1) (pb2 : b2.parent = 1) (pa2 : a2.parent = 0)
    (ea : a2.energy ≠ 0) (eb : b2.energy ≠ 0) (p q : V3 ℝ) :
    (ToChild [[a0, b0], [a1, b1], [b2, a2]] p q ∨
      ∃ k i r, InTree [[a0, b0], [a1, b1], [b2, a2]] k i r ∧ r.energy ≠ 0 ∧
        (∀ j c, InTree [[a0, b0], [a1, b1], [b2, a2]] (k + 1) j c → c.parent ≠ i) ∧ p = r.vertex ∧ q = r.vertex + (1 : ℝ) • r.dir) ↔
    (p, q) ∈ [(a0.vertex, a1.vertex), (a1.vertex, a2.vertex), (a2.vertex, a2.vertex + (1 : ℝ) • a2.dir),
      (b0.vertex, b1.vertex), (b1.vertex, b2.vertex), (b2.vertex, b2.vertex + (1 : ℝ) • b2.dir)] := by
  have hin : ∀ k i r, InTree [[a0, b0], [a1, b1], [b2, a2]] k i r ↔
      (k = 0 ∧ i = 0 ∧ r = a0) ∨ (k = 0 ∧ i = 1 ∧ r = b0) ∨ (k = 1 ∧ i = 0 ∧ r = a1) ∨ (k = 1 ∧ i = 1 ∧ r = b1) ∨
      (k = 2 ∧ i = 0 ∧ r = b2) ∨ (k = 2 ∧ i = 1 ∧ r = a2) := by
    intro k i r
    constructor
    · rintro ⟨l, hl, hr⟩
      match k, hl with
      | 0, hl =>
        cases hl
        match i, hr with
        | 0, hr => cases hr; simp
        | 1, hr => cases hr; simp
      | 1, hl =>
        cases hl
        match i, hr with
        | 0, hr => cases hr; simp
        | 1, hr => cases hr; simp
      | 2, hl =>
        cases hl
        match i, hr with
        | 0, hr => cases hr; simp
        | 1, hr => cases hr; simp
    · rintro (⟨rfl, rfl, rfl⟩ | ⟨rfl, rfl, rfl⟩ | ⟨rfl, rfl, rfl⟩ | ⟨rfl, rfl, rfl⟩ | ⟨rfl, rfl, rfl⟩ | ⟨rfl, rfl, rfl⟩) <;> exact ⟨_, rfl, rfl⟩
  simp only [List.mem_cons, List.not_mem_nil, or_false, Prod.mk.injEq]
  constructor
  · rintro (⟨k, i, j, r, c, hr, hc, hp, rfl, rfl⟩ | ⟨k, i, r, hr, he, hno, rfl, rfl⟩)
    · rw [hin] at hr hc
      rcases hr with ⟨rfl, rfl, rfl⟩ | ⟨rfl, rfl, rfl⟩ | ⟨rfl, rfl, rfl⟩ | ⟨rfl, rfl, rfl⟩ | ⟨rfl, rfl, rfl⟩ | ⟨rfl, rfl, rfl⟩ <;>
      rcases hc with ⟨hk, rfl, rfl⟩ | ⟨hk, rfl, rfl⟩ | ⟨hk, rfl, rfl⟩ | ⟨hk, rfl, rfl⟩ | ⟨hk, rfl, rfl⟩ | ⟨hk, rfl, rfl⟩ <;>
      first
        | omega
        | simp
    · rw [hin] at hr
      rcases hr with ⟨rfl, rfl, rfl⟩ | ⟨rfl, rfl, rfl⟩ | ⟨rfl, rfl, rfl⟩ | ⟨rfl, rfl, rfl⟩ | ⟨rfl, rfl, rfl⟩ | ⟨rfl, rfl, rfl⟩
      · exact absurd pa1 (hno 0 a1 ((hin _ _ _).2 (by simp)))
      · exact absurd pb1 (hno 1 b1 ((hin _ _ _).2 (by simp)))
      · exact absurd pa2 (hno 1 a2 ((hin _ _ _).2 (by simp)))
      · exact absurd pb2 (hno 0 b2 ((hin _ _ _).2 (by simp)))
      · simp
      · simp
  · rintro (⟨rfl, rfl⟩ | ⟨rfl, rfl⟩ | ⟨rfl, rfl⟩ | ⟨rfl, rfl⟩ | ⟨rfl, rfl⟩ | ⟨rfl, rfl⟩)
    · exact .inl ⟨0, 0, 0, a0, a1, (hin _ _ _).2 (by simp), (hin _ _ _).2 (by simp), pa1, rfl, rfl⟩
    · exact .inl ⟨1, 0, 1, a1, a2, (hin _ _ _).2 (by simp), (hin _ _ _).2 (by simp), pa2, rfl, rfl⟩
    · exact .inr ⟨2, 1, a2, (hin _ _ _).2 (by simp), ea, fun j c hc => by rw [hin] at hc; simp at hc, rfl, rfl⟩
    · exact .inl ⟨0, 1, 1, b0, b1, (hin _ _ _).2 (by simp), (hin _ _ _).2 (by simp), pb1, rfl, rfl⟩
    · exact .inl ⟨1, 1, 0, b1, b2, (hin _ _ _).2 (by simp), (hin _ _ _).2 (by simp), pb2, rfl, rfl⟩
    · exact .inr ⟨2, 0, b2, (hin _ _ _).2 (by simp), eb, fun j c hc => by rw [hin] at hc; simp at hc, rfl, rfl⟩

/-- The lines when one ray escapes and the other is absorbed. -/
theorem lines_absorbed {a0 b0 c : Ray ℝ E} (pc : c.parent = 1) (ea : a0.energy ≠ 0) (ec : c.energy = 0) (p q : V3 ℝ) :
    (ToChild [[a0, b0], [c]] p q ∨
      ∃ k i r, InTree [[a0, b0], [c]] k i r ∧ r.energy ≠ 0 ∧ (∀ j c', InTree [[a0, b0], [c]] (k + 1) j c' → c'.parent ≠ i) ∧
        p = r.vertex ∧ q = r.vertex + (1 : ℝ) • r.dir) ↔
    (p, q) ∈ [(a0.vertex, a0.vertex + (1 : ℝ) • a0.dir), (b0.vertex, c.vertex)] := by
  have hin : ∀ k i r, InTree [[a0, b0], [c]] k i r ↔ (k = 0 ∧ i = 0 ∧ r = a0) ∨ (k = 0 ∧ i = 1 ∧ r = b0) ∨ (k = 1 ∧ i = 0 ∧ r = c) := by
    intro k i r
    constructor
    · rintro ⟨l, hl, hr⟩
      match k, hl with
      | 0, hl =>
        cases hl
        match i, hr with
        | 0, hr => cases hr; simp
        | 1, hr => cases hr; simp
      | 1, hl =>
        cases hl
        match i, hr with
        | 0, hr => cases hr; simp
    · rintro (⟨rfl, rfl, rfl⟩ | ⟨rfl, rfl, rfl⟩ | ⟨rfl, rfl, rfl⟩) <;> exact ⟨_, rfl, rfl⟩
  simp only [List.mem_cons, List.not_mem_nil, or_false, Prod.mk.injEq]
  constructor
  · rintro (⟨k, i, j, r, c', hr, hc, hp, rfl, rfl⟩ | ⟨k, i, r, hr, he, hno, rfl, rfl⟩)
    · rw [hin] at hr hc
      rcases hr with ⟨rfl, rfl, rfl⟩ | ⟨rfl, rfl, rfl⟩ | ⟨rfl, rfl, rfl⟩ <;>
      rcases hc with ⟨hk, rfl, rfl⟩ | ⟨hk, rfl, rfl⟩ | ⟨hk, rfl, rfl⟩ <;>
      first
        | omega
        | simp
    · rw [hin] at hr
      rcases hr with ⟨rfl, rfl, rfl⟩ | ⟨rfl, rfl, rfl⟩ | ⟨rfl, rfl, rfl⟩
      · simp
      · exact absurd pc (hno 0 c ((hin _ _ _).2 (by simp)))
      · exact absurd ec he
  · rintro (⟨rfl, rfl⟩ | ⟨rfl, rfl⟩)
    · refine .inr ⟨0, 0, a0, (hin _ _ _).2 (by simp), ea, fun j c' hc => ?_, rfl, rfl⟩
      rw [hin] at hc
      rcases hc with ⟨hk, _, _⟩ | ⟨hk, _, _⟩ | ⟨_, _, rfl⟩
      · omega
      · omega
      · rw [pc]; norm_num
    · exact .inl ⟨0, 1, 0, b0, c, (hin _ _ _).2 (by simp), (hin _ _ _).2 (by simp), pc, rfl, rfl⟩

/-- C106: in front of both mirrors, where both reach their rays, each ray is reflected by one and then by the other, and the window shows
these two paths. -/
theorem C106_between {y z : ℝ} (hz : 1 / 10 ^ 10 < z) (hzy : 1 / 10 ^ 9 < y - z) (hy : 1 / 10 ^ 5 < y) (h1 : y + z ≤ 5) (h2 : √2 * y ≤ 5)
    (junk : M3 ℝ) (w : σ) (extra : E) :
    ∃ (res : TraceResult σ ℝ E) (points : List (V3 ℝ)) (connections : List (Nat × Nat)),
      mirrorsWindow y z junk w extra = .ok (res, points, connections) ∧
      ∀ p q, Drawn points connections p q ↔ (p, q) ∈ ([
        (⟨0, y, z⟩, ⟨0, (y + z) / 2, (y + z) / 2⟩), (⟨0, (y + z) / 2, (y + z) / 2⟩, ⟨0, y + z, 0⟩),
        (⟨0, y + z, 0⟩, ⟨0, y + z + √2 / 2, √2 / 2⟩),
        (⟨0, y, z⟩, ⟨0, y, 0⟩), (⟨0, y, 0⟩, ⟨0, y, y⟩), (⟨0, y, y⟩, ⟨0, y + 1, y⟩)] : List (V3 ℝ × V3 ℝ)) := by
  obtain ⟨res, points, connections, hw, _, _, hdrawn⟩ := C106_shows y z junk w extra
  refine ⟨res, points, connections, hw, fun p q => ?_⟩
  obtain ⟨a, ha, hsc, _⟩ := twoMirrors_scene (σ := σ) (E := E) junk
  have htr := pair_trace hz hzy hy h1 h2 w extra 199999997
  have htree : res.tree = pathsBetween y z extra := by
    unfold mirrorsWindow at hw
    rw [ha] at hw
    simp only [hsc, firstPlot, htr] at hw
    split at hw
    · cases hw
    · cases hw
      rfl
  rw [hdrawn, htree]
  unfold pathsBetween
  rw [lines_twice rfl rfl rfl rfl (by norm_num) (by norm_num)]
  simp only [onward]
  norm_num

/-- C106: behind the leaning mirror one ray escapes and the other is absorbed on the mirror's back. -/
theorem C106_behind {y z : ℝ} (hy : 0 < y) (hyz : 1 / 10 ^ 10 < z - y) (h2 : √2 * y ≤ 5) (junk : M3 ℝ) (w : σ) (extra : E) :
    ∃ (res : TraceResult σ ℝ E) (points : List (V3 ℝ)) (connections : List (Nat × Nat)),
      mirrorsWindow y z junk w extra = .ok (res, points, connections) ∧
      ∀ p q, Drawn points connections p q ↔ (p, q) ∈ ([(⟨0, y, z⟩, ⟨0, y - √2 / 2, z + √2 / 2⟩), (⟨0, y, z⟩, ⟨0, y, y⟩)] : List (V3 ℝ × V3 ℝ)) := by
  obtain ⟨res, points, connections, hw, _, _, hdrawn⟩ := C106_shows y z junk w extra
  refine ⟨res, points, connections, hw, fun p q => ?_⟩
  obtain ⟨a, ha, hsc, _⟩ := twoMirrors_scene (σ := σ) (E := E) junk
  have hs := half_sqrt_two_pos
  have hss := half_sqrt_two
  have hs1 : √2 / 2 < 1 := by nlinarith
  have hs2 : 1 / 2 < √2 / 2 := by nlinarith
  have tol : ∀ {x : ℝ}, 1 / 2 < x → (parallelTol : ℝ) < |x| := by
    intro x hx
    unfold parallelTol
    exact lt_of_lt_of_le (by linarith) (le_abs_self x)
  have fA : finiteParam (rectOutside 10 10) leaning ⟨0, y, z⟩ ⟨0, -(√2 / 2), √2 / 2⟩ = ⊤ := leaning_behind (by nlinarith)
  have gA : finiteParam (rectOutside 10 10) 1 ⟨0, y, z⟩ ⟨0, -(√2 / 2), √2 / 2⟩ = ⊤ := level_behind (by nlinarith)
  have fB : finiteParam (rectOutside 10 10) leaning ⟨0, y, z⟩ ⟨0, 0, -1⟩ = ((z - y : ℝ) : WithTop ℝ) := by
    refine leaning_hit (tol (by linarith)) (by ring) (by linarith) ?_
    rw [abs_le]
    constructor <;> nlinarith
  have gB : finiteParam (rectOutside 10 10) 1 ⟨0, y, z⟩ ⟨0, 0, -1⟩ = (z : WithTop ℝ) := by
    refine level_hit ?_ (by ring) (by linarith) (by rw [mul_zero, add_zero, abs_le]; constructor <;> nlinarith)
    rw [abs_neg, abs_one]
    unfold parallelTol
    norm_num
  have hdot : 0 < V3.dot (⟨0, 0, -1⟩ : V3 ℝ) leaning.rot.c3 := by
    show 0 < (0 : ℝ) * 0 + 0 * (√2 / 2) + -1 * -(√2 / 2)
    linarith
  have hout := tenByTen_outgoing (E := E) leaning w (rays := twoRays y z extra) (i := 1) (by rw [twoRays_eq]; rfl) fB
  rw [if_pos hdot] at hout
  rw [twoRays_eq] at hout
  have htr := one_absorbed (t := z - y) (u := z) (minE := 1 / 20) (s1 := tenByTen leaning) (s2 := tenByTen 1) 199999999 (by
    rw [tenByTen_register]
    simp only [List.map_cons, List.map_nil, fA, fB]) (by
    rw [tenByTen_register]
    simp only [List.map_cons, List.map_nil, gA, gB]) hyz (by linarith) hout rfl (by norm_num)
  rw [← twoRays_eq] at htr
  have hw' := hw
  unfold mirrorsWindow at hw'
  rw [ha] at hw'
  simp only [hsc, firstPlot, htr] at hw'
  split at hw'
  · cases hw'
  · cases hw'
    rw [hdrawn]
    simp only [twoRays_eq]
    rw [lines_absorbed rfl (by norm_num) rfl]
    simp only [reflectOne, Ray.at, onward]
    norm_num [sub_eq_add_neg]

/-! ## The hypotheses are met -/

/-- Where the window opens: the sliders at 2 and 1. -/
example : (1 : ℝ) / 10 ^ 10 < 1 ∧ (1 : ℝ) / 10 ^ 9 < 2 - 1 ∧ (1 : ℝ) / 10 ^ 5 < 2 ∧ (2 : ℝ) + 1 ≤ 5 ∧ √2 * 2 ≤ 5 := by
  have := sqrt_two_lt_three_halves
  refine ⟨by norm_num, by norm_num, by norm_num, by norm_num, by linarith⟩

/-- Behind the mirror: the sliders at 1 and 2. -/
example : (0 : ℝ) < 1 ∧ (1 : ℝ) / 10 ^ 10 < 2 - 1 ∧ √2 * 1 ≤ 5 := by
  have := sqrt_two_lt_three_halves
  refine ⟨by norm_num, by norm_num, by linarith⟩

end Tracer
