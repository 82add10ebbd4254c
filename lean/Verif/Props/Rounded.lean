import Verif.Lemmas.Rounded
import Verif.Lemmas.Leak
import Verif.Lemmas.Progress
import Verif.Spec.Rigid
import Verif.Props.Engine

/-! # Rounding errors at flat mirrors (C98, C99) -/

set_option linter.unusedSectionVars false

namespace Tracer

variable {E σ : Type _} {objs : List (Obj σ ℝ E)} {w : σ} {b : Bundle ℝ E} {reps : Nat} {minE u : ℝ} {res : TraceResult σ ℝ E}

/-- C98: in a scene of mirrors that compute with rounding errors, every recorded ray is what one of them made of its parent. -/
theorem C98_law (hobj : ∀ o ∈ objs, o.ShapeOk) (hmir : AllSurfs (fun s => ∃ F a, RoundedMirror u F a s) objs)
    (h : rayTracer objs w b reps minE true = .ok res)
    {k : Nat} {lvl : Bundle ℝ E} (hk : res.tree[k + 1]? = some lvl) {r : Ray ℝ E} (hr : r ∈ lvl) :
    ∃ prev p, res.tree[k]? = some prev ∧ prev[r.parent]? = some p ∧
      ∃ s ∈ objs.flatMap Obj.surfs, ∃ t : ℝ, 1 / 10 ^ 10 < t ∧ ∀ F a, RoundedMirror u F a s → Struck u F a p t r := by
  obtain ⟨st, st', gen, steps, prev, _, _, hsh, hi, _, hprev, h0, h1⟩ := tree_level hobj h hk
  have hmem : r ∈ gen := by
    have hf := iterate_ok hsh hi
    rw [hf.recorded, hf.strong] at hr
    rcases List.mem_append.1 hr with hr | hr <;> exact (List.mem_filter.1 hr).1
  have hlen : AllSurfs Surf.LengthOk objs := fun o ho s hs => by obtain ⟨F, a, hm⟩ := hmir o ho s hs; exact hm.length
  have hpar : AllSurfs Surf.ParentsOk objs := fun o ho s hs => by obtain ⟨F, a, hm⟩ := hmir o ho s hs; exact hm.parents
  obtain ⟨kk, s, p, hc⟩ := generated_child hsh hlen hpar hi hmem
  have hpp : prev[r.parent]? = some p := by
    cases k with
    | zero => rw [(h0 rfl).1, ← (h0 rfl).2]; exact hc.parent
    | succ k =>
      obtain ⟨weak, hw, _, _⟩ := h1 (by omega)
      rw [hw, List.getElem?_append_left (List.getElem?_eq_some_iff.1 hc.parent).1]
      exact hc.parent
  refine ⟨prev, p, hprev, hpp, s, List.mem_of_getElem? hc.surf, ?_⟩
  obtain ⟨w1, w2, rays, raw, sel, r0, t, hout, _, hr0, hr0s, hreq, hp0, hreg, hall, _, _, _⟩ := hc.raw
  obtain ⟨t2, ht2, hlt⟩ := hall _ hr0s
  rw [hreg] at ht2
  have htt : t = t2 := WithTop.coe_injective (Option.some.inj ht2)
  refine ⟨t, by rw [htt]; exact hlt, fun F a hm => ?_⟩
  have hstruck := hm.children _ _ _ _ _ hout r0 hr0 p t hp0 hreg
  rw [hreq]
  exact ⟨hstruck.param, hstruck.point, hstruck.dir, hstruck.energy⟩

/-- C98: a ray that a mirror sends on is computed to meet that mirror again only at a parameter of at most 1e-10, which the engine drops, if
the scene is small enough for the precision and the ray does not graze the mirror. -/
theorem C98_not_again_partial {L c t t' a : ℝ} {F : Tf ℝ} {p r : Ray ℝ E} (hu : 0 ≤ u) (hu1 : u ≤ 1 / 1000)
    (hn : |V3.dot F.rot.c3 F.rot.c3 - 1| ≤ 1 / 8) (hd : V3.dot p.dir p.dir ≤ 9 / 8) (hv : p.vertex.Within L) (hloc : F.loc.Within L)
    (ht : t ≤ L) (hc : 0 < c) (hcos : c ≤ |V3.dot p.dir F.rot.c3|) (huc : 500 * u ≤ c) (hfine : 144 * u * L ≤ c / 10 ^ 10)
    (h : Struck u F a p t r) (h' : RoundedParam u F r.vertex r.dir t') : t' ≤ 1 / 10 ^ 10 := by
  have he : RoundedMirrored u F.rot.c3 p.dir r.dir := h.dir.elim id neg_normal
  have h1 := again_small hu hu1 hn hd hv hloc h.param h.point ht he hcos huc hc h'
  have h2 : t' * c ≤ 1 / 10 ^ 10 * c := by linarith
  exact le_of_mul_le_mul_right h2 hc

/-- C99: the computed hit point is near the point where the ray meets the plane. -/
theorem C99_accuracy {L c t τ a : ℝ} {F : Tf ℝ} {p r : Ray ℝ E} (hu : 0 ≤ u) (hu1 : u ≤ 1 / 1000)
    (hn : V3.dot F.rot.c3 F.rot.c3 ≤ 9 / 8) (hd : V3.dot p.dir p.dir ≤ 9 / 8) (hv : p.vertex.Within L) (hloc : F.loc.Within L)
    (ht : t ≤ L) (hc : 0 < c) (hcos : c ≤ |V3.dot p.dir F.rot.c3|) (h : Struck u F a p t r)
    (hτ : V3.dot F.rot.c3 (p.at τ - F.loc) = 0) :
    |t - τ| ≤ 34 * u * L / c ∧ (r.vertex - p.at τ).Within (34 / 10 * u * L + 39 * u * L / c) := by
  have h1 := h.param.residual hu hu1 hn hd hv hloc ht
  have ht0 := h.param.1
  have hL : 0 ≤ L := ht0.trans ht
  have huL : 0 ≤ u * L := mul_nonneg hu hL
  have e : V3.dot F.rot.c3 (p.vertex + t • p.dir - F.loc) = (t - τ) * V3.dot p.dir F.rot.c3 + V3.dot F.rot.c3 (p.at τ - F.loc) := by
    unfold Ray.at V3.dot; simp; ring
  rw [e, hτ, add_zero, abs_mul] at h1
  have h2 : |t - τ| * c ≤ 333 / 10 * u * L := (mul_le_mul_of_nonneg_left hcos (abs_nonneg _)).trans h1
  have h3 : |t - τ| ≤ 333 / 10 * u * L / c := (le_div_iff₀ hc).2 h2
  have h4 : 333 / 10 * u * L / c ≤ 34 * u * L / c := div_le_div_of_nonneg_right (by nlinarith) hc.le
  refine ⟨h3.trans h4, ?_⟩
  have h5 := (h.point.near hu hu1 hd hv ht0 ht).1
  have h6 : ((p.vertex + t • p.dir) - p.at τ).Within (333 / 10 * u * L / c * (9 / 8)) := by
    have e : (p.vertex + t • p.dir) - p.at τ = (t - τ) • p.dir := by unfold Ray.at; apply V3.ext <;> simp <;> ring
    rw [e]
    exact (V3.within_unit hd).smul h3
  refine (h5.trans_sub h6).mono ?_
  have h7 : 333 / 10 * u * L / c * (9 / 8) ≤ 39 * u * L / c := by
    rw [div_mul_eq_mul_div]
    exact div_le_div_of_nonneg_right (by nlinarith) hc.le
  nlinarith

/-- C99: how the lengths of the directions change with the number of reflections. -/
theorem C99_directions (hobj : ∀ o ∈ objs, o.ShapeOk) {ν : ℝ} (hu : 0 ≤ u) (hu1 : u ≤ 1 / 1000) (hν : ν ≤ 1 / 8) (hε : 5 * ν + 260 * u ≤ 1)
    (hmir : AllSurfs (fun s => ∃ F a, |V3.dot F.rot.c3 F.rot.c3 - 1| ≤ ν ∧ RoundedMirror u F a s) objs)
    (h : rayTracer objs w b reps minE true = .ok res) :
    ∀ (k : Nat) (lvl : Bundle ℝ E), res.tree[k]? = some lvl → ∀ r ∈ lvl, ∃ q ∈ b,
      (1 - (5 * ν + 260 * u)) ^ k * V3.dot q.dir q.dir ≤ V3.dot r.dir r.dir ∧
      V3.dot r.dir r.dir ≤ (1 + (5 * ν + 260 * u)) ^ k * V3.dot q.dir q.dir := by
  intro k
  induction k with
  | zero =>
    intro lvl hk r hr
    have h0 : res.tree[0]? = some b := by
      obtain ⟨_, steps, stf, _, _, htree, _⟩ := rayTracer_run h
      rw [htree]; rfl
    rw [h0] at hk; cases hk
    exact ⟨r, hr, by simp, by simp⟩
  | succ k ih =>
    intro lvl hk r hr
    obtain ⟨prev, p, hprev, hp, s, hs, t, _, hstruck⟩ := C98_law hobj
      (fun o ho s hs => by obtain ⟨F, a, _, hm⟩ := hmir o ho s hs; exact ⟨F, a, hm⟩) h hk hr
    obtain ⟨q, hq, h1, h2⟩ := ih prev hprev p (List.mem_of_getElem? hp)
    refine ⟨q, hq, ?_⟩
    obtain ⟨F, a, hF, hm⟩ := mem_allSurfs hmir hs
    have hν0 : 0 ≤ ν := (abs_nonneg _).trans hF
    have he : RoundedMirrored u F.rot.c3 p.dir r.dir := (hstruck F a hm).dir.elim id neg_normal
    have hd := abs_le.1 (he.drift hu hu1 hν hF)
    have e1 := mul_le_mul_of_nonneg_left h1 (sub_nonneg.2 hε)
    have e2 := mul_le_mul_of_nonneg_left h2 (by positivity : 0 ≤ 1 + (5 * ν + 260 * u))
    constructor
    · rw [pow_succ', mul_assoc]
      linarith [hd.1]
    · rw [pow_succ', mul_assoc]
      linarith [hd.2]

/-- C99: how the computed energies compare with the exact ones, after any number of reflections. -/
theorem C99_energy (hobj : ∀ o ∈ objs, o.ShapeOk) {a1 a2 : ℝ} (hu : 0 ≤ u) (hu1 : u ≤ 1) (ha1 : 0 ≤ a1) (ha2 : a2 ≤ 1)
    (hmir : AllSurfs (fun s => ∃ F a, (a1 ≤ a ∧ a ≤ a2) ∧ RoundedMirror u F a s) objs)
    (hb : ∀ q ∈ b, 0 ≤ q.energy) (h : rayTracer objs w b reps minE true = .ok res) :
    ∀ (k : Nat) (lvl : Bundle ℝ E), res.tree[k]? = some lvl → ∀ r ∈ lvl, ∃ q ∈ b,
      ((1 - u) ^ 2 * (1 - a2)) ^ k * q.energy ≤ r.energy ∧ r.energy ≤ ((1 + u) ^ 2 * (1 - a1)) ^ k * q.energy := by
  intro k
  induction k with
  | zero =>
    intro lvl hk r hr
    have h0 : res.tree[0]? = some b := by
      obtain ⟨_, steps, stf, _, _, htree, _⟩ := rayTracer_run h
      rw [htree]; rfl
    rw [h0] at hk; cases hk
    exact ⟨r, hr, by simp, by simp⟩
  | succ k ih =>
    intro lvl hk r hr
    obtain ⟨prev, p, hprev, hp, s, hs, t, _, hstruck⟩ := C98_law hobj
      (fun o ho s hs => by obtain ⟨F, a, _, hm⟩ := hmir o ho s hs; exact ⟨F, a, hm⟩) h hk hr
    obtain ⟨q, hq, h1, h2⟩ := ih prev hprev p (List.mem_of_getElem? hp)
    refine ⟨q, hq, ?_⟩
    obtain ⟨F, a, ⟨hlo, hhi⟩, hm⟩ := mem_allSurfs hmir hs
    obtain ⟨g, hg, hE⟩ := (hstruck F a hm).energy
    have hpow : 0 ≤ ((1 - u) ^ 2 * (1 - a2)) ^ k * q.energy :=
      mul_nonneg (pow_nonneg (mul_nonneg (sq_nonneg _) (by linarith)) _) (hb q hq)
    have hp0 : 0 ≤ p.energy := hpow.trans h1
    have ha : 0 ≤ 1 - a := by linarith
    have hg' : |g - (1 - a)| ≤ u * (1 - a) := by have := hg; unfold Rounds at this; rwa [abs_of_nonneg ha] at this
    obtain ⟨g1, g2⟩ := abs_le.1 hg'
    have hglo : (1 - u) * (1 - a) ≤ g := by linarith
    have hghi : g ≤ (1 + u) * (1 - a) := by linarith
    have hg0 : 0 ≤ g := (mul_nonneg (by linarith) ha).trans hglo
    have hpg : 0 ≤ p.energy * g := mul_nonneg hp0 hg0
    have hE' : |r.energy - p.energy * g| ≤ u * (p.energy * g) := by have := hE; unfold Rounds at this; rwa [abs_of_nonneg hpg] at this
    obtain ⟨r1, r2⟩ := abs_le.1 hE'
    have hu0 : 0 ≤ 1 + u := by linarith
    constructor
    · have e1 : (1 - u) * (p.energy * g) ≤ r.energy := by linarith
      have e2 : (1 - u) * (p.energy * ((1 - u) * (1 - a))) ≤ (1 - u) * (p.energy * g) :=
        mul_le_mul_of_nonneg_left (mul_le_mul_of_nonneg_left hglo hp0) (by linarith)
      have e3 : (1 - u) ^ 2 * (1 - a2) * p.energy ≤ (1 - u) ^ 2 * (1 - a) * p.energy :=
        mul_le_mul_of_nonneg_right (mul_le_mul_of_nonneg_left (by linarith) (sq_nonneg _)) hp0
      have e4 := mul_le_mul_of_nonneg_left h1 (mul_nonneg (sq_nonneg (1 - u)) (by linarith : 0 ≤ 1 - a2))
      rw [pow_succ', mul_assoc]
      nlinarith
    · have e1 : r.energy ≤ (1 + u) * (p.energy * g) := by linarith
      have e2 : (1 + u) * (p.energy * g) ≤ (1 + u) * (p.energy * ((1 + u) * (1 - a))) :=
        mul_le_mul_of_nonneg_left (mul_le_mul_of_nonneg_left hghi hp0) hu0
      have e3 : (1 + u) ^ 2 * (1 - a) * p.energy ≤ (1 + u) ^ 2 * (1 - a1) * p.energy :=
        mul_le_mul_of_nonneg_right (mul_le_mul_of_nonneg_left (by linarith) (sq_nonneg _)) hp0
      have e4 := mul_le_mul_of_nonneg_left h2 (mul_nonneg (sq_nonneg (1 + u)) (by linarith : 0 ≤ 1 - a1))
      rw [pow_succ', mul_assoc]
      nlinarith

/-- C98: at every depth of a trace, two hits in a row are not on the same mirror, nor on another one in the same frame. -/
theorem C98_moves_on_partial (hobj : ∀ o ∈ objs, o.ShapeOk) {ν : ℝ} (hu : 0 ≤ u) (hu1 : u ≤ 1 / 1000) (hν : ν ≤ 1 / 8) (hε : 5 * ν + 260 * u ≤ 1)
    (hmir : AllSurfs (fun s => ∃ F a, |V3.dot F.rot.c3 F.rot.c3 - 1| ≤ ν ∧ RoundedMirror u F a s) objs)
    {D : ℝ} (hb : ∀ q ∈ b, V3.dot q.dir q.dir ≤ D) (h : rayTracer objs w b reps minE true = .ok res)
    {N : Nat} (hN : (1 + (5 * ν + 260 * u)) ^ N * D ≤ 9 / 8) {k : Nat} (hkN : k ≤ N)
    {lvl : Bundle ℝ E} (hk : res.tree[k + 2]? = some lvl) {r2 : Ray ℝ E} (hr2 : r2 ∈ lvl) :
    ∃ lvl1 r lvl0 p, res.tree[k + 1]? = some lvl1 ∧ lvl1[r2.parent]? = some r ∧ res.tree[k]? = some lvl0 ∧ lvl0[r.parent]? = some p ∧
      ∃ s ∈ objs.flatMap Obj.surfs, ∃ t, 1 / 10 ^ 10 < t ∧ (∀ F a, RoundedMirror u F a s → Struck u F a p t r) ∧
      ∃ s2 ∈ objs.flatMap Obj.surfs, ∃ t2, 1 / 10 ^ 10 < t2 ∧ (∀ F a, RoundedMirror u F a s2 → Struck u F a r t2 r2) ∧
      ∀ (F : Tf ℝ) (a a' L c : ℝ), |V3.dot F.rot.c3 F.rot.c3 - 1| ≤ ν → RoundedMirror u F a s →
        p.vertex.Within L → F.loc.Within L → t ≤ L → 0 < c → c ≤ |V3.dot p.dir F.rot.c3| → 500 * u ≤ c → 144 * u * L ≤ c / 10 ^ 10 →
        ¬ RoundedMirror u F a' s2 := by
  have hmir' : AllSurfs (fun s => ∃ F a, RoundedMirror u F a s) objs :=
    fun o ho s hs => by obtain ⟨F, a, _, hm⟩ := hmir o ho s hs; exact ⟨F, a, hm⟩
  obtain ⟨lvl1, r, h1, h2, s2, hs2, t2, ht2, hst2⟩ := C98_law hobj hmir' h hk hr2
  obtain ⟨lvl0, p, h3, h4, s, hs, t, ht, hst⟩ := C98_law hobj hmir' h h1 (List.mem_of_getElem? h2)
  refine ⟨lvl1, r, lvl0, p, h1, h2, h3, h4, s, hs, t, ht, hst, s2, hs2, t2, ht2, hst2, ?_⟩
  intro F a a' L c hn hm hv hloc htL hc hcos huc hfine hm2
  obtain ⟨q, hq, _, hup⟩ := C99_directions hobj hu hu1 hν hε hmir h k lvl0 h3 p (List.mem_of_getElem? h4)
  have hν0 : 0 ≤ ν := (abs_nonneg _).trans hn
  have hd : V3.dot p.dir p.dir ≤ 9 / 8 := by
    have hone : (1 : ℝ) ≤ 1 + (5 * ν + 260 * u) := by linarith
    have hD : 0 ≤ V3.dot q.dir q.dir := by unfold V3.dot; nlinarith [mul_self_nonneg q.dir.x, mul_self_nonneg q.dir.y, mul_self_nonneg q.dir.z]
    have h1 := mul_le_mul (pow_le_pow_right₀ hone hkN) (hb q hq) hD (pow_nonneg (by linarith) N)
    exact hup.trans (h1.trans hN)
  exact absurd ht2 (not_lt.2 (C98_not_again_partial hu hu1 (hn.trans hν) hd hv hloc htL hc hcos huc hfine (hst F a hm) (hst2 F a' hm2).param))

/-- C98: a scene of such mirrors is traced without an exception. -/
theorem C98_returns {fl : ℝ → ℝ} (hobj : ∀ o ∈ objs, o.ShapeOk) (hne : objs.flatMap Obj.surfs ≠ [])
    (hmir : AllSurfs (fun s => ∃ F a, s = flMirror fl a F) objs) (w : σ) (b : Bundle ℝ E) (reps : Nat) (minE : ℝ) :
    ∃ res, rayTracer objs w b reps minE true = .ok res := by
  refine rayTracer_safe (Q := fun _ => True) hobj hne ?_ ?_ ?_ (Or.inl rfl) w fun _ _ => trivial
  · intro o ho s hs
    obtain ⟨F, a, rfl⟩ := hmir o ho s hs
    exact fun rays => by simp [flMirror]
  · intro o ho s hs
    obtain ⟨F, a, rfl⟩ := hmir o ho s hs
    intro rays p hp
    obtain ⟨r, _, rfl⟩ := List.mem_map.1 hp
    unfold flFlatParam
    simp only
    split
    · split
      · exact le_top
      · rename_i h
        exact_mod_cast not_lt.1 h
    · exact le_top
  · intro o ho s hs
    obtain ⟨F, a, rfl⟩ := hmir o ho s hs
    intro w rays sel _ _ hfin
    have key : ∀ sel : List Nat, (∀ i ∈ sel, ∃ t : ℝ, ((flMirror fl a F : Surf σ ℝ E).register rays)[i]? = some (t : WithTop ℝ)) →
        ∃ out, flChildren fl a F rays sel = .ok out := by
      intro sel
      induction sel with
      | nil => exact fun _ => ⟨[], rfl⟩
      | cons i sel ih =>
        intro hfin
        obtain ⟨t, ht⟩ := hfin i List.mem_cons_self
        obtain ⟨out, hout⟩ := ih fun j hj => hfin j (List.mem_cons_of_mem _ hj)
        simp only [flMirror, List.getElem?_map, Option.map_eq_some_iff] at ht
        obtain ⟨r, hr, ht⟩ := ht
        unfold flChildren
        simp only [hr, ht, hout]
        exact ⟨_, rfl⟩
    obtain ⟨out, hout⟩ := key sel hfin
    refine ⟨out, w, by simp only [flMirror, hout], fun r hr => ⟨(flChildren_ok hout r hr).1, fun _ => trivial⟩⟩

/-- C99: a plane that is clearly ahead of the ray is found. -/
theorem C99_found {fl : ℝ → ℝ} {L c τ : ℝ} {F : Tf ℝ} {a : ℝ} {p : Ray ℝ E} (hfl : ∀ x, Rounds u x (fl x)) (hu : 0 ≤ u) (hu1 : u ≤ 1 / 1000)
    (hn : V3.dot F.rot.c3 F.rot.c3 ≤ 9 / 8) (hd : V3.dot p.dir p.dir ≤ 9 / 8) (hv : p.vertex.Within L) (hloc : F.loc.Within L)
    (hcos : c ≤ |V3.dot p.dir F.rot.c3|) (hc : 10 * u + 1 / 10 ^ 10 < c)
    (hτ : V3.dot F.rot.c3 (p.at τ - F.loc) = 0) (hτc : 21 * u * L ≤ τ * c) :
    ∃ t : ℝ, (flMirror fl a F : Surf σ ℝ E).register [p] = [(t : WithTop ℝ)] := by
  obtain ⟨t, ht⟩ := flFlatParam_found hfl hu hu1 hn hd hv hloc hcos hc hτ hτc
  exact ⟨t, by simp [flMirror, ht]⟩

/-- C98: double precision is a case of such an arithmetic. -/
theorem C98_binary64 (a : ℝ) (F : Tf ℝ) : RoundedMirror (1 / 2 ^ 53) F a (flMirror binary64 a F : Surf σ ℝ E) :=
  flMirror_rounded (by norm_num) (by norm_num) binary64_rounds a F

/-- C98 fails for large scenes: a mirror 800 m away, computed in millimetres and double precision, lets the light through. A ray that comes
from below is reflected twice by the same mirror, and leaves upwards with all its energy. -/
theorem C98_leak_fails [Inhabited E] (w : σ) : ∃ res, rayTracer (lone (flMirror binary64 0 farMirror)) w [(farRay : Ray ℝ E)] 2 (1 / 2) true = .ok res ∧
    ∃ r : Ray ℝ E, res.tree[2]? = some [r] ∧ r.vertex.z = 800000 ∧ 0 < r.dir.z ∧ r.energy = 1 := by
  have hD : (parallelTol : ℝ) < 5404319552844595 / 2 ^ 53 := by unfold parallelTol; norm_num
  obtain ⟨h1, h2, h3⟩ := leak_first binary64_zero fl_a fl_D fl_negD fl_2D fl_negZ fl_T fl_TD fl_H hD (by norm_num) (by norm_num)
  obtain ⟨h4, h5, h6⟩ := leak_second (x := binary64 (binary64 (5726623061333334 / 2 ^ 32 * (7205759403792794 / 2 ^ 53)))) binary64_zero fl_a fl_D
    fl_negD fl_neg2D fl_q fl_t2 fl_t2D fl_Z hD (by norm_num) (by norm_num)
  let s : Surf σ ℝ E := flMirror binary64 0 farMirror
  let r1 : Ray ℝ E := flReflectOne binary64 0 farMirror 0 farRay (5726623061333334 / 2 ^ 32)
  let r2 : Ray ℝ E := flReflectOne binary64 0 farMirror 0 r1 (7505999378950827 / 2 ^ 85)
  have hv1 : r1.vertex = ⟨binary64 (binary64 (5726623061333334 / 2 ^ 32 * (7205759403792794 / 2 ^ 53))), 0, 800000 + 1 / 2 ^ 33⟩ := h2
  have hd1 : r1.dir = ⟨7205759403792794 / 2 ^ 53, 0, -(5404319552844595 / 2 ^ 53)⟩ := h3
  have he1 : r1.energy = 1 := by
    show binary64 (1 * binary64 (1 - 0)) = 1
    rw [sub_zero, fl_one, one_mul, fl_one]
  have he2 : r2.energy = 1 := by
    show binary64 (r1.energy * binary64 (1 - 0)) = 1
    rw [he1, sub_zero, fl_one, one_mul, fl_one]
  have hp1 : flFlatParam binary64 farMirror (farRay : Ray ℝ E).vertex (farRay : Ray ℝ E).dir = ((5726623061333334 / 2 ^ 32 : ℝ) : WithTop ℝ) := h1
  have hp2 : flFlatParam binary64 farMirror r1.vertex r1.dir = ((7505999378950827 / 2 ^ 85 : ℝ) : WithTop ℝ) := by rw [hv1, hd1]; exact h4
  have s1 := lone_step (s := s) (w := w) (w' := w) (r := farRay) (c := r1) (minE := 1 / 2) (flMirror_one hp1 w).1 (by norm_num)
    (flMirror_one hp1 w).2 rfl (by rw [he1]; norm_num)
  have s2 := lone_step (s := s) (w := w) (w' := w) (r := r1) (c := r2) (minE := 1 / 2) (flMirror_one hp2 w).1 (by norm_num)
    (flMirror_one hp2 w).2 rfl (by rw [he2]; norm_num)
  have hrun : rayTracer (lone s) w [(farRay : Ray ℝ E)] 2 (1 / 2) true = .ok ⟨[r2.vertex], [r2.dir], [[farRay], [r1], [r2]], w⟩ := by
    have hs : getSurfaces (lone s) = .ok [s] := rfl
    have hi : initState (lone s) [(farRay : Ray ℝ E)] w = ⟨[farRay], [none], [[true]], w⟩ := rfl
    unfold rayTracer
    simp only [hs, hi, traceLoop, s1, s2]
    rfl
  refine ⟨_, hrun, r2, rfl, ?_, ?_, he2⟩
  · show (flHit binary64 r1.vertex r1.dir _).z = 800000
    rw [hv1, hd1]; exact h5
  · show 0 < (flReflection binary64 r1.dir (flNormal binary64 farMirror r1.dir)).z
    rw [hd1]
    have : flReflection binary64 _ (flNormal binary64 farMirror _) = _ := h6
    rw [this]; norm_num

/-! ### The hypotheses can be met -/

/-- Exact numbers: a ray going up meets a mirror at height 1 and comes back. -/
example : Struck (E := Unit) (1 / 2 ^ 53) ⟨1, ⟨0, 0, 1⟩⟩ (1 / 2) ⟨⟨0, 0, 0⟩, ⟨0, 0, 1⟩, 1, 0, none, ()⟩ 1 ⟨⟨0, 0, 1⟩, ⟨0, 0, -1⟩, 1 / 2, 0, none, ()⟩ ∧
    ∀ t', RoundedParam (1 / 2 ^ 53) ⟨1, ⟨0, 0, 1⟩⟩ ⟨0, 0, 1⟩ ⟨0, 0, -1⟩ t' → t' ≤ 1 / 10 ^ 10 := by
  have h : Struck (E := Unit) (1 / 2 ^ 53) ⟨1, ⟨0, 0, 1⟩⟩ (1 / 2) ⟨⟨0, 0, 0⟩, ⟨0, 0, 1⟩, 1, 0, none, ()⟩ 1
      ⟨⟨0, 0, 1⟩, ⟨0, 0, -1⟩, 1 / 2, 0, none, ()⟩ := by
    refine ⟨⟨by norm_num, ⟨0, 0, -1⟩, 1, -1, ?_, ?_, ?_, ?_, ?_⟩, ⟨⟨0, 0, 1⟩, ?_, ?_⟩, Or.inl ⟨1, ⟨0, 0, 1⟩, ⟨0, 0, 2⟩, ?_, ?_, ?_, ?_⟩, ⟨1 / 2, ?_, ?_⟩⟩ <;>
      norm_num [V3.Rounds, Rounds, DotRounds, V3.dot]
  refine ⟨h, fun t' h' => ?_⟩
  refine C98_not_again_partial (L := 1000) (c := 1 / 2) (by norm_num) (by norm_num) ?_ ?_ ?_ ?_ (by norm_num) (by norm_num) ?_ (by norm_num) (by norm_num) h h' <;>
    norm_num [V3.dot, V3.Within]

/-- The far mirror in double precision, where two levels are recorded. -/
example (w : σ) : ∃ res lvl, rayTracer (lone (flMirror binary64 0 farMirror)) w [(farRay : Ray ℝ Unit)] 2 (1 / 2) true = .ok res ∧
    res.tree[0 + 2]? = some lvl ∧ lvl ≠ [] ∧
    (∀ o ∈ lone (flMirror binary64 0 farMirror : Surf σ ℝ Unit), o.ShapeOk) ∧
    AllSurfs (fun s => ∃ F a, |V3.dot F.rot.c3 F.rot.c3 - 1| ≤ 0 ∧ RoundedMirror (1 / 2 ^ 53) F a s) (lone (flMirror binary64 0 farMirror : Surf σ ℝ Unit)) ∧
    (∀ q ∈ [(farRay : Ray ℝ Unit)], V3.dot q.dir q.dir ≤ 11 / 10) ∧ (1 + (5 * 0 + 260 * (1 / 2 ^ 53)) : ℝ) ^ 100 * (11 / 10) ≤ 9 / 8 := by
  obtain ⟨res, h, r, hr, _⟩ := C98_leak_fails (E := Unit) w
  refine ⟨res, [r], h, hr, by simp, ?_, ?_, ?_, ?_⟩
  · intro o ho
    obtain ⟨n, hn⟩ := List.mem_iff_getElem?.1 ho
    exact (Obj.Plain.decides (lone_plain _) n o hn).shapeOk
  · intro o ho s hs
    rw [lone, List.mem_singleton] at ho
    subst ho
    rw [List.mem_singleton] at hs
    subst hs
    exact ⟨farMirror, 0, by norm_num [farMirror, V3.dot], C98_binary64 _ _⟩
  · intro q hq
    rw [List.mem_singleton] at hq
    subst hq
    norm_num [farRay, V3.dot]
  · norm_num

end Tracer
