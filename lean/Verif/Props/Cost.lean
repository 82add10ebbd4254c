import Verif.Props.MonteCarlo
import Verif.Spec.Cost
import Verif.Props.EnergyLibrary

/-!
# What the iteration limit and the energy threshold cost (C114)

In a scene of mirrors and receivers where no ray has two nearest surfaces, a ray has at most one child.  What is lost when it is not followed is at
most the energy it has.
-/

namespace Tracer

open MeasureTheory ProbabilityTheory Filter Topology

variable {E σ : Type _}

section
variable {objs : List (Obj σ ℝ E)} {w : σ} {get : σ → Account ℝ} {a : ℝ} {reps : Nat} {m m' ρ : ℝ} {φ : V3 ℝ → ℝ} {x : Site σ ℝ E}

/-- A ray that a surface makes of a ray has some energy, but at most the share `ρ` of the energy of that ray. -/
def Surf.Gives (ρ : ℝ) (s : Surf σ ℝ E) : Prop :=
  ∀ w r, 0 ≤ r.energy → ∀ q ∈ s.alone w r, 0 ≤ q.energy ∧ q.energy ≤ ρ * r.energy

theorem ReturnsAtMost.mirrorOptics {opt : Optics σ ℝ E} (h : ReturnsAtMost ρ opt) : MirrorOptics opt := by
  induction h with
  | mirror a _ _ => exact .mirror a
  | oneSided a _ _ => exact .oneSided a
  | receiver a get set opt _ ih => exact .receiver a get set opt ih

theorem ReturnsAtMost.energies {opt : Optics σ ℝ E} (hρ : 0 ≤ ρ) (h : ReturnsAtMost ρ opt) : ∀ {w w' : σ} {up : V3 ℝ} {hits : List (HitRec ℝ E)} {out : Bundle ℝ E},
    opt w up hits = .ok (out, w') → ∀ q ∈ out, ∃ k ∈ hits, 0 ≤ k.ray.energy → 0 ≤ q.energy ∧ q.energy ≤ ρ * k.ray.energy := by
  have key : ∀ {a : ℝ} (k : HitRec ℝ E), 1 - a ≤ ρ → a ≤ 1 → 0 ≤ k.ray.energy →
      0 ≤ (reflectOne a k).energy ∧ (reflectOne a k).energy ≤ ρ * k.ray.energy := by
    intro a k h1 h2 h0
    have e : (reflectOne a k).energy = k.ray.energy * (1 - a) := rfl
    rw [e]
    exact ⟨mul_nonneg h0 (by linarith), by rw [mul_comm]; exact mul_le_mul_of_nonneg_right h1 h0⟩
  induction h with
  | mirror a h1 h2 =>
    intro w w' up hits out h q hq
    simp only [reflective, Except.ok.injEq, Prod.mk.injEq] at h
    rw [← h.1] at hq
    obtain ⟨k, hk, rfl⟩ := List.mem_map.1 hq
    exact ⟨k, hk, key k h1 h2⟩
  | oneSided a h1 h2 =>
    intro w w' up hits out h q hq
    simp only [absorberReflector, Except.ok.injEq, Prod.mk.injEq] at h
    rw [← h.1] at hq
    obtain ⟨k, hk, rfl⟩ := List.mem_map.1 hq
    refine ⟨k, hk, fun h0 => ?_⟩
    split
    · exact ⟨le_rfl, mul_nonneg hρ h0⟩
    · exact key k h1 h2 h0
  | receiver a get set opt _ ih =>
    intro w w' up hits out h q hq
    exact ih h q hq

theorem hitRecs_one {g : Geometry ℝ E} {frame : Tf ℝ} {r : Ray ℝ E} {recs : List (HitRec ℝ E)} (h : hitRecs g frame [r] [0] = .ok recs) :
    ∀ k ∈ recs, k.ray = r := by
  unfold hitRecs at h
  split at h
  · rename_i r' t h1 h2
    simp only [hitRecs, Except.ok.injEq] at h
    intro k hk
    rw [← h, List.mem_singleton] at hk
    rw [hk]
    simpa using h1.symm
  all_goals cases h

theorem ReturnsAtMost.gives {g : Geometry ℝ E} {opt : Optics σ ℝ E} (hρ : 0 ≤ ρ) (h : ReturnsAtMost ρ opt) (frame : Tf ℝ) : (mkSurf g opt frame).Gives ρ := by
  intro w r h0 q hq
  unfold Surf.alone at hq
  split at hq
  · rename_i raw w' hraw
    obtain ⟨recs, h1, h2⟩ := mkSurf_ok hraw
    obtain ⟨k, hk, hq'⟩ := h.energies hρ h2 q hq
    rw [hitRecs_one h1 k hk] at hq'
    exact hq' h0
  · cases hq

theorem absorberReflector_keeps (a : ℝ) (get : σ → Account ℝ) : KeepsMemory get (absorberReflector a : Optics σ ℝ E) := by
  intro w up hits out w' h
  simp only [absorberReflector, Except.ok.injEq, Prod.mk.injEq] at h
  rw [h.2]

theorem CountedScene.watched (h : CountedScene ρ objs w get a) : WatchedScene objs w get a := by
  obtain ⟨x, hx, g, opt, frame, set, h1, ho, h2, h3⟩ := h.receiver
  refine ⟨h.plain, ?_, h.empty, x, hx, g, _, frame, set, h1, h2, ?_, h3⟩
  · intro o ho s hs
    obtain ⟨g, opt, frame, e, hg, hr⟩ := h.surfaces o ho s hs
    exact ⟨g, opt, frame, e, hg, hr.mirrorOptics⟩
  · rcases ho with rfl | rfl
    · exact (C51_reflective a get).1
    · exact absorberReflector_keeps a get

/-- The ray has at most one nearest surface. -/
def Going.Untied (objs : List (Obj σ ℝ E)) (g : Going ℝ E) : Prop :=
  ∀ y ∈ sites objs, ∀ z ∈ sites objs, g.Meets dropTol Surf.single (plainPolicy objs) (sites objs) y →
    g.Meets dropTol Surf.single (plainPolicy objs) (sites objs) z → y = z

/-- So have its descendants. -/
def Going.StaysUntied (objs : List (Obj σ ℝ E)) (w : σ) (m : ℝ) (n : Nat) (g : Going ℝ E) : Prop :=
  ∀ k < n, ∀ h ∈ (goOn Surf.single (Surf.alone w) (plainPolicy objs) (sites objs) m)^[k] [g], h.Untied objs

/-- A receiver of a scene of mirrors: what is needed of it here. -/
structure Watched (objs : List (Obj σ ℝ E)) (w : σ) (a ρ : ℝ) (x : Site σ ℝ E) : Prop where
  mem : x ∈ sites objs
  mirrors : AllSurfs PlainMirror objs
  nodup : (sites objs).Nodup
  gives : AllSurfs (Surf.Gives ρ) objs
  one : ρ ≤ 1
  share : 0 ≤ a ∧ a ≤ 1
  takes : ∀ r : Ray ℝ E, 0 ≤ r.energy → ∀ q ∈ x.surf.alone w r, q.energy ≤ r.energy * (1 - a)

theorem site_all {P : Surf σ ℝ E → Prop} (h : AllSurfs P objs) {y : Site σ ℝ E} (hy : y ∈ sites objs) : P y.surf := by
  have hxs : y.surf ∈ objs.flatMap Obj.surfs := by
    rw [← sites_surf]; exact List.mem_map.2 ⟨y, hy, rfl⟩
  obtain ⟨o, ho, hs⟩ := List.mem_flatMap.1 hxs
  exact h o ho _ hs

open Classical in
theorem sum_ite_unique {ι : Type _} {l : List ι} (hn : l.Nodup) {p : ι → Prop} {y : ι} (hy : y ∈ l) (hp : p y) (hu : ∀ z ∈ l, p z → z = y) (F : ι → ℝ) :
    (l.map fun z => if p z then F z else 0).sum = F y := by
  induction l with
  | nil => cases hy
  | cons z l ih =>
    rw [List.map_cons, List.sum_cons]
    obtain ⟨hz, hn⟩ := List.nodup_cons.1 hn
    rcases List.mem_cons.1 hy with rfl | hy
    · rw [if_pos hp, List.sum_eq_zero, add_zero]
      intro v hv
      obtain ⟨z', hz', rfl⟩ := List.mem_map.1 hv
      refine if_neg fun hp' => hz ?_
      rw [← hu z' (List.mem_cons_of_mem _ hz') hp']
      exact hz'
    · rw [if_neg, zero_add, ih hn hy fun z' hz' => hu z' (List.mem_cons_of_mem _ hz')]
      intro hp'
      rw [hu z (List.mem_cons_self ..) hp'] at hz
      exact hz hy

open Classical in
theorem flatMap_ite_unique {ι κ : Type _} {l : List ι} (hn : l.Nodup) {p : ι → Prop} {y : ι} (hy : y ∈ l) (hp : p y) (hu : ∀ z ∈ l, p z → z = y)
    {F : ι → List κ} {v : List κ} (hv : F y = v) : (l.flatMap fun z => if p z then F z else []) = v := by
  subst hv
  induction l with
  | nil => cases hy
  | cons z l ih =>
    rw [List.flatMap_cons]
    obtain ⟨hz, hn⟩ := List.nodup_cons.1 hn
    rcases List.mem_cons.1 hy with rfl | hy
    · rw [if_pos hp]
      have : (l.flatMap fun z => if p z then F z else []) = [] := by
        rw [List.flatMap_eq_nil_iff]
        intro z' hz'
        refine if_neg fun hp' => hz ?_
        rw [← hu z' (List.mem_cons_of_mem _ hz') hp']
        exact hz'
      rw [this, List.append_nil]
    · rw [if_neg, List.nil_append, ih hn hy fun z' hz' => hu z' (List.mem_cons_of_mem _ hz')]
      intro hp'
      rw [hu z (List.mem_cons_self ..) hp'] at hz
      exact hz hy

/-- What becomes of a ray with at most one nearest surface. -/
theorem untied_cases (hx : Watched objs w a ρ x) {g : Going ℝ E} (hu : g.Untied objs) (hE : 0 ≤ g.ray.energy) :
    (∀ m n, flow φ Surf.single (Surf.alone w) (plainPolicy objs) (sites objs) m x (n + 1) [g] = 0) ∨
    ∃ c : Going ℝ E, 0 ≤ c.ray.energy ∧ c.ray.energy ≤ ρ * g.ray.energy ∧
      (∀ m, goOn Surf.single (Surf.alone w) (plainPolicy objs) (sites objs) m [g] = if m < c.ray.energy then [c] else []) ∧
      ∃ v, (∀ m n, flow φ Surf.single (Surf.alone w) (plainPolicy objs) (sites objs) m x (n + 1) [g] = v +
        if m < c.ray.energy then flow φ Surf.single (Surf.alone w) (plainPolicy objs) (sites objs) m x n [c] else 0) ∧
      (v = 0 ∨ ∃ p, v = g.ray.energy * φ p ∧ c.ray.energy ≤ g.ray.energy * (1 - a)) := by
  classical
  by_cases hex : ∃ y ∈ sites objs, g.Meets dropTol Surf.single (plainPolicy objs) (sites objs) y
  · right
    obtain ⟨y, hy, hmeets⟩ := hex
    obtain ⟨_, t, ht, _⟩ := id hmeets
    obtain ⟨f, N, share, h1, h2, _⟩ := PlainMirror.law (δ := Unit) (sites_mirror hx.mirrors hy) w
    have hout := h2 _ t ht
    generalize hq : (⟨g.ray.at t, reflection g.ray.dir (N (g.ray.at t) g.ray.dir), g.ray.energy * share g.ray.dir, 0, g.ray.ref, g.ray.extra⟩ : Ray ℝ E) = q at hout
    have hgives := site_all hx.gives hy w g.ray hE q (by rw [hout]; exact List.mem_singleton_self _)
    have hu' : ∀ z ∈ sites objs, g.Meets dropTol Surf.single (plainPolicy objs) (sites objs) z → z = y := fun z hz hm => hu z hz y hy hm hmeets
    refine ⟨⟨q, some (y.obj, y.num)⟩, hgives.1, hgives.2, fun m => ?_, brings φ Surf.single (plainPolicy objs) (sites objs) x g, fun m n => ?_, ?_⟩
    · unfold goOn Going.children
      rw [List.flatMap_singleton]
      have : (sites objs).flatMap (fun z => if g.Meets dropTol Surf.single (plainPolicy objs) (sites objs) z then
          (z.surf.alone w g.ray).map fun r => (⟨r, some (z.obj, z.num)⟩ : Going ℝ E) else []) = [⟨q, some (y.obj, y.num)⟩] := by
        exact flatMap_ite_unique hx.nodup hy hmeets hu' (by rw [hout]; rfl)
      rw [this]
      by_cases hlt : m < q.energy
      · simp [hlt]
      · simp [hlt]
    · rw [flow_step, sum_ite_unique hx.nodup hy hmeets hu', hout]
      congr 1
      by_cases hlt : m < q.energy
      · simp [hlt]
      · simp [hlt]
    · unfold brings
      by_cases hmx : g.Meets dropTol Surf.single (plainPolicy objs) (sites objs) x
      · right
        rw [if_pos hmx]
        refine ⟨_, rfl, ?_⟩
        have : x = y := hu' x hx.mem hmx
        subst this
        exact hx.takes _ hE _ (by rw [hout]; exact List.mem_singleton_self _)
      · left
        exact if_neg hmx
  · left
    push Not at hex
    intro m n
    rw [flow_step]
    unfold brings
    rw [if_neg (hex x hx.mem), zero_add]
    refine List.sum_eq_zero fun v hv => ?_
    obtain ⟨z, hz, rfl⟩ := List.mem_map.1 hv
    exact if_neg (hex z hz)

theorem StaysUntied.child {g c : Going ℝ E} {n : Nat} (h : g.StaysUntied objs w m (n + 1))
    (hc : goOn Surf.single (Surf.alone w) (plainPolicy objs) (sites objs) m [g] = [c]) : c.StaysUntied objs w m n := by
  intro k hk q hq
  refine h (k + 1) (by omega) q ?_
  rw [Function.iterate_succ_apply, hc]
  exact hq

/-- What a ray brings is at most what it has. -/
theorem flow_le (hx : Watched objs w a ρ x) (hφ : ∀ p, 0 ≤ φ p ∧ φ p ≤ 1) (n : Nat) (g : Going ℝ E) (hE : 0 ≤ g.ray.energy)
    (hu : g.StaysUntied objs w m n) :
    0 ≤ a * flow φ Surf.single (Surf.alone w) (plainPolicy objs) (sites objs) m x n [g] ∧
    a * flow φ Surf.single (Surf.alone w) (plainPolicy objs) (sites objs) m x n [g] ≤ g.ray.energy := by
  induction n generalizing g with
  | zero => simpa [flow] using hE
  | succ n ih =>
    have hu0 : g.Untied objs := hu 0 (by omega) g (List.mem_singleton_self _)
    rcases untied_cases (φ := φ) hx hu0 hE with h | ⟨c, hc0, hc1, hgo, v, hv, hv'⟩
    · rw [h, mul_zero]; exact ⟨le_rfl, hE⟩
    · have hc1' : c.ray.energy ≤ g.ray.energy := hc1.trans (mul_le_of_le_one_left hE hx.one)
      rw [hv]
      have hrest : 0 ≤ a * (if m < c.ray.energy then flow φ Surf.single (Surf.alone w) (plainPolicy objs) (sites objs) m x n [c] else 0) ∧
          a * (if m < c.ray.energy then flow φ Surf.single (Surf.alone w) (plainPolicy objs) (sites objs) m x n [c] else 0) ≤ c.ray.energy := by
        split
        · rename_i hlt
          have := hgo m
          rw [if_pos hlt] at this
          exact ih c hc0 (StaysUntied.child hu this)
        · rw [mul_zero]; exact ⟨le_rfl, hc0⟩
      rw [mul_add]
      rcases hv' with rfl | ⟨p, rfl, hce⟩
      · rw [mul_zero, zero_add]
        exact ⟨hrest.1, hrest.2.trans hc1'⟩
      · obtain ⟨ha0, ha1⟩ := hx.share
        have hp := hφ p
        have e1 : 0 ≤ a * (g.ray.energy * φ p) := mul_nonneg ha0 (mul_nonneg hE hp.1)
        have e2 : a * (g.ray.energy * φ p) ≤ a * g.ray.energy := mul_le_mul_of_nonneg_left (mul_le_of_le_one_right hE hp.2) ha0
        refine ⟨add_nonneg e1 hrest.1, ?_⟩
        have := hrest.2
        linarith

/-- Raising the threshold costs at most the higher threshold, for each ray. -/
theorem flow_threshold (hx : Watched objs w a ρ x) (hφ : ∀ p, 0 ≤ φ p ∧ φ p ≤ 1) (hm : m ≤ m') (hm0 : 0 ≤ m') (n : Nat) (g : Going ℝ E)
    (hE : 0 ≤ g.ray.energy) (hu : g.StaysUntied objs w m n) :
    a * flow φ Surf.single (Surf.alone w) (plainPolicy objs) (sites objs) m' x n [g] ≤
      a * flow φ Surf.single (Surf.alone w) (plainPolicy objs) (sites objs) m x n [g] ∧
    a * flow φ Surf.single (Surf.alone w) (plainPolicy objs) (sites objs) m x n [g] ≤
      a * flow φ Surf.single (Surf.alone w) (plainPolicy objs) (sites objs) m' x n [g] + m' := by
  induction n generalizing g with
  | zero => simpa [flow] using hm0
  | succ n ih =>
    have hu0 : g.Untied objs := hu 0 (by omega) g (List.mem_singleton_self _)
    rcases untied_cases (φ := φ) hx hu0 hE with h | ⟨c, hc0, hc1, hgo, v, hv, hv'⟩
    · rw [h, h]; exact ⟨le_rfl, by linarith⟩
    · rw [hv, hv]
      by_cases h1 : m' < c.ray.energy
      · have h2 : m < c.ray.energy := hm.trans_lt h1
        rw [if_pos h1, if_pos h2]
        have hg := hgo m
        rw [if_pos h2] at hg
        have := ih c hc0 (StaysUntied.child hu hg)
        rw [mul_add, mul_add]
        constructor <;> linarith [this.1, this.2]
      · rw [if_neg h1]
        by_cases h2 : m < c.ray.energy
        · rw [if_pos h2]
          have hg := hgo m
          rw [if_pos h2] at hg
          have := flow_le hx hφ n c hc0 (StaysUntied.child hu hg)
          rw [mul_add, mul_add, mul_zero, add_zero]
          constructor <;> linarith [this.1, this.2, not_lt.1 h1]
        · rw [if_neg h2]
          exact ⟨le_rfl, by linarith⟩

/-- Stopping after `n` iterations costs at most what a ray then still has. -/
theorem flow_iterations (hx : Watched objs w a ρ x) (hφ : ∀ p, 0 ≤ φ p ∧ φ p ≤ 1) (hρ : 0 ≤ ρ) (n k : Nat) (g : Going ℝ E)
    (hE : 0 ≤ g.ray.energy) (hu : g.StaysUntied objs w m (n + k)) :
    a * flow φ Surf.single (Surf.alone w) (plainPolicy objs) (sites objs) m x n [g] ≤
      a * flow φ Surf.single (Surf.alone w) (plainPolicy objs) (sites objs) m x (n + k) [g] ∧
    a * flow φ Surf.single (Surf.alone w) (plainPolicy objs) (sites objs) m x (n + k) [g] ≤
      a * flow φ Surf.single (Surf.alone w) (plainPolicy objs) (sites objs) m x n [g] + ρ ^ n * g.ray.energy := by
  induction n generalizing g with
  | zero =>
    have := flow_le hx hφ (0 + k) g hE hu
    have e : flow φ Surf.single (Surf.alone w) (plainPolicy objs) (sites objs) m x 0 [g] = 0 := by simp [flow]
    rw [e, mul_zero, pow_zero, one_mul, zero_add]
    rw [zero_add] at this ⊢
    exact this
  | succ n ih =>
    have en : n + 1 + k = n + k + 1 := by omega
    rw [en] at hu ⊢
    have hu0 : g.Untied objs := hu 0 (by omega) g (List.mem_singleton_self _)
    rcases untied_cases (φ := φ) hx hu0 hE with h | ⟨c, hc0, hc1, hgo, v, hv, hv'⟩
    · rw [h, h]
      exact ⟨le_rfl, by rw [mul_zero, zero_add]; positivity⟩
    · rw [hv, hv]
      by_cases h2 : m < c.ray.energy
      · rw [if_pos h2, if_pos h2]
        have hg := hgo m
        rw [if_pos h2] at hg
        have := ih c hc0 (StaysUntied.child hu hg)
        have e : ρ ^ n * c.ray.energy ≤ ρ ^ (n + 1) * g.ray.energy := by
          rw [pow_succ, mul_assoc]
          exact mul_le_mul_of_nonneg_left hc1 (by positivity)
        rw [mul_add, mul_add]
        constructor <;> linarith [this.1, this.2]
      · rw [if_neg h2, if_neg h2]
        exact ⟨le_rfl, le_add_of_nonneg_right (by positivity)⟩

theorem CountedScene.site (h : CountedScene ρ objs w get a) : ∃ x, Watched objs w a ρ x ∧ ∀ (φ : V3 ℝ → ℝ) (reps : Nat) (b : Bundle ℝ E) (minE e : ℝ),
    (∀ r ∈ b, GoingsSettled Surf.single (Surf.alone w) (plainPolicy objs) (sites objs) minE [r] reps) →
    Collects objs w get φ b reps minE e →
    e = (b.map fun r => a * flow φ Surf.single (Surf.alone w) (plainPolicy objs) (sites objs) minE x reps [⟨r, none⟩]).sum := by
  have hw := h.watched
  obtain ⟨x, hx, g, opt, frame, set, h1, ho, h2, h3⟩ := h.receiver
  have hk : KeepsMemory get opt := by
    rcases ho with rfl | rfl
    · exact (C51_reflective a get).1
    · exact absorberReflector_keeps a get
  obtain ⟨s0, s1, a0, a1⟩ := h.shares
  refine ⟨x, ⟨hx, hw.mirrors, List.Nodup.of_map _ (sites_nodup objs), ?_, s1, ⟨a0, a1⟩, ?_⟩, fun φ reps b minE e hset hc => ?_⟩
  · intro o ho s hs
    obtain ⟨g, opt, frame, rfl, hg, hr⟩ := h.surfaces o ho s hs
    exact hr.gives s0 frame
  · intro r hr q hq
    rw [h1] at hq
    have hret : ReturnsAtMost (1 - a) (accountant a get set opt) := by
      refine .receiver _ _ _ _ ?_
      rcases ho with rfl | rfl
      · exact .mirror _ le_rfl a1
      · exact .oneSided _ le_rfl a1
    have := (hret.gives (g := g) (by linarith) frame w r hr q hq).2
    linarith
  · rw [collects_at hw hx h1 h2 hk h3 hset hc, flow_each, List.map_map, ← List.sum_map_mul_left]
    rfl

theorem staysUntied_of {r : Ray ℝ E} (hset : GoingsSettled Surf.single (Surf.alone w) (plainPolicy objs) (sites objs) m [r] reps)
    (hun : GoingsUntied Surf.single (Surf.alone w) (plainPolicy objs) (sites objs) m [r] reps) : Going.StaysUntied objs w m reps ⟨r, none⟩ := by
  intro k hk g hg
  have := (setOut_settled (b := [r]) (fun r' hr' => by rw [List.mem_singleton] at hr'; rw [hr']; exact hset) hk).1
  refine hun k hk g ?_
  rw [this]
  exact hg

/-- With a higher threshold fewer rays set out. -/
theorem settled_higher {r : Ray ℝ E} (hm : m ≤ m') (hset : GoingsSettled Surf.single (Surf.alone w) (plainPolicy objs) (sites objs) m [r] reps) :
    GoingsSettled Surf.single (Surf.alone w) (plainPolicy objs) (sites objs) m' [r] reps := by
  have key : ∀ k < reps, ∀ g ∈ setOut m' k (goingGeneration Surf.single (Surf.alone w) (plainPolicy objs) (sites objs) m' [r] k),
      g ∈ setOut m k (goingGeneration Surf.single (Surf.alone w) (plainPolicy objs) (sites objs) m [r] k) := by
    intro k
    induction k with
    | zero => intro _ g hg; exact hg
    | succ k ih =>
      intro hk g hg
      have e1 : ∀ m (gs : List (Going ℝ E)), setOut m (k + 1) gs = gs.filter fun g => decide (m < g.ray.energy) := fun m gs => if_neg (by omega)
      rw [e1] at hg ⊢
      obtain ⟨hg, hlt⟩ := List.mem_filter.1 hg
      refine List.mem_filter.2 ⟨?_, by simpa using hm.trans_lt (by simpa using hlt)⟩
      have ih := ih (by omega)
      rw [goingGeneration_succ, nextGoing_settled (fun g hg => hset k (by omega) g (ih g hg))] at hg
      rw [goingGeneration_succ, nextGoing_settled (hset k (by omega))]
      obtain ⟨p, hp, hg⟩ := List.mem_flatMap.1 hg
      exact List.mem_flatMap.2 ⟨p, ih p hp, hg⟩
  exact fun k hk g hg => hset k hk g (key k hk g hg)

theorem settled_fewer {r : Ray ℝ E} {n : Nat} (hn : n ≤ reps) (hset : GoingsSettled Surf.single (Surf.alone w) (plainPolicy objs) (sites objs) m [r] reps) :
    GoingsSettled Surf.single (Surf.alone w) (plainPolicy objs) (sites objs) m [r] n := fun k hk => hset k (by omega)

theorem sum_le_each {ι : Type _} {l : List ι} {f g : ι → ℝ} (h : ∀ i ∈ l, f i ≤ g i) : (l.map f).sum ≤ (l.map g).sum := List.sum_le_sum h

variable {b : Bundle ℝ E} (h : CountedScene ρ objs w get a) (hφ : ∀ p, 0 ≤ φ p ∧ φ p ≤ 1) (hE : ∀ r ∈ b, 0 ≤ r.energy)
include h hφ hE

/-- C114: the receiver reports no less than nothing and no more than the rays bring. -/
theorem C114_bounds (hset : ∀ r ∈ b, GoingsSettled Surf.single (Surf.alone w) (plainPolicy objs) (sites objs) m [r] reps)
    (hun : ∀ r ∈ b, GoingsUntied Surf.single (Surf.alone w) (plainPolicy objs) (sites objs) m [r] reps) {e : ℝ}
    (he : Collects objs w get φ b reps m e) : 0 ≤ e ∧ e ≤ (b.map Ray.energy).sum := by
  obtain ⟨x, hx, hflow⟩ := h.site
  rw [hflow _ _ _ _ _ hset he]
  have key : ∀ r ∈ b, _ := fun r hr => flow_le hx hφ reps ⟨r, none⟩ (hE r hr) (staysUntied_of (hset r hr) (hun r hr))
  refine ⟨List.sum_nonneg fun v hv => ?_, sum_le_each fun r hr => (key r hr).2⟩
  obtain ⟨r, hr, rfl⟩ := List.mem_map.1 hv
  exact (key r hr).1

/-- C114: a higher threshold makes the report smaller, by at most the threshold for each ray of the source. -/
theorem C114_threshold (hm : m ≤ m') (hm0 : 0 ≤ m')
    (hset : ∀ r ∈ b, GoingsSettled Surf.single (Surf.alone w) (plainPolicy objs) (sites objs) m [r] reps)
    (hun : ∀ r ∈ b, GoingsUntied Surf.single (Surf.alone w) (plainPolicy objs) (sites objs) m [r] reps) {e e' : ℝ}
    (he : Collects objs w get φ b reps m e) (he' : Collects objs w get φ b reps m' e') : e' ≤ e ∧ e ≤ e' + b.length * m' := by
  obtain ⟨x, hx, hflow⟩ := h.site
  rw [hflow _ _ _ _ _ hset he, hflow _ _ _ _ _ (fun r hr => settled_higher hm (hset r hr)) he']
  have key : ∀ r ∈ b, _ := fun r hr => flow_threshold hx hφ hm hm0 reps ⟨r, none⟩ (hE r hr) (staysUntied_of (hset r hr) (hun r hr))
  refine ⟨sum_le_each fun r hr => (key r hr).1, ?_⟩
  refine (sum_le_each fun r hr => (key r hr).2).trans (le_of_eq ?_)
  rw [List.sum_map_add, List.map_const', List.sum_replicate, nsmul_eq_mul]

/-- C114: more iterations make the report greater, by at most what is left of the energy of the source after so many reflections. -/
theorem C114_iterations {reps' : Nat} (hr : reps ≤ reps')
    (hset : ∀ r ∈ b, GoingsSettled Surf.single (Surf.alone w) (plainPolicy objs) (sites objs) m [r] reps')
    (hun : ∀ r ∈ b, GoingsUntied Surf.single (Surf.alone w) (plainPolicy objs) (sites objs) m [r] reps') {e e' : ℝ}
    (he : Collects objs w get φ b reps m e) (he' : Collects objs w get φ b reps' m e') :
    e ≤ e' ∧ e' ≤ e + ρ ^ reps * (b.map Ray.energy).sum := by
  obtain ⟨k, rfl⟩ := Nat.exists_eq_add_of_le hr
  obtain ⟨x, hx, hflow⟩ := h.site
  rw [hflow _ _ _ _ _ hset he', hflow _ _ _ _ _ (fun r hr' => settled_fewer hr (hset r hr')) he]
  have key : ∀ r ∈ b, _ := fun r hr => flow_iterations hx hφ h.shares.1 reps k ⟨r, none⟩ (hE r hr) (staysUntied_of (hset r hr) (hun r hr))
  refine ⟨sum_le_each fun r hr => (key r hr).1, ?_⟩
  refine (sum_le_each fun r hr => (key r hr).2).trans (le_of_eq ?_)
  rw [List.sum_map_add, ← List.sum_map_mul_left]

/-- C114: if every surface absorbs something, the reports converge when more and more iterations are allowed, and the error is known. -/
theorem C114_limit (hρ : ρ < 1) (hset : ∀ r ∈ b, ∀ n, GoingsSettled Surf.single (Surf.alone w) (plainPolicy objs) (sites objs) m [r] n)
    (hun : ∀ r ∈ b, ∀ n, GoingsUntied Surf.single (Surf.alone w) (plainPolicy objs) (sites objs) m [r] n) {e : Nat → ℝ}
    (he : ∀ n, Collects objs w get φ b n m (e n)) :
    ∃ L, Tendsto e atTop (𝓝 L) ∧ ∀ n, e n ≤ L ∧ L ≤ e n + ρ ^ n * (b.map Ray.energy).sum := by
  have step : ∀ n k, n ≤ k → e n ≤ e k ∧ e k ≤ e n + ρ ^ n * (b.map Ray.energy).sum := fun n k hnk =>
    C114_iterations h hφ hE hnk (fun r hr => hset r hr k) (fun r hr => hun r hr k) (he n) (he k)
  have hmono : Monotone e := fun n k hnk => (step n k hnk).1
  have hbdd : BddAbove (Set.range e) := ⟨e 0 + ρ ^ 0 * (b.map Ray.energy).sum, by rintro _ ⟨n, rfl⟩; exact (step 0 n (Nat.zero_le _)).2⟩
  have hlim := tendsto_atTop_ciSup hmono hbdd
  refine ⟨_, hlim, fun n => ⟨le_ciSup hbdd n, ?_⟩⟩
  refine le_of_tendsto hlim ?_
  filter_upwards [eventually_ge_atTop n] with k hk
  exact (step n k hk).2

omit h hφ hE in
/-- Surfaces that have no point in common do not tie. -/
theorem disjoint_untied (hd : ∀ y ∈ sites objs, ∀ z ∈ sites objs, y ≠ z → ∀ (r : Ray ℝ E) (t : ℝ), y.surf.single r = (t : WithTop ℝ) →
    z.surf.single r ≠ (t : WithTop ℝ)) (r : Ray ℝ E) :
    GoingsUntied Surf.single (Surf.alone w) (plainPolicy objs) (sites objs) m [r] reps := by
  rintro k _ g _ y hy z hz ⟨my, t, ht, hct, hmin⟩ ⟨mz, t', ht', hct', hmin'⟩
  by_contra hne
  have e : t = t' := le_antisymm (hmin z hz mz t' ht' hct') (hmin' y hy my t ht hct)
  rw [← e] at ht'
  exact hd y hy z hz hne _ t ht ht'

/-- C114 for flat mirrors and receivers that have no point in common, and rays that start away from them. -/
theorem C114_flat (hfl : AllSurfs FlatMirror objs)
    (hd : ∀ y ∈ sites objs, ∀ z ∈ sites objs, y ≠ z → ∀ (r : Ray ℝ E) (t : ℝ), y.surf.single r = (t : WithTop ℝ) → z.surf.single r ≠ (t : WithTop ℝ))
    (hstart : ∀ r ∈ b, ∀ o ∈ objs, ∀ s ∈ o.surfs, ∀ t : ℝ, s.single r = (t : WithTop ℝ) → t ≤ 1 / 10 ^ 10 ∨ 1 / 10 ^ 6 < t)
    (hm : m ≤ m') (hm0 : 0 ≤ m') {reps' : Nat} (hr : reps ≤ reps') {e e' : ℝ}
    (he : Collects objs w get φ b reps' m e) (he' : Collects objs w get φ b reps m' e') :
    e' ≤ e ∧ e ≤ e' + (b.length * m' + ρ ^ reps * (b.map Ray.energy).sum) := by
  obtain ⟨e1, he1⟩ := C113_exists h.watched φ b reps m
  have hset : ∀ n, ∀ r ∈ b, GoingsSettled Surf.single (Surf.alone w) (plainPolicy objs) (sites objs) m [r] n := fun n r hr =>
    flat_settled h.plain hfl (hstart r hr)
  have h1 := C114_threshold h hφ hE hm hm0 (hset reps) (fun r _ => disjoint_untied hd r) he1 he'
  have h2 := C114_iterations h hφ hE hr (hset reps') (fun r _ => disjoint_untied hd r) he1 he
  constructor <;> linarith [h1.1, h1.2, h2.1, h2.2]

end

/-- C114 with C113: for rays drawn at random, the power that the results converge to with a threshold of `m'`/`n` is that without a threshold, but for
at most `m'`. -/
theorem C114_mean {δ Ω : Type _} [MeasurableSpace δ] [MeasurableSpace Ω] {μ : Measure Ω} [IsProbabilityMeasure μ]
    {objs : List (Obj σ ℝ E)} {w : σ} {get : σ → Account ℝ} {a : ℝ} {reps : Nat} {m m' ρ : ℝ} {φ : V3 ℝ → ℝ}
    (h : CountedScene ρ objs w get a) (hφ : Weights φ) (hφ1 : ∀ p, 0 ≤ φ p ∧ φ p ≤ 1) {ray : δ → Ray ℝ E} (hray : RayM ray) {B : ℝ}
    (hB : ∀ d, 0 ≤ (ray d).energy ∧ (ray d).energy ≤ B) (hm : m ≤ m') (hm0 : 0 ≤ m')
    (hset : ∀ d, GoingsSettled Surf.single (Surf.alone w) (plainPolicy objs) (sites objs) m [ray d] reps)
    (hun : ∀ d, GoingsUntied Surf.single (Surf.alone w) (plainPolicy objs) (sites objs) m [ray d] reps)
    {power power' : δ → ℝ} (hpow : ∀ d, Collects objs w get φ [ray d] reps m (power d)) (hpow' : ∀ d, Collects objs w get φ [ray d] reps m' (power' d))
    {D : Ω → δ} (hD : Measurable D) :
    ∫ ω, power' (D ω) ∂μ ≤ ∫ ω, power (D ω) ∂μ ∧ ∫ ω, power (D ω) ∂μ ≤ ∫ ω, power' (D ω) ∂μ + m' := by
  have hb : ∀ d, |(ray d).energy| ≤ B := fun d => by rw [abs_of_nonneg (hB d).1]; exact (hB d).2
  have key : ∀ d, power' d ≤ power d ∧ power d ≤ power' d + m' := by
    intro d
    have := C114_threshold h hφ1 (b := [ray d]) (by intro r hr; rw [List.mem_singleton] at hr; rw [hr]; exact (hB d).1) hm hm0
      (by intro r hr; rw [List.mem_singleton] at hr; rw [hr]; exact hset d) (by intro r hr; rw [List.mem_singleton] at hr; rw [hr]; exact hun d)
      (hpow d) (hpow' d)
    simpa using this
  have int : ∀ {m : ℝ} {p : δ → ℝ}, (∀ d, GoingsSettled Surf.single (Surf.alone w) (plainPolicy objs) (sites objs) m [ray d] reps) →
      (∀ d, Collects objs w get φ [ray d] reps m (p d)) → Integrable (fun ω => p (D ω)) μ := by
    intro m p hs hp
    obtain ⟨C, hC⟩ := power_bounded h.watched hφ hb hs hp
    exact Integrable.of_bound ((power_measurable h.watched hφ hray hs hp).comp hD).aestronglyMeasurable C (Eventually.of_forall fun ω => hC _)
  have i1 := int hset hpow
  have i2 := int (fun d => settled_higher hm (hset d)) hpow'
  refine ⟨integral_mono i2 i1 fun ω => (key _).1, ?_⟩
  have : ∫ ω, (power' (D ω) + m') ∂μ = ∫ ω, power' (D ω) ∂μ + m' := by
    rw [integral_add i2 (integrable_const _)]
    simp
  rw [← this]
  exact integral_mono i1 (i2.add (integrable_const _)) fun ω => (key _).2

/-! ### Between two plates -/

namespace Examples

/-- A mirror in the plane z = 0 that absorbs the share `c`, and a receiver in the plane z = 2 that absorbs the share `a`. -/
noncomputable def plates (c a : ℝ) : List (Obj (Account ℝ) ℝ Unit) :=
  [⟨[mkSurf flatGM (reflective c) ⟨1, ⟨0, 0, 0⟩⟩], Obj.defaultOwn, Obj.defaultNext 1⟩,
    ⟨[mkSurf flatGM (accountant a id (fun x _ => x) (reflective a)) ⟨1, ⟨0, 0, 2⟩⟩], Obj.defaultOwn, Obj.defaultNext 1⟩]

theorem plates_sites (c a : ℝ) : sites (plates c a) = [⟨0, 0, mkSurf flatGM (reflective c) ⟨1, ⟨0, 0, 0⟩⟩⟩,
    ⟨1, 0, mkSurf flatGM (accountant a id (fun x _ => x) (reflective a)) ⟨1, ⟨0, 0, 2⟩⟩⟩] := rfl

theorem plates_counted {c a : ℝ} (hc : 0 ≤ c ∧ c ≤ 1) (ha : 0 ≤ a ∧ a ≤ 1) :
    CountedScene (max (1 - c) (1 - a)) (plates c a) Account.reset id a := by
  refine ⟨?_, ?_, ⟨le_max_of_le_left (by linarith), max_le (by linarith) (by linarith), ha⟩, rfl, ⟨1, 0, _⟩,
    List.mem_cons_of_mem _ List.mem_cons_self, flatGM, _, _, _, rfl, Or.inl rfl, fun _ _ => rfl, ?_⟩
  · intro o ho
    simp only [plates, List.mem_cons, List.not_mem_nil, or_false] at ho
    rcases ho with rfl | rfl <;> exact ⟨rfl, Or.inl rfl⟩
  · intro o ho s hs
    simp only [plates, List.mem_cons, List.not_mem_nil, or_false] at ho
    rcases ho with rfl | rfl <;> rw [List.mem_singleton] at hs
    · exact ⟨_, _, _, hs, .flat, .mirror _ (le_max_left _ _) hc.2⟩
    · exact ⟨_, _, _, hs, .flat, .receiver _ _ _ _ (.mirror _ (le_max_right _ _) ha.2)⟩
  · intro y hy hne w p hits raw w' h
    rw [plates_sites] at hy
    simp only [List.mem_cons, List.not_mem_nil, or_false] at hy
    rcases hy with rfl | rfl
    · obtain ⟨recs, _, h2⟩ := mkSurf_ok h
      exact (C51_reflective c id).1 _ _ _ _ _ h2
    · exact absurd ⟨rfl, rfl⟩ hne

theorem plates_flat (c a : ℝ) : AllSurfs FlatMirror (plates c a) := by
  intro o ho s hs
  simp only [plates, List.mem_cons, List.not_mem_nil, or_false] at ho
  rcases ho with rfl | rfl <;> rw [List.mem_singleton] at hs
  · exact ⟨_, _, _, hs, .flat, .mirror _, by show V3.dot (1 : M3 ℝ).c3 (1 : M3 ℝ).c3 = 1; simp [V3.dot]⟩
  · exact ⟨_, _, _, hs, .flat, .receiver _ _ _ _ (.mirror _), by show V3.dot (1 : M3 ℝ).c3 (1 : M3 ℝ).c3 = 1; simp [V3.dot]⟩

theorem plates_apart (c a : ℝ) : ∀ y ∈ sites (plates c a), ∀ z ∈ sites (plates c a), y ≠ z → ∀ (r : Ray ℝ Unit) (t : ℝ),
    y.surf.single r = (t : WithTop ℝ) → z.surf.single r ≠ (t : WithTop ℝ) := by
  have key : ∀ (k : ℝ) (opt : Optics (Account ℝ) ℝ Unit) (r : Ray ℝ Unit) (t : ℝ), (mkSurf flatGM opt ⟨1, ⟨0, 0, k⟩⟩ : Surf _ _ _).single r = (t : WithTop ℝ) →
      r.vertex.z + t * r.dir.z = k := fun k opt r t ht => flatParam_level (by rw [← ht]; rfl)
  intro y hy z hz hne r t h1 h2
  rw [plates_sites] at hy hz
  simp only [List.mem_cons, List.not_mem_nil, or_false] at hy hz
  rcases hy with rfl | rfl <;> rcases hz with rfl | rfl
  · exact hne rfl
  · have := key _ _ _ _ h1; have := key _ _ _ _ h2; linarith
  · have := key _ _ _ _ h1; have := key _ _ _ _ h2; linarith
  · exact hne rfl

theorem plates_start (c a : ℝ) : ∀ r ∈ [fallingRay], ∀ o ∈ plates c a, ∀ s ∈ o.surfs, ∀ t : ℝ, s.single r = (t : WithTop ℝ) → t ≤ 1 / 10 ^ 10 ∨ 1 / 10 ^ 6 < t := by
  intro r hr o ho s hs t ht
  rw [List.mem_singleton] at hr
  subst hr
  simp only [plates, List.mem_cons, List.not_mem_nil, or_false] at ho
  rcases ho with rfl | rfl <;> rw [List.mem_singleton] at hs <;> subst hs
  · rw [flat_single _ 0 fallingRay (z := 1) (e := -1) rfl rfl (by norm_num)] at ht
    norm_num at ht
    right
    rw [ht]
    norm_num
  · rw [flat_single _ 2 fallingRay (z := 1) (e := -1) rfl rfl (by norm_num)] at ht
    norm_num at ht

/-- A ray goes back and forth between the plates for ever, but the results converge. -/
example : ∃ (e : Nat → ℝ) (L : ℝ), (∀ n, Collects (plates (1 / 4) (1 / 2)) Account.reset id (fun _ => 1) [fallingRay] n 0 (e n)) ∧
    Tendsto e atTop (𝓝 L) ∧ ∀ n, e n ≤ L ∧ L ≤ e n + (max (1 - 1 / 4) (1 - 1 / 2)) ^ n * ([fallingRay].map Ray.energy).sum := by
  have h := plates_counted (c := 1 / 4) (a := 1 / 2) (by norm_num) (by norm_num)
  have hex := fun n => C113_exists h.watched (fun _ => 1) [fallingRay] n 0
  choose e he using hex
  obtain ⟨L, h1, h2⟩ := C114_limit h (fun _ => by norm_num) (by intro r hr; rw [List.mem_singleton] at hr; rw [hr]; norm_num [fallingRay]) (by norm_num)
    (fun r hr n => flat_settled h.plain (plates_flat _ _) (plates_start _ _ r hr)) (fun r _ n => disjoint_untied (plates_apart _ _) r) he
  exact ⟨e, L, he, h1, h2⟩

example : ∃ e e' : ℝ, Collects (plates (1 / 4) (1 / 2)) Account.reset id (fun _ => 1) [fallingRay] 9 0 e ∧
    Collects (plates (1 / 4) (1 / 2)) Account.reset id (fun _ => 1) [fallingRay] 5 (1 / 100) e' ∧ e' ≤ e ∧
    e ≤ e' + (([fallingRay].length : ℝ) * (1 / 100) + (max (1 - 1 / 4) (1 - 1 / 2)) ^ 5 * ([fallingRay].map Ray.energy).sum) := by
  have h := plates_counted (c := 1 / 4) (a := 1 / 2) (by norm_num) (by norm_num)
  obtain ⟨e, he⟩ := C113_exists h.watched (fun _ => 1) [fallingRay] 9 0
  obtain ⟨e', he'⟩ := C113_exists h.watched (fun _ => 1) [fallingRay] 5 (1 / 100)
  exact ⟨e, e', he, he', C114_flat h (fun _ => by norm_num) (by intro r hr; rw [List.mem_singleton] at hr; rw [hr]; norm_num [fallingRay])
    (plates_flat _ _) (plates_apart _ _) (plates_start _ _) (by norm_num) (by norm_num) (by norm_num) he he'⟩

/-- The same ray for `C114_bounds`, `C114_threshold` and `C114_iterations`: no hypothesis is left. -/
example : ∃ e e' e'' : ℝ, Collects (plates (1 / 4) (1 / 2)) Account.reset id (fun _ => 1) [fallingRay] 9 0 e ∧
    Collects (plates (1 / 4) (1 / 2)) Account.reset id (fun _ => 1) [fallingRay] 9 (1 / 100) e' ∧
    Collects (plates (1 / 4) (1 / 2)) Account.reset id (fun _ => 1) [fallingRay] 5 0 e'' ∧
    (0 ≤ e ∧ e ≤ ([fallingRay].map Ray.energy).sum) ∧ (e' ≤ e ∧ e ≤ e' + ([fallingRay].length : ℝ) * (1 / 100)) ∧
    e'' ≤ e ∧ e ≤ e'' + (max (1 - 1 / 4) (1 - 1 / 2)) ^ 5 * ([fallingRay].map Ray.energy).sum := by
  have h := plates_counted (c := 1 / 4) (a := 1 / 2) (by norm_num) (by norm_num)
  have hφ : ∀ _ : V3 ℝ, (0 : ℝ) ≤ 1 ∧ (1 : ℝ) ≤ 1 := fun _ => by norm_num
  have hE : ∀ r ∈ [fallingRay], 0 ≤ r.energy := by intro r hr; rw [List.mem_singleton] at hr; rw [hr]; norm_num [fallingRay]
  obtain ⟨e, he⟩ := C113_exists h.watched (fun _ => 1) [fallingRay] 9 0
  obtain ⟨e', he'⟩ := C113_exists h.watched (fun _ => 1) [fallingRay] 9 (1 / 100)
  obtain ⟨e'', he''⟩ := C113_exists h.watched (fun _ => 1) [fallingRay] 5 0
  have hs := fun r hr => flat_settled (w := Account.reset) (m := 0) (reps := 9) h.plain (plates_flat _ _) (plates_start (1 / 4) (1 / 2) r hr)
  have hu := fun (r : Ray ℝ Unit) (_ : r ∈ [fallingRay]) => disjoint_untied (w := Account.reset) (m := 0) (reps := 9) (plates_apart (1 / 4) (1 / 2)) r
  exact ⟨e, e', e'', he, he', he'', C114_bounds h hφ hE hs hu he, C114_threshold h hφ hE (by norm_num) (by norm_num) hs hu he he',
    C114_iterations h hφ hE (by norm_num) hs hu he'' he⟩

/-- A threshold as high as the energy of the ray: nine iterations give what one gives (`C113_threshold`). -/
example {e e' : ℝ} (h : Collects (plates (1 / 4) (1 / 2)) Account.reset id (fun _ => 1) [fallingRay] 9 1 e)
    (h' : Collects (plates (1 / 4) (1 / 2)) Account.reset id (fun _ => 1) [fallingRay] 1 1 e') : e = e' := by
  refine C113_threshold (plates_counted (c := 1 / 4) (a := 1 / 2) (by norm_num) (by norm_num)).watched (fun o ho s hs => ?_)
    (by intro r hr; rw [List.mem_singleton] at hr; rw [hr]; norm_num [fallingRay]) (by norm_num) h h'
  simp only [plates, List.mem_cons, List.not_mem_nil, or_false] at ho
  rcases ho with rfl | rfl <;> rw [List.mem_singleton] at hs <;> subst hs
  · exact mkSurf_energyOk _ (reflective_atHit _) (reflective_energyOk (by norm_num) (by norm_num)) _
  · exact mkSurf_energyOk _ (accountant_atHit (reflective_atHit _)) (accountant_energyOk (reflective_energyOk (by norm_num) (by norm_num))) _

end Examples

end Tracer
