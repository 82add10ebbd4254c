import Verif.Model.Flat
import Verif.Model.Optics
import Verif.Lemmas.Surface
import Mathlib.Tactic.Linarith
import Mathlib.Data.List.Nodup

/-! The flat geometry managers and the reflective callables keep the contracts. -/

set_option linter.unusedSectionVars false

namespace Tracer

variable {K E σ : Type _} [Field K] [LinearOrder K] [IsStrictOrderedRing K]

theorem flatGM_perRay : (flatGM : Geometry K E).PerRay flatParam := fun _ _ => rfl

theorem finiteFlatGM_perRay (out : Tf K → V3 K → Bool) :
    (finiteFlatGM out : Geometry K E).PerRay (finiteParam out) := fun _ _ => rfl

/-- Callables that answer each hit ray with exactly one child. -/
theorem filter_map_idx {hits : List (HitRec K E)} {f : HitRec K E → Ray K E}
    (hf : ∀ h ∈ hits, (f h).parent = h.idx) (hnd : (hits.map HitRec.idx).Nodup)
    {h : HitRec K E} (hh : h ∈ hits) :
    ((hits.map f).filter fun r => r.parent == h.idx) = [f h] := by
  induction hits with
  | nil => simp at hh
  | cons q hits ih =>
    have hq := hf q (by simp)
    simp only [List.map_cons, List.nodup_cons] at hnd
    rcases List.mem_cons.1 hh with rfl | hh
    · have : ((hits.map f).filter fun r => r.parent == h.idx) = [] := by
        rw [List.filter_eq_nil_iff]
        intro r hr hri
        obtain ⟨q', hq', rfl⟩ := List.mem_map.1 hr
        rw [hf q' (List.mem_cons_of_mem _ hq')] at hri
        exact hnd.1 (List.mem_map.2 ⟨q', hq', by simpa using hri⟩)
      simp [hq, this]
    · have hne : (q.idx == h.idx) = false := by
        rw [beq_eq_false_iff_ne]
        intro he
        exact hnd.1 (List.mem_map.2 ⟨h, hh, he.symm⟩)
      simp only [List.map_cons, List.filter_cons, hq, hne]
      simpa using ih (fun x hx => hf x (List.mem_cons_of_mem _ hx)) hnd.2 hh

section OneChild
variable {f : HitRec K E → Ray K E}

theorem oneChild_energy {hits : List (HitRec K E)} (hf : ∀ h ∈ hits, (f h).parent = h.idx)
    (hnd : (hits.map HitRec.idx).Nodup)
    (he : ∀ h ∈ hits, 0 ≤ (f h).energy ∧ (f h).energy ≤ h.ray.energy) :
    (∀ r ∈ hits.map f, 0 ≤ r.energy) ∧
    ∀ h ∈ hits, (((hits.map f).filter fun r => r.parent == h.idx).map Ray.energy).sum ≤ h.ray.energy := by
  refine ⟨?_, ?_⟩
  · intro r hr
    obtain ⟨h, hh, rfl⟩ := List.mem_map.1 hr
    exact (he h hh).1
  · intro h hh
    rw [filter_map_idx hf hnd hh]
    simpa using (he h hh).2

end OneChild

theorem reflective_atHit (a : K) : Optics.AtHit (reflective a : Optics σ K E) := by
  intro w up hits out w' h r hr
  simp only [reflective, Except.ok.injEq, Prod.mk.injEq] at h
  rw [← h.1] at hr
  obtain ⟨q, hq, rfl⟩ := List.mem_map.1 hr
  exact ⟨q, hq, rfl, rfl⟩

theorem reflective_total (a : K) : Optics.Total (reflective a : Optics σ K E) := by
  intro w up hits out w' h q hq
  simp only [reflective, Except.ok.injEq, Prod.mk.injEq] at h
  exact ⟨_, h.1 ▸ List.mem_map.2 ⟨q, hq, rfl⟩, rfl⟩

theorem reflective_noFail (a : K) : Optics.NoFail (reflective a : Optics σ K E) :=
  fun _ _ _ _ => ⟨_, _, rfl⟩

theorem reflectOne_energy {a : K} (h0 : 0 ≤ a) (h1 : a ≤ 1) (h : HitRec K E) (he : 0 ≤ h.ray.energy) :
    0 ≤ (reflectOne a h).energy ∧ (reflectOne a h).energy ≤ h.ray.energy := by
  refine ⟨mul_nonneg he (by linarith), ?_⟩
  calc h.ray.energy * (1 - a) ≤ h.ray.energy * 1 := mul_le_mul_of_nonneg_left (by linarith) he
    _ = h.ray.energy := mul_one _

theorem reflective_energyOk {a : K} (h0 : 0 ≤ a) (h1 : a ≤ 1) :
    Optics.EnergyOk (reflective a : Optics σ K E) := by
  intro w up hits out w' hnd hpos h
  simp only [reflective, Except.ok.injEq, Prod.mk.injEq] at h
  rw [← h.1]
  exact oneChild_energy (fun _ _ => rfl) hnd (fun q hq => reflectOne_energy h0 h1 q (hpos q hq))

theorem absorberReflector_atHit (a : K) : Optics.AtHit (absorberReflector a : Optics σ K E) := by
  intro w up hits out w' h r hr
  simp only [absorberReflector, Except.ok.injEq, Prod.mk.injEq] at h
  rw [← h.1] at hr
  obtain ⟨q, hq, rfl⟩ := List.mem_map.1 hr
  refine ⟨q, hq, ?_⟩
  split <;> exact ⟨rfl, rfl⟩

theorem absorberReflector_total (a : K) : Optics.Total (absorberReflector a : Optics σ K E) := by
  intro w up hits out w' h q hq
  simp only [absorberReflector, Except.ok.injEq, Prod.mk.injEq] at h
  refine ⟨_, h.1 ▸ List.mem_map.2 ⟨q, hq, rfl⟩, ?_⟩
  split <;> rfl

theorem absorberReflector_noFail (a : K) : Optics.NoFail (absorberReflector a : Optics σ K E) :=
  fun _ _ _ _ => ⟨_, _, rfl⟩

theorem absorberReflector_energyOk {a : K} (h0 : 0 ≤ a) (h1 : a ≤ 1) :
    Optics.EnergyOk (absorberReflector a : Optics σ K E) := by
  intro w up hits out w' hnd hpos h
  simp only [absorberReflector, Except.ok.injEq, Prod.mk.injEq] at h
  rw [← h.1]
  refine oneChild_energy (fun q _ => ?_) hnd (fun q hq => ?_)
  · split <;> rfl
  · split
    · exact ⟨le_rfl, hpos q hq⟩
    · exact reflectOne_energy h0 h1 q (hpos q hq)

theorem flatMap_singleton' {α β : Type _} (l : List α) (f : α → β) : l.flatMap (fun a => [f a]) = l.map f := by
  induction l with
  | nil => rfl
  | cons a l ih => simp [ih]

theorem reflective_perHit (a : K) :
    Optics.PerHit (reflective a : Optics σ K E) fun _ h => [reflectOne a h] where
  perm := by
    intro w up hits out w' h
    simp only [reflective, Except.ok.injEq, Prod.mk.injEq] at h
    rw [← h.1, flatMap_singleton']
  idx := fun _ _ _ => rfl
  blind := fun _ _ => rfl

theorem absorberReflector_perHit (a : K) :
    Optics.PerHit (absorberReflector a : Optics σ K E) fun up h =>
      [let r := reflectOne a h
       if 0 < V3.dot h.ray.dir up then { r with energy := 0 } else r] where
  perm := by
    intro w up hits out w' h
    simp only [absorberReflector, Except.ok.injEq, Prod.mk.injEq] at h
    rw [← h.1, flatMap_singleton']
  idx := by
    intro up h i
    simp only [List.map_cons, List.map_nil, List.cons.injEq, and_true]
    split <;> rfl
  blind := by
    intro up h
    by_cases hu : 0 < V3.dot h.ray.dir up <;> simp [Ray.strip, hu, reflectOne]

section Accountant
variable {a : K} {get : σ → Account K} {set : Account K → σ → σ} {opt : Optics σ K E}

theorem accountant_atHit (h : Optics.AtHit opt) : Optics.AtHit (accountant a get set opt) :=
  fun _ _ _ _ _ he => h _ _ _ _ _ he

theorem accountant_total (h : Optics.Total opt) : Optics.Total (accountant a get set opt) :=
  fun _ _ _ _ _ he => h _ _ _ _ _ he

theorem accountant_noFail (h : Optics.NoFail opt) : Optics.NoFail (accountant a get set opt) :=
  fun _ _ _ hne => h _ _ _ hne

theorem accountant_energyOk (h : Optics.EnergyOk opt) : Optics.EnergyOk (accountant a get set opt) :=
  fun _ _ _ _ _ hnd hp he => h _ _ _ _ _ hnd hp he

theorem accountant_perHit {f} (h : Optics.PerHit opt f) : Optics.PerHit (accountant a get set opt) f where
  perm := fun _ _ _ _ _ he => h.perm _ _ _ _ _ he
  idx := h.idx
  blind := h.blind

end Accountant
end Tracer
