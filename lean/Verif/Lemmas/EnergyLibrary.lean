import Verif.Spec.EnergyLibrary
import Verif.Lemmas.Specular
import Verif.Props.Energy
import Verif.Props.Fresnel
import Verif.Props.Progress

/-! Energies at the callables of the package, refracting and diffuse ones included. -/

set_option linter.unusedSectionVars false

namespace Tracer

variable {E σ : Type _}

section
variable {K : Type _} [Field K] [LinearOrder K] [IsStrictOrderedRing K]

/-- `Optics.EnergyOk` for hits of rays that satisfy `Q`. -/
def Optics.EnergyOn (Q : Ray K E → Prop) (opt : Optics σ K E) : Prop :=
  ∀ w up hits out w', (hits.map HitRec.idx).Nodup → (∀ h ∈ hits, 0 ≤ h.ray.energy ∧ Q h.ray) →
    opt w up hits = .ok (out, w') →
    (∀ r ∈ out, 0 ≤ r.energy) ∧
    ∀ h ∈ hits, childEnergy h.idx out ≤ h.ray.energy

theorem Optics.EnergyOk.on {opt : Optics σ K E} (h : opt.EnergyOk) (Q : Ray K E → Prop) : opt.EnergyOn Q :=
  fun w up hits out w' hnd hpos ho => h w up hits out w' hnd (fun q hq => (hpos q hq).1) ho

theorem mkSurf_energyOn (g : Geometry K E) {opt : Optics σ K E} {Q : Ray K E → Prop} (ha : Optics.AtHit opt)
    (ho : opt.EnergyOn Q) (frame : Tf K) : (mkSurf g opt frame).EnergyOn Q := by
  intro w rays sel out w' hnd hpos h
  obtain ⟨recs, h1, h2⟩ := mkSurf_ok h
  obtain ⟨hidx, hrec⟩ := hitRecs_ok h1
  have := ho _ _ _ _ _ (by rw [hidx]; exact hnd)
    (fun q hq => hpos q.ray (List.mem_of_getElem? (hrec q hq).1)) h2
  refine ⟨this.1, ?_⟩
  intro i p hp
  by_cases hi : i ∈ sel
  · rw [← hidx] at hi
    obtain ⟨q, hq, rfl⟩ := List.mem_map.1 hi
    have hqp := (hrec q hq).1
    rw [hp] at hqp
    cases hqp
    exact this.2 q hq
  · have hnil : (out.filter fun r => r.parent == i) = [] := by
      rw [List.filter_eq_nil_iff]
      intro r hr hri
      obtain ⟨q, hq, hpq, _⟩ := ha _ _ _ _ _ h2 r hr
      apply hi
      rw [← hidx]
      exact List.mem_map.2 ⟨q, hq, by rw [← hpq]; simpa using hri⟩
    rw [hnil]
    simpa using (hpos p (List.mem_of_getElem? hp)).1

theorem childEnergy_none {j : Nat} {l : Bundle K E} (h : ∀ r ∈ l, r.parent ≠ j) : childEnergy j l = 0 := by
  unfold childEnergy
  rw [List.filter_eq_nil_iff.2 (fun r hr he => h r hr (by simpa using he))]
  rfl

theorem childEnergy_all {j : Nat} {l : Bundle K E} (h : ∀ r ∈ l, r.parent = j) :
    childEnergy j l = (l.map Ray.energy).sum := by
  unfold childEnergy
  rw [List.filter_eq_self.2 (fun r hr => by simpa using h r hr)]

/-- Rays made hit by hit. -/
theorem flatMap_energy {f : HitRec K E → Bundle K E} {hits : List (HitRec K E)} (hnd : (hits.map HitRec.idx).Nodup)
    (hf : ∀ h ∈ hits, ∀ r ∈ f h, r.parent = h.idx ∧ 0 ≤ r.energy)
    (he : ∀ h ∈ hits, ((f h).map Ray.energy).sum ≤ h.ray.energy) :
    (∀ r ∈ hits.flatMap f, 0 ≤ r.energy) ∧ ∀ h ∈ hits, childEnergy h.idx (hits.flatMap f) ≤ h.ray.energy := by
  refine ⟨fun r hr => ?_, ?_⟩
  · obtain ⟨h, hh, hr⟩ := List.mem_flatMap.1 hr
    exact (hf h hh r hr).2
  · induction hits with
    | nil => simp
    | cons q hits ih =>
      simp only [List.map_cons, List.nodup_cons, List.mem_map, not_exists, not_and] at hnd
      have ih' := ih hnd.2 (fun h hh => hf h (List.mem_cons_of_mem _ hh)) (fun h hh => he h (List.mem_cons_of_mem _ hh))
      intro h hh
      rw [List.flatMap_cons, childEnergy_append]
      rcases List.mem_cons.1 hh with rfl | hh
      · rw [childEnergy_all (fun r hr => (hf h (List.mem_cons_self ..) r hr).1), childEnergy_none, add_zero]
        · exact he h (List.mem_cons_self ..)
        · intro r hr
          obtain ⟨q, hq, hr⟩ := List.mem_flatMap.1 hr
          rw [(hf q (List.mem_cons_of_mem _ hq) r hr).1]
          exact hnd.1 q hq
      · rw [childEnergy_none (fun r hr => ?_), zero_add]
        · exact ih' h hh
        · rw [(hf q (List.mem_cons_self ..) r hr).1]
          exact fun e => hnd.1 h hh e.symm

theorem zipWith_eq_flatMap {α β γ : Type _} (f : α → β → γ) (l : List α) (m : List β) :
    List.zipWith f l m = (l.zip m).map fun p => f p.1 p.2 := by
  rw [← List.map_uncurry_zip_eq_zipWith]
  rfl

/-- One child, or none, for each hit. -/
theorem zipWith_energy {δ : Type _} {f : HitRec K E → δ → Ray K E} {hits : List (HitRec K E)} {ds : List δ}
    (hnd : (hits.map HitRec.idx).Nodup) (hpos : ∀ h ∈ hits, 0 ≤ h.ray.energy)
    (hf : ∀ h ∈ hits, ∀ d, (f h d).parent = h.idx ∧ 0 ≤ (f h d).energy ∧ (f h d).energy ≤ h.ray.energy) :
    (∀ r ∈ List.zipWith f hits ds, 0 ≤ r.energy) ∧
      ∀ h ∈ hits, childEnergy h.idx (List.zipWith f hits ds) ≤ h.ray.energy := by
  induction hits generalizing ds with
  | nil => simp
  | cons q hits ih =>
    cases ds with
    | nil =>
      refine ⟨by simp, fun h hh => ?_⟩
      simpa [childEnergy] using hpos h hh
    | cons d ds =>
      simp only [List.map_cons, List.nodup_cons, List.mem_map, not_exists, not_and] at hnd
      obtain ⟨i1, i2⟩ := ih (ds := ds) hnd.2 (fun h hh => hpos h (List.mem_cons_of_mem _ hh))
        (fun h hh => hf h (List.mem_cons_of_mem _ hh))
      obtain ⟨q1, q2, q3⟩ := hf q (List.mem_cons_self ..) d
      refine ⟨?_, ?_⟩
      · rw [List.zipWith_cons_cons]
        exact List.forall_mem_cons.2 ⟨q2, i1⟩
      · intro h hh
        rw [List.zipWith_cons_cons, ← List.singleton_append, childEnergy_append]
        rcases List.mem_cons.1 hh with rfl | hh
        · rw [childEnergy_all (by simpa using q1), childEnergy_none, add_zero]
          · simpa using q3
          · intro r hr
            rw [zipWith_eq_flatMap] at hr
            obtain ⟨⟨x, y⟩, hxy, rfl⟩ := List.mem_map.1 hr
            have hx := (List.of_mem_zip hxy).1
            rw [(hf x (List.mem_cons_of_mem _ hx) y).1]
            exact hnd.1 x hx
        · rw [childEnergy_none (l := [f q d]), zero_add]
          · exact i2 h hh
          · intro r hr
            rw [List.mem_singleton.1 hr, q1]
            exact fun e => hnd.1 h hh e.symm

end

theorem lambertian_energyOk {a : ℝ} (h0 : 0 ≤ a) (h1 : a ≤ 1) (draw : Nat → σ → List (ℝ × ℝ) × σ) :
    Optics.EnergyOk (lambertian a draw : Optics σ ℝ E) := by
  intro w up hits out w' hnd hpos h
  simp only [lambertian, Except.ok.injEq, Prod.mk.injEq] at h
  rw [← h.1]
  refine zipWith_energy hnd hpos fun q hq d => ⟨rfl, ?_, ?_⟩
  · exact mul_nonneg (hpos q hq) (by linarith)
  · exact (mul_le_mul_of_nonneg_left (by linarith) (hpos q hq)).trans_eq (mul_one _)

theorem fresnelOne_fraction {n1 n2 : ℝ} (h1 : 0 < n1) (h2 : 0 < n2) (d m : V3 ℝ) :
    0 ≤ fresnelOne d m n1 n2 ∧ fresnelOne d m n1 n2 ≤ 1 := by
  unfold fresnelOne
  simp only
  have hc : 0 ≤ Real.cos (Real.arccos |V3.dot m d|) := by
    apply Real.cos_nonneg_of_neg_pi_div_two_le_of_le
    · linarith [Real.arccos_nonneg |V3.dot m d|, Real.pi_pos]
    · exact Real.arccos_le_pi_div_two.2 (abs_nonneg _)
  generalize Real.cos (Real.arccos |V3.dot m d|) = c at hc
  have hb := Real.sqrt_nonneg (1 - (n1 / n2 * Real.sin (Real.arccos |V3.dot m d|)) ^ 2)
  generalize √(1 - (n1 / n2 * Real.sin (Real.arccos |V3.dot m d|)) ^ 2) = b at hb
  constructor
  · positivity
  · have a := frac_sq_le_one (mul_nonneg h1.le hc) (mul_nonneg h2.le hb)
    have b := frac_sq_le_one (mul_nonneg h1.le hb) (mul_nonneg h2.le hc)
    linarith

theorem refractive_energyOn {n1 n2 : ℝ} (h1 : 0 < n1) (h2 : 0 < n2) :
    (refractiveHomogenous n1 n2 : Optics σ ℝ E).EnergyOn (fun r => ∃ n, 0 < n ∧ r.ref = some n) := by
  intro w up hits out w' hnd hpos h
  have hperm := (refractive_perHit n1 n2).perm _ _ _ _ _ h
  have hR : ∀ q ∈ hits, 0 ≤ hitR n1 n2 q ∧ hitR n1 n2 q ≤ 1 ∧ (hitRefr n1 n2 q = false → hitR n1 n2 q = 1) := by
    intro q hq
    have hin : 0 < idxIn q := by
      unfold idxIn
      obtain ⟨n, hn, e⟩ := (hpos q hq).2
      rw [e]
      exact hn
    have hout : 0 < idxOut n1 n2 q := by
      unfold idxOut toggleRefIdx
      split <;> assumption
    unfold hitR
    split
    · rename_i hr
      have := fresnelOne_fraction hin hout q.ray.dir q.normal
      exact ⟨this.1, this.2, fun e => by rw [hr] at e; cases e⟩
    · exact ⟨zero_le_one, le_rfl, fun _ => rfl⟩
  have key := flatMap_energy (f := refractiveChildren n1 n2 up) hnd
    (fun q hq r hr => by
      unfold refractiveChildren at hr
      split at hr
      · cases hr
      · rcases List.mem_cons.1 hr with rfl | hr
        · exact ⟨rfl, mul_nonneg (hpos q hq).1 (hR q hq).1⟩
        · split at hr
          · rw [List.mem_singleton.1 hr]
            exact ⟨rfl, mul_nonneg (hpos q hq).1 (by linarith [(hR q hq).2.1])⟩
          · cases hr)
    (fun q hq => by
      unfold refractiveChildren
      split
      · simpa using (hpos q hq).1
      · split
        · simp only [List.map_cons, List.map_nil, List.sum_cons, List.sum_nil]
          show q.ray.energy * hitR n1 n2 q + (q.ray.energy * (1 - hitR n1 n2 q) + 0) ≤ _
          linarith
        · rename_i hr
          simp only [List.map_cons, List.map_nil, List.sum_cons, List.sum_nil]
          show q.ray.energy * hitR n1 n2 q + 0 ≤ _
          rw [(hR q hq).2.2 (by simpa using hr)]
          linarith)
  refine ⟨fun r hr => key.1 r (hperm.subset hr), fun q hq => ?_⟩
  rw [childEnergy_perm _ hperm]
  exact key.2 q hq

theorem PhysicalOpaque.opaque {opt : Optics σ ℝ E} (h : PhysicalOpaque opt) : OpaqueOptics opt := by
  induction h with
  | mirror a _ _ => exact .mirror a
  | oneSided a _ _ => exact .oneSided a
  | diffuse a draw _ _ hd => exact .diffuse a draw hd
  | receiver a get set opt _ ih => exact .receiver a get set opt ih

theorem PhysicalOpaque.energyOk {opt : Optics σ ℝ E} (h : PhysicalOpaque opt) : opt.EnergyOk := by
  induction h with
  | mirror a h0 h1 => exact reflective_energyOk h0 h1
  | oneSided a h0 h1 => exact absorberReflector_energyOk h0 h1
  | diffuse a draw h0 h1 _ => exact lambertian_energyOk h0 h1 draw
  | receiver a get set opt _ ih => exact accountant_energyOk ih

theorem PhysicalOptics.energyOn {M : ℝ → Prop} (hM : ∀ n, M n → 0 < n) {opt : Optics σ ℝ E}
    (h : PhysicalOptics M opt) : opt.EnergyOn (MediaRay M) := by
  induction h with
  | solid opt h => exact h.energyOk.on _
  | refractive a b ha hb =>
    intro w up hits out w' hnd hpos h
    exact refractive_energyOn (hM a ha) (hM b hb) w up hits out w' hnd (fun q hq => ⟨(hpos q hq).1, by
      obtain ⟨_, n, hn, e⟩ := (hpos q hq).2
      exact ⟨n, hM n hn, e⟩⟩) h
  | receiver a get set opt _ ih => exact fun w up hits out w' hnd hpos h => ih _ _ _ _ _ hnd hpos h

end Tracer
