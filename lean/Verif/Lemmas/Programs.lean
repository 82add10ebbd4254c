import Verif.Model.Programs
import Verif.Props.Histogram
import Verif.Props.Tally
import Verif.Props.Sources

/-! For `Props/Programs.lean`: collectors that are lit. -/

namespace Tracer

open Real

variable {E σ : Type _}

/-- A callable that leaves the memory alone and passes on at most the share `1 - a` of non-negative energies. -/
def Passes (a : ℝ) (get : σ → Account ℝ) (opt : Optics σ ℝ E) : Prop :=
  ∀ w up hits out w', (∀ h ∈ hits, 0 ≤ h.ray.energy) → opt w up hits = .ok (out, w') →
    get w' = get w ∧ totalEnergy out ≤ totalEnergy (hits.map HitRec.ray) * (1 - a)

theorem map_share {a : ℝ} {l : List (HitRec ℝ E)} {f : HitRec ℝ E → Ray ℝ E}
    (hf : ∀ h ∈ l, (f h).energy ≤ h.ray.energy * (1 - a)) :
    totalEnergy (l.map f) ≤ totalEnergy (l.map HitRec.ray) * (1 - a) := by
  induction l with
  | nil => simp [totalEnergy]
  | cons q l ih =>
    have h2 := ih (fun h hh => hf h (List.mem_cons_of_mem _ hh))
    have h3 := hf q (by simp)
    simp only [totalEnergy, List.map_cons, List.sum_cons] at h2 ⊢
    linarith

theorem reflective_passes (a : ℝ) (get : σ → Account ℝ) : Passes a get (reflective a : Optics σ ℝ E) := by
  intro w up hits out w' hpos h
  simp only [reflective, Except.ok.injEq, Prod.mk.injEq] at h
  obtain ⟨rfl, rfl⟩ := h
  exact ⟨rfl, map_share fun q _ => le_refl (q.ray.energy * (1 - a))⟩

theorem absorberReflector_passes {a : ℝ} (h1 : a ≤ 1) (get : σ → Account ℝ) : Passes a get (absorberReflector a : Optics σ ℝ E) := by
  intro w up hits out w' hpos h
  simp only [absorberReflector, Except.ok.injEq, Prod.mk.injEq] at h
  obtain ⟨rfl, rfl⟩ := h
  refine ⟨rfl, map_share fun q hq => ?_⟩
  split
  · exact mul_nonneg (hpos q hq) (by linarith)
  · exact le_refl (q.ray.energy * (1 - a))

theorem hits_nonneg {hits : List (HitRec ℝ E)} (hpos : ∀ h ∈ hits, 0 ≤ h.ray.energy) : 0 ≤ totalEnergy (hits.map HitRec.ray) := by
  refine List.sum_nonneg ?_
  intro x hx
  obtain ⟨r, hr, rfl⟩ := List.mem_map.1 hx
  obtain ⟨q, hq, rfl⟩ := List.mem_map.1 hr
  exact hpos q hq

theorem Passes.creditable {a : ℝ} {get : σ → Account ℝ} {opt : Optics σ ℝ E} (h : Passes a get opt) (h0 : 0 ≤ a) (Q : Ray ℝ E → Prop) :
    opt.Creditable (fun w => (get w).absorbed.flatten.sum) Q := by
  intro w up hits out w' hQ ho
  have hpos : ∀ h ∈ hits, 0 ≤ h.ray.energy := fun h hh => (hQ h hh).1
  obtain ⟨e1, e2⟩ := h w up hits out w' hpos ho
  have := hits_nonneg hpos
  simp only [e1]
  nlinarith

theorem Passes.accountant {a : ℝ} {get : σ → Account ℝ} {set : Account ℝ → σ → σ} (hgs : ∀ acc w, get (set acc w) = acc)
    {opt : Optics σ ℝ E} (h : Passes a get opt) (Q : Ray ℝ E → Prop) :
    (accountant a get set opt).Creditable (fun w => (get w).absorbed.flatten.sum) Q := by
  intro w up hits out w' hQ ho
  have hpos : ∀ h ∈ hits, 0 ≤ h.ray.energy := fun h hh => (hQ h hh).1
  unfold Tracer.accountant at ho
  obtain ⟨e1, e2⟩ := h _ up hits out w' hpos ho
  simp only [e1, hgs, List.flatten_append, List.sum_append, List.flatten_cons, List.flatten_nil, List.append_nil, hits_share]
  nlinarith

/-- What is needed of a callable for the tally. -/
structure Fair (get : σ → Account ℝ) (opt : Optics σ ℝ E) : Prop where
  atHit : Optics.AtHit opt
  total : Optics.Total opt
  energy : Optics.EnergyOk opt
  credit : opt.Creditable (fun w => (get w).absorbed.flatten.sum) fun _ => True

theorem fair_reflective {a : ℝ} (h0 : 0 ≤ a) (h1 : a ≤ 1) (get : σ → Account ℝ) : Fair get (reflective a : Optics σ ℝ E) :=
  ⟨reflective_atHit a, reflective_total a, reflective_energyOk h0 h1, (reflective_passes a get).creditable h0 _⟩

theorem fair_absorberReflector {a : ℝ} (h0 : 0 ≤ a) (h1 : a ≤ 1) (get : σ → Account ℝ) :
    Fair get (absorberReflector a : Optics σ ℝ E) :=
  ⟨absorberReflector_atHit a, absorberReflector_total a, absorberReflector_energyOk h0 h1,
    (absorberReflector_passes h1 get).creditable h0 _⟩

theorem fair_receiver {a : ℝ} (h0 : 0 ≤ a) (h1 : a ≤ 1) {get : σ → Account ℝ} {set : Account ℝ → σ → σ}
    (hgs : ∀ acc w, get (set acc w) = acc) : Fair get (reflectiveReceiver a get set : Optics σ ℝ E) :=
  ⟨fun _ up _ _ _ he => reflective_atHit a _ up _ _ _ he, accountant_total (reflective_total a),
    accountant_energyOk (reflective_energyOk h0 h1), (reflective_passes a get).accountant hgs _⟩

/-- Something that holds of the callables of a collector's kind holds of all surfaces of the collector. -/
theorem collector_surfs (reflector : SceneSurf σ ℝ E) (pos : ℝ) {x y depth : ℝ} (hx : 0 < x) (hy : 0 < y) (hd : 0 < depth)
    (eff : ℝ) (get : σ → Account ℝ) (set : Account ℝ → σ → σ) (junk : M3 ℝ) (T : Tf ℝ) {a : SceneAsm σ ℝ E}
    (h : homogenizedLocalReceiver reflector pos (x, y) depth eff get set junk = .ok a) (P : Optics σ ℝ E → Prop)
    (h1 : P (absorberReflector (1 - eff))) (h2 : P (reflectiveReceiver 1 get set)) (h3 : P (reflective 1)) (h4 : P reflector.data.2) :
    ∀ o ∈ (a.set (.transform T)).getObjects, ∀ s ∈ o.surfs, P s.data.2 := by
  obtain ⟨a', g, ha, hg, walls, rec, refl, ho, _, hw, hr, _, hl, _⟩ := collector_objects reflector pos hx hy hd eff get set junk T
  rw [h] at ha
  cases ha
  intro n hn m hm
  rw [ho, List.mem_append] at hn
  rcases hn with hn | hn
  · obtain ⟨own, g', k1, k2, hsu, _⟩ := hw n hn
    rw [hsu, List.mem_singleton] at hm
    subst hm
    exact h1
  · rw [List.mem_cons, List.mem_singleton] at hn
    rcases hn with rfl | rfl
    · rw [hr, List.mem_cons, List.mem_singleton] at hm
      rcases hm with rfl | rfl
      · exact h2
      · exact h3
    · rw [hl, List.mem_singleton] at hm
      subst hm
      exact h4

/-- What a lit collector's receiver reports, in a trace without ties. -/
theorem collector_tally {g0 : Geometry ℝ E} (hg0 : PlainGeometry g0) {dishEff : ℝ} (hd0 : 0 ≤ dishEff) (hd1 : dishEff ≤ 1) (pos : ℝ)
    {x y depth : ℝ} (hx : 0 < x) (hy : 0 < y) (hd : 0 < depth) {eff : ℝ} (he0 : 0 ≤ eff) (he1 : eff ≤ 1)
    {get : σ → Account ℝ} {set : Account ℝ → σ → σ} (hgs : ∀ acc w, get (set acc w) = acc) (junk : M3 ℝ) {T : Tf ℝ} (hT : T.Rigid)
    {a : SceneAsm σ ℝ E}
    (h : homogenizedLocalReceiver (Surface.new g0 (reflective (1 - dishEff)) 1) pos (x, y) depth eff get set junk = .ok a)
    {w : σ} {b : Bundle ℝ E} {reps : Nat} {minE : ℝ} {res : TraceResult σ ℝ E} (hb : ∀ r ∈ b, 0 ≤ r.energy)
    (hres : rayTracer (a.set (.transform T)).scene w b reps minE true = .ok res)
    (hnt : ∀ lvl ∈ res.tree, ∀ p ∈ lvl, NoTie Surf.single ((a.set (.transform T)).scene.flatMap Obj.surfs) p) :
    (get res.world).absorbed.flatten.sum + totalEnergy (treeLeaves res.tree) ≤ (get w).absorbed.flatten.sum + totalEnergy b ∧
      0 ≤ totalEnergy (treeLeaves res.tree) := by
  obtain ⟨a', ha, hlib, hplain, _⟩ := collector_library (Surface.new g0 (reflective (1 - dishEff)) 1) hg0 (.mirror _) Tf.Rigid.one pos
    hx hy hd eff get set junk hT
  rw [h] at ha
  cases ha
  have hfair := collector_surfs (Surface.new g0 (reflective (1 - dishEff)) 1) pos hx hy hd eff get set junk T h (Fair get)
    (fair_absorberReflector (by linarith) (by linarith) get) (fair_receiver zero_le_one le_rfl hgs) (fair_reflective zero_le_one le_rfl get)
    (fair_reflective (by linarith) (by linarith) get)
  have hlen : AllSurfs Surf.LengthOk (a.set (.transform T)).scene := scene_all fun o ho s hs => mkSurf_lengthOk (hlib.geometry o ho s hs).lengthOk _ _
  have hpar : AllSurfs Surf.ParentsOk (a.set (.transform T)).scene :=
    scene_all fun o ho s hs => mkSurf_parentsOk _ (hfair o ho s hs).atHit _
  have hnn : ∀ lvl ∈ res.tree, ∀ p ∈ lvl, 0 ≤ p.energy := by
    intro lvl hl
    obtain ⟨k, hk⟩ := List.getElem?_of_mem hl
    exact C15_nonneg hlib.shapeOk hlen hpar
      (scene_all fun o ho s hs => mkSurf_energyOk _ (hfair o ho s hs).atHit (hfair o ho s hs).energy _) hb hres hk
  refine ⟨C101_scene (absorbed := fun w => (get w).absorbed.flatten.sum) (Q := fun _ => True) hlib.shapeOk hlen hpar
    (scene_all fun o ho s hs => mkSurf_total _ (hfair o ho s hs).total _)
    (scene_all fun o ho s hs => mkSurf_creditable _ (hfair o ho s hs).credit _) hres
    fun lvl hl p hp => ⟨⟨hnn lvl hl p hp, trivial⟩, (hnt lvl hl p hp).never fun s hs => mem_allSurfs (plain_perRay hplain) hs⟩, ?_⟩
  refine List.sum_nonneg fun x hx => ?_
  obtain ⟨r, hr, rfl⟩ := List.mem_map.1 hx
  obtain ⟨lvl, hl, hr⟩ := mem_treeLeaves hr
  exact hnn lvl hl r hr

end Tracer
