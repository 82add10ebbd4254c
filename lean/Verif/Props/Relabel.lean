import Verif.Spec.Relabel
import Verif.Lemmas.Simulation
import Verif.Lemmas.Contracts
import Verif.Lemmas.Refractive
import Verif.Props.TraceMotion

/-! # Energies scale (C71), user-defined properties ride along (C72), receivers only watch (C73) -/

set_option linter.unusedSectionVars false

namespace Tracer

section
variable {K E σ σ' : Type _} [Field K] [LinearOrder K] [IsStrictOrderedRing K]

/-! ## Relabelling in general -/

theorem hitRecs_relabel {f : Ray K E → Ray K E} (hv : ∀ r, (f r).vertex = r.vertex) (hd : ∀ r, (f r).dir = r.dir)
    {g : Geometry K E} (hg : g.LightOnly) (frame : Tf K) (rays : Bundle K E) (sel : List Nat) :
    hitRecs g frame (rays.map f) sel = (hitRecs g frame rays sel).map (List.map (HitRec.relabel f)) := by
  have hfind : g.find frame (rays.map f) = g.find frame rays := by
    apply hg <;> rw [List.map_map]
    · exact List.map_congr_left fun r _ => hv r
    · exact List.map_congr_left fun r _ => hd r
  induction sel with
  | nil => rfl
  | cons i sel ih =>
    simp only [hitRecs, hfind, ih, List.getElem?_map]
    cases h1 : rays[i]? with
    | none => rfl
    | some r =>
      simp only [Option.map_some]
      cases h2 : (g.find frame rays)[i]? with
      | none => rfl
      | some p =>
        cases p with
        | top => rfl
        | coe t =>
          have hat : (f r).at t = r.at t := by unfold Ray.at; rw [hv, hd]
          cases hitRecs g frame rays sel with
          | error e => rfl
          | ok recs =>
            change Except.ok (_ :: _) = Except.ok (_ :: _)
            rw [hat, hd]
            rfl

theorem surf_relabel {f : Ray K E → Ray K E} (hv : ∀ r, (f r).vertex = r.vertex) (hd : ∀ r, (f r).dir = r.dir)
    {ψ : σ → σ'} {g : Geometry K E} (hg : g.LightOnly) {opt : Optics σ K E} {opt' : Optics σ' K E}
    (ho : Optics.Respects f ψ opt opt') (frame : Tf K) :
    Surf.Simulates f ψ (mkSurf g opt frame) (mkSurf g opt' frame) where
  register rays := by
    apply hg <;> rw [List.map_map]
    · exact List.map_congr_left fun r _ => hv r
    · exact List.map_congr_left fun r _ => hd r
  outgoing w rays sel := by
    simp only [mkSurf, hitRecs_relabel hv hd hg]
    cases hitRecs g frame rays sel with
    | error e => rfl
    | ok recs =>
      simp only [Except.map]
      exact ho w frame.rot.c3 recs

theorem forall₂_self {α : Type _} {R : α → α → Prop} {l : List α} (h : ∀ x ∈ l, R x x) : List.Forall₂ R l l := by
  induction l with
  | nil => exact .nil
  | cons x l ih => exact .cons (h x (List.mem_cons_self ..)) (ih fun y hy => h y (List.mem_cons_of_mem _ hy))

theorem trace_relabel {f : Ray K E → Ray K E} (hv : ∀ r, (f r).vertex = r.vertex) (hd : ∀ r, (f r).dir = r.dir)
    {minE minE' : K} (hf : RayMap f minE minE') {ψ : σ → σ'} {objs : List (Obj σ K E)} {objs' : List (Obj σ' K E)}
    (h : List.Forall₂ (Obj.Simulates f ψ) objs objs') (w : σ) (b : Bundle K E) (reps : Nat) (keepTree : Bool) :
    rayTracer objs' (ψ w) (b.map f) reps minE' keepTree =
      (rayTracer objs w b reps minE keepTree).map (TraceResult.relabel f ψ) := by
  rcases sim_rayTracer h hf w b reps keepTree with ⟨e, h1, h2⟩ | ⟨st, tree, h1, h2⟩
  · rw [h1, h2]; rfl
  · rw [h1, h2]
    have e1 : (st.bund.map f).map Ray.vertex = st.bund.map Ray.vertex := by
      rw [List.map_map]; exact List.map_congr_left fun r _ => hv r
    have e2 : (st.bund.map f).map Ray.dir = st.bund.map Ray.dir := by
      rw [List.map_map]; exact List.map_congr_left fun r _ => hd r
    rw [e1, e2]
    rfl

theorem scene_relabel {f : Ray K E → Ray K E} (hv : ∀ r, (f r).vertex = r.vertex) (hd : ∀ r, (f r).dir = r.dir)
    {ψ : σ → σ} {a : SceneAsm σ K E} (hgeom : ∀ o ∈ a.getObjects, ∀ s ∈ o.surfs, s.data.1.LightOnly)
    (hopt : ∀ o ∈ a.getObjects, ∀ s ∈ o.surfs, Optics.Respects f ψ s.data.2 s.data.2)
    (hpol : ∀ o ∈ a.getObjects, Policies.Ignore f o.data) : List.Forall₂ (Obj.Simulates f ψ) a.scene a.scene := by
  refine forall₂_self fun o ho => ?_
  obtain ⟨q, hq, rfl⟩ := List.mem_map.1 ho
  refine ⟨forall₂_self fun s hs => ?_, (hpol q hq).1, (hpol q hq).2⟩
  obtain ⟨p, hp, rfl⟩ := List.mem_map.1 hs
  exact surf_relabel hv hd (hgeom q hq p hp) (hopt q hq p hp) p.temp

/-! ## Callables -/

theorem respects_reflective {f : Ray K E → Ray K E} (hf : Relabelling f) (ψ : σ → σ') (absorptivity : K) :
    Optics.Respects f ψ (reflective absorptivity : Optics σ K E) (reflective absorptivity) := by
  intro w up hits
  simp only [reflective, Except.map, List.map_map]
  congr 2
  refine List.map_congr_left fun h _ => ?_
  have := hf.child h.ray h.point (reflection h.ray.dir h.normal) (1 - absorptivity) h.idx h.ray.ref
  simp only [Function.comp, reflectOne, HitRec.relabel, hf.dir, hf.ref]
  rw [this]

theorem respects_one_sided {f : Ray K E → Ray K E} (hf : Relabelling f) (ψ : σ → σ') (absorptivity : K) :
    Optics.Respects f ψ (absorberReflector absorptivity : Optics σ K E) (absorberReflector absorptivity) := by
  intro w up hits
  simp only [absorberReflector, Except.map, List.map_map]
  congr 2
  refine List.map_congr_left fun h _ => ?_
  have h1 := hf.child h.ray h.point (reflection h.ray.dir h.normal) (1 - absorptivity) h.idx h.ray.ref
  have h2 := hf.child h.ray h.point (reflection h.ray.dir h.normal) 0 h.idx h.ray.ref
  rw [mul_zero, mul_zero] at h2
  simp only [Function.comp, reflectOne, HitRec.relabel, hf.dir, hf.ref]
  by_cases hp : 0 < V3.dot h.ray.dir up
  · simp only [if_pos hp, h2]
  · simp only [if_neg hp, h1]

theorem respects_scale (c : K) : Relabelling (Ray.scale c : Ray K E → Ray K E) :=
  ⟨fun _ => rfl, fun _ => rfl, fun _ => rfl, fun r v d share p n => by simp only [Ray.scale, mul_assoc]⟩

theorem respects_retag (φ : E → E) : Relabelling (Ray.retag φ : Ray K E → Ray K E) :=
  ⟨fun _ => rfl, fun _ => rfl, fun _ => rfl, fun _ _ _ _ _ _ => rfl⟩

theorem respects_id : Relabelling (id : Ray K E → Ray K E) :=
  ⟨fun _ => rfl, fun _ => rfl, fun _ => rfl, fun _ _ _ _ _ _ => rfl⟩

/-! ## Geometry managers and policies -/

theorem perRay_lightOnly {g : Geometry K E} {f} (h : g.PerRay f) : g.LightOnly := by
  intro frame rays rays' hv hd
  rw [h, h]
  clear h
  induction rays generalizing rays' with
  | nil => cases rays' with
    | nil => rfl
    | cons => simp at hv
  | cons r rays ih => cases rays' with
    | nil => simp at hv
    | cons r' rays' =>
      simp only [List.map_cons, List.cons.injEq] at hv hd ⊢
      exact ⟨by rw [hv.1, hd.1], ih rays' hv.2 hd.2⟩

/-- C71, C72, C73: infinite and trimmed flat surfaces see only the light. -/
theorem C71_flat (outside : Tf K → V3 K → Bool) :
    (flatGM : Geometry K E).LightOnly ∧ (finiteFlatGM outside : Geometry K E).LightOnly :=
  ⟨perRay_lightOnly flatGM_perRay, perRay_lightOnly (finiteFlatGM_perRay outside)⟩

/-- C71, C72: the policies of the package look at nothing but the number of rays. -/
theorem C71_policies (f : Ray K E → Ray K E) (s : Nat) :
    Policies.Ignore f ((Obj.defaultOwn, Obj.defaultNext s) : Policies K E) ∧
    Policies.Ignore f ((Obj.defaultOwn, Obj.skipNext s) : Policies K E) := by
  refine ⟨⟨?_, ?_⟩, ?_, ?_⟩ <;> intro rays k <;>
    simp only [Obj.defaultOwn, Obj.defaultNext, Obj.skipNext, List.length_map]

/-! ## C71 -/

/-- C71: multiplying the energies of the source and the minimum energy by a positive factor multiplies all recorded energies,
and what the receivers remember (`ψ`), and changes nothing else. -/
theorem C71_scale {c : K} (hc : 0 < c) {ψ : σ → σ} {a : SceneAsm σ K E}
    (hgeom : ∀ o ∈ a.getObjects, ∀ s ∈ o.surfs, s.data.1.LightOnly)
    (hopt : ∀ o ∈ a.getObjects, ∀ s ∈ o.surfs, Optics.Respects (Ray.scale c) ψ s.data.2 s.data.2)
    (hpol : ∀ o ∈ a.getObjects, Policies.Ignore (Ray.scale c) o.data)
    (w : σ) (b : Bundle K E) (reps : Nat) (minE : K) (keepTree : Bool) :
    rayTracer a.scene (ψ w) (b.map (Ray.scale c)) reps (c * minE) keepTree =
      (rayTracer a.scene w b reps minE keepTree).map (TraceResult.relabel (Ray.scale c) ψ) :=
  trace_relabel (f := Ray.scale c) (fun _ => rfl) (fun _ => rfl)
    ⟨fun _ => rfl, fun _ _ => rfl, fun r => mul_le_mul_iff_right₀ hc⟩
    (scene_relabel (f := Ray.scale c) (fun _ => rfl) (fun _ => rfl) hgeom hopt hpol) w b reps keepTree

/-- C71: mirrors and one-sided mirrors. -/
theorem C71_reflective (c : K) (ψ : σ → σ) (absorptivity : K) :
    Optics.Respects (Ray.scale c) ψ (reflective absorptivity : Optics σ K E) (reflective absorptivity) ∧
    Optics.Respects (Ray.scale c) ψ (absorberReflector absorptivity : Optics σ K E) (absorberReflector absorptivity) :=
  ⟨respects_reflective (respects_scale c) ψ _, respects_one_sided (respects_scale c) ψ _⟩

/-- C71: receivers around any of the callables; the energies they remember are multiplied. -/
theorem C71_receiver {c : K} {ψ : σ → σ} (absorptivity : K) {get : σ → Account K} {set : Account K → σ → σ}
    (hget : ∀ w, get (ψ w) = (get w).scale c) (hset : ∀ acc w, ψ (set acc w) = set (acc.scale c) (ψ w))
    {opt : Optics σ K E} (ho : Optics.Respects (Ray.scale c) ψ opt opt) :
    Optics.Respects (Ray.scale c) ψ (accountant absorptivity get set opt) (accountant absorptivity get set opt) := by
  intro w up hits
  unfold accountant
  rw [← ho]
  congr 1
  rw [hset, hget]
  congr 1
  unfold Account.scale
  simp only [List.map_append, List.map_map, List.map_cons, List.map_nil]
  have e : hits.map ((fun h : HitRec K E => h.ray.energy * absorptivity) ∘ HitRec.relabel (Ray.scale c)) =
      hits.map ((fun x => c * x) ∘ fun h : HitRec K E => h.ray.energy * absorptivity) :=
    List.map_congr_left fun h _ => by simp only [Function.comp, HitRec.relabel, Ray.scale, mul_assoc]
  rw [e]
  rfl

/-! ## C72 -/

/-- C72: the user-defined properties of the source rays influence nothing but the user-defined properties of the recorded
rays. -/
theorem C72_irrelevant (φ : E → E) {a : SceneAsm σ K E}
    (hgeom : ∀ o ∈ a.getObjects, ∀ s ∈ o.surfs, s.data.1.LightOnly)
    (hopt : ∀ o ∈ a.getObjects, ∀ s ∈ o.surfs, Optics.Respects (Ray.retag φ) id s.data.2 s.data.2)
    (hpol : ∀ o ∈ a.getObjects, Policies.Ignore (Ray.retag φ) o.data)
    (w : σ) (b : Bundle K E) (reps : Nat) (minE : K) (keepTree : Bool) :
    rayTracer a.scene w (b.map (Ray.retag φ)) reps minE keepTree =
      (rayTracer a.scene w b reps minE keepTree).map (TraceResult.relabel (Ray.retag φ) id) :=
  trace_relabel (f := Ray.retag φ) (ψ := id) (fun _ => rfl) (fun _ => rfl) ⟨fun _ => rfl, fun _ _ => rfl, fun _ => Iff.rfl⟩
    (scene_relabel (f := Ray.retag φ) (fun _ => rfl) (fun _ => rfl) hgeom hopt hpol) w b reps keepTree

/-- C72: mirrors and one-sided mirrors. -/
theorem C72_reflective (φ : E → E) (absorptivity : K) :
    Optics.Respects (Ray.retag φ) id (reflective absorptivity : Optics σ K E) (reflective absorptivity) ∧
    Optics.Respects (Ray.retag φ) id (absorberReflector absorptivity : Optics σ K E) (absorberReflector absorptivity) :=
  ⟨respects_reflective (respects_retag φ) id _, respects_one_sided (respects_retag φ) id _⟩

/-- C72: receivers around any of the callables remember the same. -/
theorem C72_receiver (φ : E → E) (absorptivity : K) {get : σ → Account K} {set : Account K → σ → σ}
    {opt : Optics σ K E} (ho : Optics.Respects (Ray.retag φ) id opt opt) :
    Optics.Respects (Ray.retag φ) id (accountant absorptivity get set opt) (accountant absorptivity get set opt) := by
  intro w up hits
  unfold accountant
  rw [← ho]
  simp only [List.map_map, id]
  rfl

/-! ## C73 -/

/-- C73: replacing receivers by plain surfaces of the same absorptivity changes nothing in a trace but the receivers'
memories. -/
theorem C73_watch (forget : σ → σ') {objs : List (Obj σ K E)} {objs' : List (Obj σ' K E)}
    (h : List.Forall₂ (Obj.Unobserved forget) objs objs') (w : σ) (b : Bundle K E) (reps : Nat) (minE : K) (keepTree : Bool) :
    rayTracer objs' (forget w) b reps minE keepTree =
      (rayTracer objs w b reps minE keepTree).map fun r => ⟨r.vertices, r.directions, r.tree, forget r.world⟩ := by
  have hs : List.Forall₂ (Obj.Simulates id forget) objs objs' := by
    refine h.imp fun o o' ho => ⟨ho.surfs.imp fun s s' hs => ?_, ?_, ?_⟩
    · have key : ∀ (g : Geometry K E) (frame : Tf K) (opt : Optics σ K E) (opt' : Optics σ' K E),
          Optics.Respects id forget opt opt' → Surf.Simulates id forget (mkSurf g opt frame) (mkSurf g opt' frame) := by
        intro g frame opt opt' ho
        refine ⟨fun rays => by rw [List.map_id]; rfl, fun w rays sel => ?_⟩
        simp only [mkSurf, List.map_id]
        cases hitRecs g frame rays sel with
        | error e => rfl
        | ok recs =>
          have := ho w frame.rot.c3 recs
          have hid : recs.map (HitRec.relabel id) = recs := by
            conv_rhs => rw [← List.map_id recs]
            rfl
          rw [hid] at this
          simp only [List.map_id] at this
          exact this
      cases hs with
      | plain g frame opt opt' same => exact key g frame opt opt' same
      | receiver g frame opt opt' absorptivity get set memory same =>
        refine key g frame _ opt' fun w up hits => ?_
        unfold accountant
        rw [← same, memory]
    · intro rays k; rw [ho.own, List.map_id]
    · intro rays k; rw [ho.next, List.map_id]
  have := trace_relabel (f := id) (fun _ => rfl) (fun _ => rfl) (minE := minE) (minE' := minE)
    ⟨fun _ => rfl, fun _ _ => rfl, fun _ => Iff.rfl⟩ hs w b reps keepTree
  rw [List.map_id] at this
  rw [this]
  cases rayTracer objs w b reps minE keepTree with
  | error e => rfl
  | ok r => simp [Except.map, TraceResult.relabel]

/-- C73 in particular: a `ReflectiveReceiver` replaced by a mirror of its absorptivity, next to mirrors and one-sided
mirrors. -/
theorem C73_reflective (forget : σ → σ') (g : Geometry K E) (frame : Tf K) (absorptivity : K) (get : σ → Account K)
    (set : Account K → σ → σ) (memory : ∀ acc w, forget (set acc w) = forget w) :
    Unobserved forget (mkSurf g (reflectiveReceiver absorptivity get set) frame) (mkSurf g (reflective absorptivity) frame) ∧
    Unobserved forget (mkSurf g (reflective absorptivity : Optics σ K E) frame) (mkSurf g (reflective absorptivity) frame) ∧
    Unobserved forget (mkSurf g (absorberReflector absorptivity : Optics σ K E) frame)
      (mkSurf g (absorberReflector absorptivity) frame) :=
  ⟨.receiver g frame _ _ _ get set memory (respects_reflective respects_id forget _),
   .plain g frame _ _ (respects_reflective respects_id forget _), .plain g frame _ _ (respects_one_sided respects_id forget _)⟩

end

section
variable {E σ σ' : Type _}

/-! ## Refraction and diffuse reflection -/

theorem respects_refractive {f : Ray ℝ E → Ray ℝ E} (hf : Relabelling f) (ψ : σ → σ') (a b : ℝ) :
    Optics.Respects f ψ (refractiveHomogenous a b : Optics σ ℝ E) (refractiveHomogenous a b) := by
  intro w up hits
  by_cases hne : hits = []
  · subst hne; rfl
  have hne' : hits.map (HitRec.relabel f) ≠ [] := by simpa using hne
  by_cases href : ∀ q ∈ hits, q.ray.ref ≠ none
  · have href' : ∀ q ∈ hits.map (HitRec.relabel f), q.ray.ref ≠ none := by
      intro q hq
      obtain ⟨p, hp, rfl⟩ := List.mem_map.1 hq
      have : (HitRec.relabel f p).ray.ref = p.ray.ref := hf.ref p.ray
      rw [this]
      exact href p hp
    have hd : ∀ h : HitRec ℝ E, (h.relabel f).ray.dir = h.ray.dir := fun h => hf.dir h.ray
    have hn : ∀ h : HitRec ℝ E, (h.relabel f).normal = h.normal := fun _ => rfl
    have hi : ∀ h : HitRec ℝ E, idxIn (h.relabel f) = idxIn h := by
      intro h
      unfold idxIn
      rw [show (h.relabel f).ray.ref = h.ray.ref from hf.ref h.ray]
    have ho : ∀ h : HitRec ℝ E, idxOut a b (h.relabel f) = idxOut a b h := by
      intro h
      unfold idxOut
      rw [hi]
    have h1 : ∀ h : HitRec ℝ E, hitRefr a b (h.relabel f) = hitRefr a b h := by
      intro h
      unfold hitRefr
      rw [hi, ho, hd, hn]
    have h2 : ∀ h : HitRec ℝ E, hitR a b (h.relabel f) = hitR a b h := by
      intro h
      unfold hitR
      rw [h1, hi, ho, hd, hn]
    have h3 : ∀ h : HitRec ℝ E, hitReflected a b (h.relabel f) = f (hitReflected a b h) := by
      intro h
      unfold hitReflected
      rw [h2]
      have := hf.child h.ray h.point (reflection h.ray.dir h.normal) (hitR a b h) h.idx h.ray.ref
      simp only [reflectedRay, HitRec.relabel, hf.dir, hf.ref]
      rw [this]
    have h4 : ∀ h : HitRec ℝ E, hitRefracted a b (h.relabel f) = f (hitRefracted a b h) := by
      intro h
      unfold hitRefracted
      rw [h2, hi, ho, hd, hn]
      have := hf.child h.ray h.point (refractOne (idxIn h) (idxOut a b h) h.ray.dir h.normal) (1 - hitR a b h) h.idx
        (some (idxOut a b h))
      simp only [refractedRay, HitRec.relabel]
      rw [this]
    have h6 : ∀ h : HitRec ℝ E, reflectOne 0 (h.relabel f) = f (reflectOne 0 h) := by
      intro h
      have := hf.child h.ray h.point (reflection h.ray.dir h.normal) (1 - 0) h.idx h.ray.ref
      simp only [reflectOne, HitRec.relabel, hf.dir, hf.ref]
      rw [this]
    rw [refractive_eq a b _ _ _ hne' href', refractive_eq a b _ _ _ hne href]
    simp only [List.any_map, List.map_map, List.filter_map, Function.comp_def, h1, h3, h4, hi, ho, hd, hn]
    split
    · split
      · rfl
      · simp only [Except.map, List.map_append, List.map_map, Function.comp_def]
    · simp only [Except.map, List.map_map, Function.comp_def]
  · push Not at href
    obtain ⟨q, hq, hn⟩ := href
    have e1 : refIndices hits = .error .attribute := refIndices_missing ⟨q, hq, hn⟩
    have e2 : refIndices (hits.map (HitRec.relabel f)) = .error .attribute :=
      refIndices_missing ⟨q.relabel f, List.mem_map_of_mem hq, by
        rw [show (q.relabel f).ray.ref = q.ray.ref from hf.ref q.ray]; exact hn⟩
    unfold refractiveHomogenous
    rw [e1, e2]
    cases hits with
    | nil => exact absurd rfl hne
    | cons => rfl

/-- The two states of the random generator give the same numbers. -/
theorem respects_lambertian {f : Ray ℝ E → Ray ℝ E} (hf : Relabelling f) {ψ : σ → σ'} (absorptivity : ℝ)
    {draw : Nat → σ → List (ℝ × ℝ) × σ} {draw' : Nat → σ' → List (ℝ × ℝ) × σ'}
    (hdraw : ∀ n w, draw' n (ψ w) = ((draw n w).1, ψ (draw n w).2)) :
    Optics.Respects f ψ (lambertian absorptivity draw : Optics σ ℝ E) (lambertian absorptivity draw') := by
  intro w up hits
  simp only [lambertian, Except.map, List.length_map, hdraw, List.map_zipWith, List.zipWith_map_left]
  congr 2
  refine congrArg (fun g => List.zipWith g hits _) ?_
  funext h d
  have := hf.child h.ray h.point ((rotationToZ h.normal).mulVec d) (1 - absorptivity) h.idx h.ray.ref
  simp only [HitRec.relabel, hf.ref]
  rw [this]

/-- C71: refracting and diffusely reflecting surfaces. -/
theorem C71_refractive (c : ℝ) (ψ : σ → σ) (a b : ℝ) (absorptivity : ℝ) (draw : Nat → σ → List (ℝ × ℝ) × σ)
    (hdraw : ∀ n w, draw n (ψ w) = ((draw n w).1, ψ (draw n w).2)) :
    Optics.Respects (Ray.scale c) ψ (refractiveHomogenous a b : Optics σ ℝ E) (refractiveHomogenous a b) ∧
    Optics.Respects (Ray.scale c) ψ (lambertian absorptivity draw : Optics σ ℝ E) (lambertian absorptivity draw) :=
  ⟨respects_refractive (respects_scale c) ψ a b, respects_lambertian (respects_scale c) absorptivity hdraw⟩

/-- C72: refracting and diffusely reflecting surfaces. -/
theorem C72_refractive (φ : E → E) (a b : ℝ) (absorptivity : ℝ) (draw : Nat → σ → List (ℝ × ℝ) × σ) :
    Optics.Respects (Ray.retag φ) id (refractiveHomogenous a b : Optics σ ℝ E) (refractiveHomogenous a b) ∧
    Optics.Respects (Ray.retag φ) id (lambertian absorptivity draw : Optics σ ℝ E) (lambertian absorptivity draw) :=
  ⟨respects_refractive (respects_retag φ) id a b, respects_lambertian (respects_retag φ) absorptivity fun _ _ => rfl⟩

/-- C73: refracting surfaces, and a `LambertianReceiver` replaced by a `LambertianReflector`.  The random generator
is not part of the receivers' memories. -/
theorem C73_refractive (forget : σ → σ') (g : Geometry ℝ E) (frame : Tf ℝ) (a b absorptivity : ℝ) (get : σ → Account ℝ)
    (set : Account ℝ → σ → σ) (memory : ∀ acc w, forget (set acc w) = forget w)
    (draw : Nat → σ → List (ℝ × ℝ) × σ) (draw' : Nat → σ' → List (ℝ × ℝ) × σ')
    (hdraw : ∀ n w, draw' n (forget w) = ((draw n w).1, forget (draw n w).2)) :
    Unobserved forget (mkSurf g (refractiveHomogenous a b : Optics σ ℝ E) frame) (mkSurf g (refractiveHomogenous a b) frame) ∧
    Unobserved forget (mkSurf g (lambertianReceiver absorptivity draw get set : Optics σ ℝ E) frame)
      (mkSurf g (lambertian absorptivity draw') frame) :=
  ⟨.plain g frame _ _ (respects_refractive respects_id forget a b),
   .receiver g frame _ _ _ get set memory (respects_lambertian respects_id absorptivity hdraw)⟩

/-! ## Quadrics -/

theorem quadricFind_light {abc : V3 ℝ → V3 ℝ → ℝ × ℝ × ℝ} {select : List Cand → List (Option Bool)}
    {rays rays' : Bundle ℝ E} (hv : rays.map Ray.vertex = rays'.map Ray.vertex) (hd : rays.map Ray.dir = rays'.map Ray.dir) :
    quadricFind abc select rays = quadricFind abc select rays' := by
  have hl : rays.length = rays'.length := by
    have := congrArg List.length hv
    simpa using this
  have hc : (rays.map fun r => candidate (abc r.vertex r.dir) r.vertex r.dir) =
      rays'.map fun r => candidate (abc r.vertex r.dir) r.vertex r.dir := by
    clear hl
    induction rays generalizing rays' with
    | nil => cases rays' with
      | nil => rfl
      | cons => simp at hv
    | cons r rays ih => cases rays' with
      | nil => simp at hv
      | cons r' rays' =>
        simp only [List.map_cons, List.cons.injEq] at hv hd ⊢
        exact ⟨by rw [hv.1, hd.1], ih hv.2 hd.2⟩
  unfold quadricFind
  rw [hc, hl]

/-- C71, C72: all quadric surfaces see only the light. -/
theorem C71_quadrics {R : ℝ} {bound : Option (Tf ℝ → V3 ℝ → Bool)} {diameter focal height a b : ℝ} :
    (∀ g : Geometry ℝ E, sphereGM R = .ok g → g.LightOnly) ∧
    (∀ g : Geometry ℝ E, hemisphereGM R = .ok g → g.LightOnly) ∧
    (∀ g : Geometry ℝ E, cutSphereGM R bound = .ok g → g.LightOnly) ∧
    (paraboloidGM a b : Geometry ℝ E).LightOnly ∧ (parabolicDishGM diameter focal : Geometry ℝ E).LightOnly ∧
    (hexagonalDishGM diameter focal : Geometry ℝ E).LightOnly ∧ (infiniteCylinderGM diameter : Geometry ℝ E).LightOnly ∧
    (finiteCylinderGM diameter height : Geometry ℝ E).LightOnly := by
  refine ⟨?_, ?_, ?_, fun _ _ _ => quadricFind_light, fun _ _ _ => quadricFind_light, fun _ _ _ => quadricFind_light,
    fun _ _ _ => quadricFind_light, fun _ _ _ => quadricFind_light⟩
  · intro g hg
    unfold sphereGM at hg
    split at hg
    · cases hg
    · cases hg; exact fun _ _ _ => quadricFind_light
  · intro g hg
    unfold hemisphereGM at hg
    split at hg
    · cases hg
    · cases hg; exact fun _ _ _ => quadricFind_light
  · intro g hg
    unfold cutSphereGM at hg
    split at hg
    · cases hg
    · cases hg; exact fun _ _ _ => quadricFind_light

end

/-! ## Examples -/

/-- C71 applies to a mirror and a receiver facing each other. -/
example (w : Account ℚ) (b : Bundle ℚ Unit) (reps : Nat) (minE : ℚ) (keepTree : Bool) :
    rayTracer twoPlates.scene (w.scale 3) (b.map (Ray.scale 3)) reps (3 * minE) keepTree =
      (rayTracer twoPlates.scene w b reps minE keepTree).map (TraceResult.relabel (Ray.scale 3) (Account.scale 3)) := by
  have hg : unitPlate.LightOnly := (C71_flat (rectOutside 1 1)).2
  refine C71_scale (by norm_num) ?_ ?_ ?_ w b reps minE keepTree
  · exact List.forall_mem_cons.2 ⟨List.forall_mem_cons.2 ⟨hg, by simp⟩, List.forall_mem_cons.2
      ⟨List.forall_mem_cons.2 ⟨hg, by simp⟩, by simp⟩⟩
  · exact List.forall_mem_cons.2 ⟨List.forall_mem_cons.2 ⟨(C71_reflective _ _ _).1, by simp⟩, List.forall_mem_cons.2
      ⟨List.forall_mem_cons.2 ⟨C71_receiver (get := id) (set := fun a _ => a) _ (fun _ => rfl) (fun _ _ => rfl)
        (C71_reflective _ _ _).1, by simp⟩, by simp⟩⟩
  · exact List.forall_mem_cons.2 ⟨(C71_policies _ 1).1, List.forall_mem_cons.2 ⟨(C71_policies _ 1).1, by simp⟩⟩

/-- A mirror above the origin facing down, and a receiver at the origin facing up; rays carry a number. -/
def taggedPlates : SceneAsm (Account ℚ) ℚ ℕ :=
  Asm.new
    [ObjNode.new [Surface.new (finiteFlatGM (rectOutside 1 1)) (reflective (1 / 4)) 1]
      ⟨⟨⟨1, 0, 0⟩, ⟨0, -1, 0⟩, ⟨0, 0, -1⟩⟩, ⟨0, 0, 2⟩⟩ (Obj.defaultOwn, Obj.defaultNext 1),
     ObjNode.new [Surface.new (finiteFlatGM (rectOutside 1 1)) (reflectiveReceiver (1 / 2) id fun a _ => a) 1] 1
      (Obj.defaultOwn, Obj.defaultNext 1)] [] 0 1 1

/-- C72 applies to it, and the tags do reach the last level of a trace. -/
example (φ : ℕ → ℕ) (w : Account ℚ) (b : Bundle ℚ ℕ) (reps : Nat) (minE : ℚ) (keepTree : Bool) :
    rayTracer taggedPlates.scene w (b.map (Ray.retag φ)) reps minE keepTree =
      (rayTracer taggedPlates.scene w b reps minE keepTree).map (TraceResult.relabel (Ray.retag φ) id) ∧
    ((rayTracer taggedPlates.scene Account.reset [⟨⟨0, 0, 1⟩, ⟨0, 0, -1⟩, 1, 0, none, 7⟩] 3 0 true).map
      fun r => r.tree.map (List.map Ray.extra)) = .ok [[7], [7], [7], [7]] := by
  refine ⟨?_, by decide +kernel⟩
  have hg : (finiteFlatGM (rectOutside 1 1) : Geometry ℚ ℕ).LightOnly := (C71_flat (rectOutside 1 1)).2
  refine C72_irrelevant φ ?_ ?_ ?_ w b reps minE keepTree
  · exact List.forall_mem_cons.2 ⟨List.forall_mem_cons.2 ⟨hg, by simp⟩, List.forall_mem_cons.2
      ⟨List.forall_mem_cons.2 ⟨hg, by simp⟩, by simp⟩⟩
  · exact List.forall_mem_cons.2 ⟨List.forall_mem_cons.2 ⟨(C72_reflective _ _).1, by simp⟩, List.forall_mem_cons.2
      ⟨List.forall_mem_cons.2 ⟨C72_receiver (get := id) (set := fun a _ => a) φ _ (C72_reflective _ _).1, by simp⟩, by simp⟩⟩
  · exact List.forall_mem_cons.2 ⟨(C71_policies _ 1).1, List.forall_mem_cons.2 ⟨(C71_policies _ 1).1, by simp⟩⟩

/-- The mirror's frame: two metres up, facing down. -/
def overhead : Tf ℚ := ⟨⟨⟨1, 0, 0⟩, ⟨0, -1, 0⟩, ⟨0, 0, -1⟩⟩, ⟨0, 0, 2⟩⟩

/-- C73 applies to a mirror and a receiver facing each other, and what is forgotten is not nothing. -/
example (watched : List (Obj (Account ℚ) ℚ Unit))
    (hw : watched = [⟨[mkSurf unitPlate (reflective (1 / 4)) overhead], Obj.defaultOwn, Obj.defaultNext 1⟩,
       ⟨[mkSurf unitPlate (reflectiveReceiver (1 / 2) id fun a _ => a) 1], Obj.defaultOwn, Obj.defaultNext 1⟩]) :
    List.Forall₂ (Obj.Unobserved fun _ : Account ℚ => ()) watched
      [⟨[mkSurf unitPlate (reflective (1 / 4)) overhead], Obj.defaultOwn, Obj.defaultNext 1⟩,
       ⟨[mkSurf unitPlate (reflective (1 / 2)) 1], Obj.defaultOwn, Obj.defaultNext 1⟩] ∧
    ((rayTracer watched Account.reset [⟨⟨0, 0, 1⟩, ⟨0, 0, -1⟩, 1, 0, none, ()⟩] 3 0 true).map
      fun r => r.world.absorbed) = .ok [[1 / 2], [3 / 16]] := by
  subst hw
  refine ⟨.cons ⟨.cons ?_ .nil, rfl, rfl⟩ (.cons ⟨.cons ?_ .nil, rfl, rfl⟩ .nil), by decide +kernel⟩
  · exact (C73_reflective (fun _ : Account ℚ => ()) unitPlate _ (1 / 4) id (fun a _ => a) fun _ _ => rfl).2.1
  · exact (C73_reflective (fun _ : Account ℚ => ()) unitPlate _ (1 / 2) id (fun a _ => a) fun _ _ => rfl).1

end Tracer
