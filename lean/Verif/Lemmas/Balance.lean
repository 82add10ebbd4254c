import Verif.Spec.Balance
import Verif.Lemmas.Generation
import Verif.Props.Energy

/-! Helper lemmas for the energy balance of traces and the memory of receivers. -/

set_option linter.unusedSectionVars false
set_option linter.unusedSimpArgs false

namespace Tracer

variable {K E σ : Type _} [Field K] [LinearOrder K] [IsStrictOrderedRing K]

/-! ### Energy -/

theorem totalEnergy_append (l l' : Bundle K E) : totalEnergy (l ++ l') = totalEnergy l + totalEnergy l' := by
  simp [totalEnergy]

theorem totalEnergy_perm {l l' : Bundle K E} (h : l.Perm l') : totalEnergy l = totalEnergy l' :=
  (h.map _).sum_eq

theorem totalEnergy_strip (l : Bundle K E) : totalEnergy (l.map Ray.strip) = totalEnergy l := by
  simp only [totalEnergy, List.map_map]
  rfl

/-- Energy of the rays of a bundle whose index satisfies `P`. -/
def energyWhere (P : Nat → Bool) (b : Bundle K E) : K :=
  ((List.range b.length).map fun j => if P j then ((b[j]?).map Ray.energy).getD 0 else 0).sum

theorem energyWhere_nil (P : Nat → Bool) : energyWhere P ([] : Bundle K E) = 0 := rfl

theorem energyWhere_cons (P : Nat → Bool) (r : Ray K E) (b : Bundle K E) :
    energyWhere P (r :: b) = (if P 0 then r.energy else 0) + energyWhere (fun j => P (j + 1)) b := by
  unfold energyWhere
  rw [List.length_cons, List.range_succ_eq_map, List.map_cons, List.sum_cons, List.map_map]
  rfl

theorem energyWhere_congr {P Q : Nat → Bool} {b : Bundle K E} (h : ∀ j < b.length, P j = Q j) :
    energyWhere P b = energyWhere Q b := by
  unfold energyWhere
  congr 1
  refine List.map_congr_left fun j hj => ?_
  rw [h j (List.mem_range.1 hj)]

theorem energyWhere_append (P : Nat → Bool) (b b' : Bundle K E) :
    energyWhere P (b ++ b') = energyWhere P b + energyWhere (fun j => P (j + b.length)) b' := by
  induction b generalizing P with
  | nil => simp [energyWhere_nil]
  | cons r b ih =>
    rw [List.cons_append, energyWhere_cons, energyWhere_cons, ih]
    simp only [List.length_cons]
    have : (fun j => P (j + b.length + 1)) = fun j => P (j + (b.length + 1)) := by
      funext j; rw [Nat.add_assoc]
    rw [this]; ring

theorem energyWhere_false {P : Nat → Bool} {b : Bundle K E} (h : ∀ j < b.length, P j = false) :
    energyWhere P b = 0 := by
  rw [energyWhere_congr (Q := fun _ => false) h]
  unfold energyWhere
  simp

theorem energyWhere_not (P : Nat → Bool) (b : Bundle K E) :
    energyWhere P b + energyWhere (fun j => ! P j) b = totalEnergy b := by
  induction b generalizing P with
  | nil => simp [energyWhere_nil, totalEnergy]
  | cons r b ih =>
    rw [energyWhere_cons, energyWhere_cons]
    have := ih fun j => P (j + 1)
    have h2 : totalEnergy (r :: b) = r.energy + totalEnergy b := by simp [totalEnergy]
    cases h : P 0 <;> simp [h] <;> linarith

theorem filter_zipIdx_energy (Q : Nat → Bool) (lvl : Bundle K E) (k : Nat) :
    totalEnergy (((lvl.zipIdx k).filter fun x => Q x.2).map Prod.fst) = energyWhere (fun j => Q (j + k)) lvl := by
  induction lvl generalizing k with
  | nil => simp [energyWhere_nil, totalEnergy]
  | cons r lvl ih =>
    rw [energyWhere_cons, List.zipIdx_cons, List.filter_cons]
    have h := ih (k + 1)
    have e : (fun j => Q (j + (k + 1))) = fun j => Q (j + 1 + k) := by
      funext j; congr 1; omega
    rw [e] at h
    simp only [Nat.zero_add]
    split
    · rename_i hq
      simp only [List.map_cons]
      rw [← h]
      simp [totalEnergy]
    · rw [← h]; simp

theorem childless_energy (lvl next : Bundle K E) :
    totalEnergy (childless lvl next) = energyWhere (fun j => ! next.any fun r => r.parent == j) lvl :=
  filter_zipIdx_energy (fun j => ! next.any fun r => r.parent == j) lvl 0

theorem mask_mask (m f : List Bool) {α : Type _} (l : List α) (h1 : m.length = l.length) (h2 : f.length = l.length) :
    Np.mask (Np.mask m f) (Np.mask m l) = Np.mask (List.zipWith (· && ·) m f) l := by
  induction l generalizing m f with
  | nil => simp
  | cons x l ih =>
    cases m with
    | nil => simp at h1
    | cons a m =>
      cases f with
      | nil => simp at h2
      | cons c f =>
        have := ih m f (by simpa using h1) (by simpa using h2)
        cases a <;> cases c <;> simp [this]

theorem mask_energy (m : List Bool) (b : Bundle K E) (h : m.length = b.length) :
    totalEnergy (Np.mask m b) = energyWhere (fun j => decide (m[j]? = some true)) b := by
  induction b generalizing m with
  | nil => simp [energyWhere_nil, totalEnergy]
  | cons r b ih =>
    cases m with
    | nil => simp at h
    | cons a m =>
      have := ih m (by simpa using h)
      rw [energyWhere_cons]
      cases a <;> simp [totalEnergy] at this ⊢ <;> rw [this]

/-- Energy received by the surfaces: for each surface, that of the rays marked for it. -/
def received (b : Bundle K E) (fronts owneds : List (List Bool)) : K :=
  ((fronts.zip owneds).map fun x => energyWhere (fun j => decide (x.1[j]? = some true) && decide (x.2[j]? = some true)) b).sum

theorem mask_any_false {m : List Bool} (h : ¬ m.any id = true) : Np.nonzero m = [] := by
  rw [List.eq_nil_iff_forall_not_mem]
  intro j hj
  rw [Np.mem_nonzero] at hj
  apply h
  rw [List.any_eq_true]
  exact ⟨true, List.mem_of_getElem? hj, rfl⟩

theorem selected_energy {b : Bundle K E} {f o : List Bool} (hol : o.length = b.length) (hfl : f.length = b.length) :
    totalEnergy ((Np.nonzero (Np.mask o f)).filterMap fun i => (Np.mask o b)[i]?) =
      energyWhere (fun j => decide (f[j]? = some true) && decide (o[j]? = some true)) b := by
  have hl : (Np.mask o f).length = (Np.mask o b).length := by
    rw [Np.mask_length (hol.trans hfl.symm), Np.mask_length hol]
  rw [← Np.mask_eq_filterMap _ _ hl, mask_mask o f b hol hfl, mask_energy _ _ (by simp [hol, hfl])]
  apply energyWhere_congr
  intro j hj
  have e1 : o[j]? = some o[j] := List.getElem?_eq_getElem (by omega)
  have e2 : f[j]? = some f[j] := List.getElem?_eq_getElem (by omega)
  rw [List.getElem?_zipWith, e1, e2]
  cases o[j] <;> cases f[j] <;> simp

theorem surfLoop_balance {objs : List (Obj σ K E)} {minE : K} {b : Bundle K E}
    {absorbed : σ → K}
    {surfs : List (Surf σ K E)} {fronts owneds : List (List Bool)} {w w' : σ} {k : Nat}
    {cs : List (Contribution K E)}
    (h : surfLoop objs minE b w k surfs fronts owneds = .ok (cs, w'))
    (hol : ∀ o ∈ owneds, o.length = b.length) (hfl : ∀ f ∈ fronts, f.length = b.length)
    (hlen : fronts.length = surfs.length)
    (hbal : ∀ s ∈ surfs, s.Balanced absorbed) :
    absorbed w' + totalEnergy (cs.flatMap Contribution.record) = absorbed w + received b fronts owneds := by
  induction surfs generalizing fronts owneds w k cs with
  | nil =>
    have : fronts = [] := by simpa using hlen
    subst this
    unfold surfLoop at h
    simp only [Except.ok.injEq, Prod.mk.injEq] at h
    rw [← h.1, ← h.2]
    simp [received, totalEnergy]
  | cons s surfs ih =>
    cases fronts with
    | nil => simp at hlen
    | cons f fronts =>
      cases owneds with
      | nil =>
        unfold surfLoop at h
        simp only [Except.ok.injEq, Prod.mk.injEq] at h
        rw [← h.1, ← h.2]
        simp [received, totalEnergy]
      | cons o owneds =>
        unfold surfLoop at h
        have hf := hfl f (by simp)
        have ho := hol o (by simp)
        have ih' := fun {w k cs} (h : surfLoop objs minE b w k surfs fronts owneds = .ok (cs, w')) =>
          ih h (fun o ho => hol o (List.mem_cons_of_mem _ ho)) (fun f hf => hfl f (List.mem_cons_of_mem _ hf))
            (by simpa using hlen) (fun s hs => hbal s (List.mem_cons_of_mem _ hs))
        have hrec : received b (f :: fronts) (o :: owneds) =
            energyWhere (fun j => decide (f[j]? = some true) && decide (o[j]? = some true)) b +
              received b fronts owneds := by
          simp [received]
        rw [hrec]
        split at h
        · split at h
          · simp at h
          · rename_i c w1 hc
            split at h
            · simp at h
            · rename_i cs' w2 hcs
              simp only [Except.ok.injEq, Prod.mk.injEq] at h
              obtain ⟨rfl, rfl⟩ := h
              have i1 := ih' hcs
              obtain ⟨raw, hraw, hfix⟩ := (contribute_ok ho hc).raw
              have hb := hbal s (by simp) _ _ _ _ _ hraw
              rw [selected_energy ho hf] at hb
              have he : totalEnergy c.record = totalEnergy raw := by
                rw [← totalEnergy_strip c.record, strip_fixParents hfix, totalEnergy_strip]
              rw [List.flatMap_cons, totalEnergy_append, he]
              linarith
        · rename_i hno
          have hz : energyWhere (fun j => decide (f[j]? = some true) && decide (o[j]? = some true)) b = 0 := by
            rw [← selected_energy ho hf, mask_any_false hno]
            simp [totalEnergy]
          rw [ih' h, hz]; ring

theorem energyWhere_sum_count {ι : Type _} (l : List ι) (P : ι → Nat → Bool) (Q : Nat → Bool) (b : Bundle K E)
    (h1 : ∀ j < b.length, l.countP (fun x => P x j) = if Q j then 1 else 0) :
    (l.map fun x => energyWhere (P x) b).sum = energyWhere Q b := by
  induction b generalizing P Q with
  | nil => simp [energyWhere_nil]
  | cons r b ih =>
    simp only [energyWhere_cons]
    rw [List.sum_map_add, ih (fun x j => P x (j + 1)) (fun j => Q (j + 1)) (fun j hj => h1 (j + 1) (by simpa using hj))]
    congr 1
    have h0 := h1 0 (by simp)
    have : ∀ l : List ι, (l.map fun x => if P x 0 then r.energy else 0).sum =
        (l.countP (fun x => P x 0) : Nat) * r.energy := by
      intro l
      induction l with
      | nil => simp
      | cons x l ihl =>
        rw [List.map_cons, List.sum_cons, ihl, List.countP_cons]
        cases P x 0 <;> simp
        ring
    rw [this, h0]
    cases Q 0 <;> simp

/-- One iteration, when no two surfaces tie: what is written down and what goes on sums to the energy of
the rays that have children. -/
theorem iterate_balance {objs : List (Obj σ K E)} {minE : K} {absorbed : σ → K}
    {st st' : TraceState σ K E} {gen rec : Bundle K E} (hs : st.Shape objs)
    {per : Surf σ K E → Ray K E → WithTop K}
    (hper : AllSurfs (fun s => s.PerRay (per s)) objs)
    (hpar : AllSurfs Surf.ParentsOk objs) (htot : AllSurfs Surf.Total objs)
    (hbal : AllSurfs (Surf.Balanced absorbed) objs)
    (hnt : ∀ p ∈ st.bund, NoTie per (objs.flatMap Obj.surfs) p)
    (h : iterate objs (objs.flatMap Obj.surfs) minE st = .ok (st', gen, rec)) :
    absorbed st'.world + totalEnergy gen =
      absorbed st.world + energyWhere (fun j => gen.any fun r => r.parent == j) st.bund := by
  have hlen : AllSurfs Surf.LengthOk objs := fun o ho s hs rays => by
    rw [hper o ho s hs]; simp
  have hlen' : ∀ s ∈ objs.flatMap Obj.surfs, s.LengthOk := fun s hs => mem_allSurfs hlen hs
  have hit := h
  obtain ⟨⟨front, owned, cs, hint, hcs, hgen, _, _, _, hf⟩, _, _⟩ := iterate_ok hs h
  obtain ⟨hO, hF⟩ := intersectRay_ok hint
  have hol : ∀ o ∈ owned, o.length = st.bund.length := by
    intro o ho
    obtain ⟨k, hk⟩ := List.getElem?_of_mem ho
    rw [hO] at hk
    exact owned_row_length hs hk
  have hfl : ∀ f ∈ front, f.length = st.bund.length := by
    intro f hf
    exact frontMask_row_length (dropSelfHits_row_length (fun row hr => rawStack_row_length hr)) f
      (hF ▸ hf)
  have hfrontlen : front.length = (objs.flatMap Obj.surfs).length := by
    rw [hF]
    simp [frontMask, dropSelfHits_length, rawStack, hs.surf_len, hs.relev_len]
  have hownlen : owned.length = front.length := by
    rw [hfrontlen, hO]
    simp [hs.surf_len, hs.relev_len]
  have hb := surfLoop_balance hcs hol hfl hfrontlen (fun s hs => mem_allSurfs hbal hs)
  rw [← hgen] at hb
  rw [hb]
  congr 1
  unfold received
  refine energyWhere_sum_count _ (fun (x : List Bool × List Bool) j => decide (x.1[j]? = some true) && decide (x.2[j]? = some true)) _ _ ?_
  intro j hj
  set cnt := (front.zip owned).countP fun x => decide (x.1[j]? = some true) && decide (x.2[j]? = some true) with hcnt
  have hle : cnt ≤ 1 := by
    apply countP_le_one
    intro i i' x x' hi hi' hx hx'
    simp only [Bool.and_eq_true, decide_eq_true_eq] at hx hx'
    rw [List.getElem?_zip_eq_some] at hi hi'
    refine C09_one_surface_partial hs hlen' hint j ?_ ⟨x.1, hi.1, hx.1⟩ ⟨x'.1, hi'.1, hx'.1⟩
    intro k k' t ha ha' _
    obtain ⟨s, r, e1, e2, e3⟩ := answer_perRay_imp (fun s hs => mem_allSurfs hper hs) ha
    obtain ⟨s', r', e1', e2', e3'⟩ := answer_perRay_imp (fun s hs => mem_allSurfs hper hs) ha'
    rw [e2] at e2'
    cases e2'
    exact hnt _ (List.mem_of_getElem? e2) k k' s s' t e1 e1' e3 e3'
  have hpos : 0 < cnt ↔ gen.any (fun r => r.parent == j) = true := by
    rw [hcnt, List.countP_pos_iff, List.any_eq_true]
    constructor
    · rintro ⟨x, hx, hxx⟩
      simp only [Bool.and_eq_true, decide_eq_true_eq] at hxx
      obtain ⟨k, hk⟩ := List.getElem?_of_mem hx
      rw [List.getElem?_zip_eq_some] at hk
      have hm : Marked front k j := ⟨x.1, hk.1, hxx.1⟩
      rw [hF, front_iff hs hlen' k j] at hm
      obtain ⟨t, ha, hthr, _⟩ := hm
      obtain ⟨r, hr, hrj⟩ := hit_has_child hs hlen htot hit ha hthr
      exact ⟨r, hr, by simpa using hrj⟩
    · rintro ⟨r, hr, hrj⟩
      have hrj : r.parent = j := by simpa using hrj
      obtain ⟨k, s, p, hc⟩ := generated_child hs hlen hpar hit hr
      obtain ⟨_, _, _, _, _, _, t, _, _, _, _, _, _, _, _, hthr, ha, hmin⟩ := hc.raw
      have hm := (front_iff hs hlen' k r.parent).2 ⟨t, ha, hthr, hmin⟩
      rw [← hF] at hm
      have htest := (answer_lt hs ha).2.2
      rw [← owned_getElem, ← hO] at htest
      obtain ⟨f, hf1, hf2⟩ := hm
      obtain ⟨o, ho1, ho2⟩ := htest
      refine ⟨(f, o), List.mem_of_getElem? (i := k) (List.getElem?_zip_eq_some.2 ⟨hf1, ho1⟩), ?_⟩
      rw [hrj] at hf2 ho2
      simp [hf2, ho2]
  by_cases hg : gen.any (fun r => r.parent == j) = true
  · have := hpos.2 hg
    rw [if_pos hg]; omega
  · have : ¬ 0 < cnt := fun hc => hg (hpos.1 hc)
    rw [if_neg hg]; omega

theorem Run.balance {objs : List (Obj σ K E)} (hobj : ∀ o ∈ objs, o.ShapeOk) {minE : K}
    {absorbed : σ → K}
    {per : Surf σ K E → Ray K E → WithTop K}
    (hper : AllSurfs (fun s => s.PerRay (per s)) objs)
    (hpar : AllSurfs Surf.ParentsOk objs) (htot : AllSurfs Surf.Total objs)
    (hbal : AllSurfs (Surf.Balanced absorbed) objs)
    {st st' : TraceState σ K E} {steps} (hrun : Run objs minE st steps st') (hs : st.Shape objs)
    {L weak : Bundle K E} (hL : L = st.bund ++ weak)
    (hgood : ∀ lvl ∈ L :: steps.map (fun s => s.2.1), ∀ p ∈ lvl, NoTie per (objs.flatMap Obj.surfs) p) :
    absorbed st'.world + totalEnergy (treeLeaves (L :: steps.map fun s => s.2.1)) =
      absorbed st.world + totalEnergy L := by
  induction hrun generalizing L weak with
  | nil => simp [treeLeaves]
  | @cons st st1 st2 gen rec steps hi _ ih =>
    have hsub : ∀ p ∈ st.bund, p ∈ L := fun p hp => by rw [hL]; exact List.mem_append_left _ hp
    have hb := iterate_balance hs hper hpar htot hbal (fun r hr => hgood L (by simp) r (hsub r hr)) hi
    have hperm := recorded_perm hs hi
    have ih' := ih (iterate_shape hobj hs hi) (iterate_ok hs hi).recorded (by
      intro lvl hl
      exact hgood lvl (by simp only [List.map_cons]; exact List.mem_cons_of_mem _ hl))
    simp only [List.map_cons, treeLeaves]
    rw [totalEnergy_append, childless_energy]
    have h1 := energyWhere_not (fun j => rec.any fun r => r.parent == j) L
    have hany : ∀ j, (rec.any fun r => r.parent == j) = gen.any fun r => r.parent == j := by
      intro j
      rw [Bool.eq_iff_iff, List.any_eq_true, List.any_eq_true]
      exact ⟨fun ⟨r, hr, h⟩ => ⟨r, hperm.subset hr, h⟩, fun ⟨r, hr, h⟩ => ⟨r, hperm.symm.subset hr, h⟩⟩
    have h2 : energyWhere (fun j => rec.any fun r => r.parent == j) L =
        energyWhere (fun j => gen.any fun r => r.parent == j) st.bund := by
      simp only [hany]
      rw [hL, energyWhere_append, energyWhere_false (b := weak), add_zero]
      intro j _
      rw [List.any_eq_false]
      intro r hr hrj
      have hlen : AllSurfs Surf.LengthOk objs := fun o ho s hs rays => by
        rw [hper o ho s hs]; simp
      obtain ⟨_, _, q, hc⟩ := generated_child hs hlen hpar hi hr
      have := (List.getElem?_eq_some_iff.1 hc.parent).1
      rw [show r.parent = j + st.bund.length by simpa using hrj] at this
      omega
    have h3 := totalEnergy_perm hperm
    linarith

theorem treeLeaves_append_nil (l : List (Bundle K E)) : treeLeaves (l ++ [[]]) = treeLeaves l := by
  induction l with
  | nil => rfl
  | cons x l ih =>
    cases l with
    | nil =>
      simp only [List.cons_append, List.nil_append, treeLeaves, List.append_nil, childless, List.any_nil,
        Bool.not_false]
      rw [List.filter_eq_self.2 (by simp)]
      exact List.zipIdx_map_fst 0 x
    | cons y l =>
      simp only [List.cons_append, treeLeaves] at ih ⊢
      rw [ih]

end Tracer
