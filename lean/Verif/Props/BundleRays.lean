import Verif.Props.Bundle
import Verif.Model.Optics

/-!
# The two views of ray bundles agree (C01–C04)

The engine model treats a bundle as the list of its rays.  Here the dictionary operations are shown
to implement the list operations: `Shows props h b rays` says that the bundle object `b` has exactly
the properties `props` set, and that their columns are those of the list `rays`.
-/

set_option linter.unusedSectionVars false

namespace Tracer.Dict

variable {V R : Type _} {h h' : Heap V} {a b c : Obj}

/-- A property of a ray: its name, the leading shape of its array and its value for one ray. -/
structure Prop' (R V : Type _) where
  name : Name
  lead : Nat
  val : R → V

/-- The property of that name. -/
def propOf (props : List (Prop' R V)) (p : Name) : Option (Prop' R V) := props.find? fun x => x.name = p

/-- The bundle object `b` shows the rays `rays`. -/
def Shows (props : List (Prop' R V)) (h : Heap V) (b : Obj) (rays : List R) : Prop :=
  ∀ p, column h b p = (propOf props p).map fun x => (⟨x.lead, rays.map x.val⟩ : Arr V)

variable {props : List (Prop' R V)}

/-- C01 for rays: the sum shows the rays of both bundles. -/
theorem C01_rays {ra rb : List R} (ha : Wf h a) (hb : Wf h b) (hn : NoClash a) (sa : Shows props h a ra)
    (sb : Shows props h b rb) :
    ∃ (h' : Heap V) (c : Obj), add h a b = .ok (h', c) ∧ Wf h' c ∧ h <+: h' ∧ Shows props h' c (ra ++ rb) := by
  obtain ⟨h', c, e⟩ := C01_add_defined ha hb hn (by
    intro p x y hx hy
    rw [sa p] at hx
    rw [sb p] at hy
    cases hq : propOf props p with
    | none => rw [hq] at hx; simp at hx
    | some q =>
      rw [hq] at hx hy
      simp only [Option.map_some, Option.some.injEq] at hx hy
      rw [← hx, ← hy])
  obtain ⟨hc, hg, _, hw⟩ := C01_add_partial ha hb e
  refine ⟨h', c, e, hw, hg, ?_⟩
  intro p
  rw [hc p, sa p, sb p]
  cases propOf props p with
  | none => rfl
  | some q => simp

/-- C02 for rays. -/
theorem C02_rays {bs : List (Obj × List R)} (hne : bs ≠ []) (hw : ∀ x ∈ bs, Wf h x.1)
    (hn : ∀ x ∈ bs, NoClash x.1) (hs : ∀ x ∈ bs, Shows props h x.1 x.2) :
    ∃ (h' : Heap V) (c : Obj), concatenate h (bs.map Prod.fst) = .ok (h', c) ∧ Wf h' c ∧ h <+: h' ∧
      Shows props h' c (bs.map Prod.snd).flatten := by
  cases bs with
  | nil => exact absurd rfl hne
  | cons x bs =>
    have hw' : ∀ y ∈ x.1 :: bs.map Prod.fst, Wf h y := by
      intro y hy
      rw [← List.map_cons] at hy
      obtain ⟨z, hz, rfl⟩ := List.mem_map.1 hy
      exact hw z hz
    obtain ⟨h', c, e⟩ := C02_concatenate_defined hw' (hn x (by simp)) (by
        intro p hp d hd
        obtain ⟨z, hz, rfl⟩ := List.mem_map.1 hd
        rw [hs x (by simp) p] at hp
        rw [hs z (by simp [hz]) p]
        simpa using hp) (by
        intro p q hq d hd y hy
        obtain ⟨z, hz, rfl⟩ := List.mem_map.1 hd
        rw [hs x (by simp) p] at hq
        rw [hs z (by simp [hz]) p] at hy
        cases hpr : propOf props p with
        | none => rw [hpr] at hq; simp at hq
        | some pr =>
          rw [hpr] at hq hy
          simp only [Option.map_some, Option.some.injEq] at hq hy
          rw [← hq, ← hy])
    obtain ⟨hc, hg, _, hwc⟩ := C02_concatenate_partial hw' e
    refine ⟨h', c, e, hwc, hg, ?_⟩
    intro p
    have := hc p
    rw [hs x (by simp) p] at this
    cases hpr : propOf props p with
    | none =>
      rw [hpr] at this
      simpa using this
    | some pr =>
      rw [hpr] at this
      simp only [Option.map_some] at this
      obtain ⟨as, has, hcol⟩ := this
      rw [hcol]
      have has' : ((x :: bs).map fun z => (⟨pr.lead, z.2.map pr.val⟩ : Arr V)) = as := by
        apply List.map_injective_iff.2 (Option.some_injective (Arr V))
        rw [← has, ← List.map_cons (f := Prod.fst), List.map_map, List.map_map]
        apply List.map_congr_left
        intro z hz
        simp only [Function.comp]
        rw [hs z hz p, hpr]
        rfl
      rw [← has', List.map_map]
      simp [Function.comp_def, List.map_flatten]

/-- C03 for rays: `inherit` on a list of indices shows the rays `news`, if the given arrays are theirs
and in all other properties they are the selected rays. -/
theorem C03_rays {rays news : List R} {sel : List Nat} {given : List (Name × Nat)} (hb : Wf h b)
    (hs : Shows props h b rays) (hsel : ∀ i ∈ sel, i < rays.length)
    (hgiven : ∀ p r, lookup given p = some r → h[r]? = (propOf props p).map fun x => (⟨x.lead, news.map x.val⟩ : Arr V))
    (hg : ∀ g ∈ given, g.2 < h.length)
    (hrest : ∀ x ∈ props, lookup given x.name = none → news.map x.val = (at' sel rays).map x.val) :
    ∃ (h' : Heap V) (c : Obj), inherit h b (.idx sel) given = .ok (h', c) ∧ Wf h' c ∧ h <+: h' ∧
      Shows props h' c news := by
  obtain ⟨h', c, e⟩ := C03_defined (s := .idx sel) (given := given) hb (by
    intro l hl p x hx _ i hi
    simp only [Sel.idx.injEq] at hl
    subst hl
    rw [hs p] at hx
    obtain ⟨q, _, rfl⟩ := Option.map_eq_some_iff.1 hx
    simpa using hsel i hi)
  obtain ⟨hc, hgr, hw⟩ := C03_inherit hb hg e
  refine ⟨h', c, e, hw, hgr, ?_⟩
  intro p
  rw [hc p]
  cases hl : lookup given p with
  | some r => exact hgiven p r hl
  | none =>
    simp only
    rw [hs p]
    cases hq : propOf props p with
    | none => rfl
    | some q =>
      simp only [Option.map_some, Sel.pick, Option.some.injEq, Arr.mk.injEq, true_and]
      have hmem := List.mem_of_find?_eq_some hq
      have hname : q.name = p := by simpa using List.find?_some hq
      rw [hrest q hmem (hname ▸ hl)]
      unfold at'
      rw [List.map_filterMap]
      apply List.filterMap_congr
      intro i _
      simp

theorem without_map {α β : Type _} (f : α → β) (sel : List Nat) (l : List α) :
    without sel (l.map f) = (without sel l).map f := by
  unfold without
  rw [List.zipIdx_map, List.filter_map, List.map_map, List.map_map]
  rfl

theorem without_eq_delete {α : Type _} (sel : List Nat) (l : List α) : without sel l = Np.delete l sel := by
  have key : ∀ (l : List α) (k : Nat), ((l.zipIdx k).filter fun x => x.2 ∉ sel).map Prod.fst =
      Np.deleteFrom sel k l := by
    intro l
    induction l with
    | nil => intro k; rfl
    | cons x l ih =>
      intro k
      rw [List.zipIdx_cons]
      unfold Np.deleteFrom
      split
      · rename_i hk
        rw [List.filter_cons_of_neg (by simpa using hk), ih]
      · rename_i hk
        rw [List.filter_cons_of_pos (by simpa using hk), List.map_cons, ih]
  exact key l 0

/-- C04 for rays. -/
theorem C04_rays {rays : List R} {sel : List Nat} (hb : Wf h b) (hs : Shows props h b rays)
    (hv : (propOf props vertices).isSome) (hsel : ∀ i ∈ sel, i < rays.length) :
    ∃ (h' : Heap V) (c : Obj), deleteRays h b sel = .ok (h', c) ∧ Wf h' c ∧ h <+: h' ∧
      Shows props h' c (Np.delete rays sel) := by
  obtain ⟨h', c, e, hw, hg, hc⟩ := C04_delete_rays (n := rays.length) hb (by
    intro p x hx
    rw [hs p] at hx
    obtain ⟨q, _, rfl⟩ := Option.map_eq_some_iff.1 hx
    simp) (by rw [hs]; simpa using hv) hsel
  refine ⟨h', c, e, hw, hg, ?_⟩
  intro p
  rw [hc p, hs p]
  cases propOf props p with
  | none => rfl
  | some q =>
    simp only [Option.map_some, Option.some.injEq, Arr.mk.injEq, true_and]
    rw [without_map, without_eq_delete]

/-! ### The optics' use of `inherit` -/

/-- Values of ray properties. -/
inductive Val (K E : Type _) where
  | vec (v : V3 K)
  | num (k : K)
  | idx (i : Nat)
  | opt (k : Option K)
  | ext (e : E)
  deriving DecidableEq

/-- The properties of the rays of the engine model: `extra` is one user-defined property. -/
def rayProps (K E : Type _) (extra : Name) : List (Prop' (Ray K E) (Val K E)) :=
  [⟨vertices, 3, fun r => .vec r.vertex⟩, ⟨directions, 3, fun r => .vec r.dir⟩,
   ⟨energy, 0, fun r => .num r.energy⟩, ⟨parents, 0, fun r => .idx r.parent⟩,
   ⟨refIndex, 0, fun r => .opt r.ref⟩, ⟨extra, 0, fun r => .ext r.extra⟩]

/-- `Reflective.__call__`'s `inherit` (optics_callables.py:24-29) with new vertices, directions,
energies and parents shows the rays that the model of the callable returns. -/
theorem C03_reflective {K E : Type _} [Field K] [LinearOrder K] {extra : Name}
    {h : Heap (Val K E)} {b : Obj} {rays : List (Ray K E)} (hb : Wf h b)
    (hs : Shows (rayProps K E extra) h b rays) (absorptivity : K) (hits : List (HitRec K E))
    (hhits : ∀ q ∈ hits, rays[q.idx]? = some q.ray) {rv rd re rp : Nat}
    (hrv : h[rv]? = some ⟨3, hits.map fun q => .vec q.point⟩)
    (hrd : h[rd]? = some ⟨3, hits.map fun q => .vec (reflection q.ray.dir q.normal)⟩)
    (hre : h[re]? = some ⟨0, hits.map fun q => .num (q.ray.energy * (1 - absorptivity))⟩)
    (hrp : h[rp]? = some ⟨0, hits.map fun q => .idx q.idx⟩) :
    ∃ (h' : Heap (Val K E)) (c : Obj),
      inherit h b (.idx (hits.map HitRec.idx))
        [(vertices, rv), (directions, rd), (energy, re), (parents, rp)] = .ok (h', c) ∧ Wf h' c ∧
      Shows (rayProps K E extra) h' c (hits.map (reflectOne absorptivity)) := by
  have hlt : ∀ {r : Nat} {x : Arr (Val K E)}, h[r]? = some x → r < h.length :=
    fun hx => (List.getElem?_eq_some_iff.1 hx).1
  obtain ⟨h', c, e, hw, _, hsh⟩ := C03_rays (props := rayProps K E extra) (rays := rays)
    (news := hits.map (reflectOne absorptivity)) (sel := hits.map HitRec.idx)
    (given := [(vertices, rv), (directions, rd), (energy, re), (parents, rp)]) hb hs
    (by
      intro i hi
      obtain ⟨q, hq, rfl⟩ := List.mem_map.1 hi
      exact (List.getElem?_eq_some_iff.1 (hhits q hq)).1)
    (by
      intro p r hr
      unfold lookup at hr
      simp only [List.find?_cons, List.find?_nil] at hr
      by_cases h1 : vertices = p
      · subst h1
        simp at hr; subst hr
        rw [hrv]; simp [propOf, rayProps, reflectOne, Function.comp_def]
      by_cases h2 : directions = p
      · subst h2
        simp [h1] at hr; subst hr
        rw [hrd]; simp [propOf, rayProps, reflectOne, Function.comp_def, vertices, directions]
      by_cases h3 : energy = p
      · subst h3
        simp [h1, h2] at hr; subst hr
        rw [hre]; simp [propOf, rayProps, reflectOne, Function.comp_def, vertices, directions, energy]
      by_cases h4 : parents = p
      · subst h4
        simp [h1, h2, h3] at hr; subst hr
        rw [hrp]; simp [propOf, rayProps, reflectOne, Function.comp_def, vertices, directions, energy, parents]
      simp [h1, h2, h3, h4] at hr)
    (by
      intro g hg
      simp only [List.mem_cons, List.not_mem_nil, or_false] at hg
      rcases hg with rfl | rfl | rfl | rfl
      exacts [hlt hrv, hlt hrd, hlt hre, hlt hrp])
    (by
      intro x hx hnone
      have hat : at' (hits.map HitRec.idx) rays = hits.map HitRec.ray := by
        unfold at'
        rw [List.filterMap_map]
        rw [← List.filterMap_eq_map]
        apply List.filterMap_congr
        intro q hq
        simp [hhits q hq]
      rw [hat, List.map_map, List.map_map]
      simp only [rayProps, List.mem_cons, List.not_mem_nil, or_false] at hx
      rcases hx with rfl | rfl | rfl | rfl | rfl | rfl
      · simp [lookup, vertices] at hnone
      · simp [lookup, vertices, directions] at hnone
      · simp [lookup, vertices, directions, energy] at hnone
      · simp [lookup, vertices, directions, energy, parents] at hnone
      · rfl
      · rfl)
  exact ⟨h', c, e, hw, hsh⟩

/-- A bundle made by the constructor shows rays as soon as its own properties do. -/
theorem shows_construct {items : List (Name × Option Nat)} {rays : List R} (hw : Wf h (construct items))
    (hi : ∀ nv ∈ items, column h (construct items) nv.1 =
      (propOf props nv.1).map fun x => (⟨x.lead, rays.map x.val⟩ : Arr V))
    (hp : ∀ x ∈ props, x.name ∈ items.map Prod.fst) : Shows props h (construct items) rays := by
  intro p
  by_cases hm : ∃ nv ∈ items, nv.1 = p
  · obtain ⟨nv, hnv, rfl⟩ := hm
    exact hi nv hnv
  · have hr : propOf props p = none := by
      unfold propOf
      rw [List.find?_eq_none]
      intro x hx hxp
      obtain ⟨nv, hnv, e⟩ := List.mem_map.1 (hp x hx)
      exact hm ⟨nv, hnv, by rw [e]; simpa using hxp⟩
    rw [hr, Option.map_none]
    cases hc : column h (construct items) p with
    | none => rfl
    | some x =>
      obtain ⟨r, _, hr, _⟩ := get_of_column hw hc
      have := (hw.value _ _ hr).1
      rw [construct_check] at this
      obtain ⟨nv, hnv, e⟩ := List.mem_map.1 this
      exact absurd ⟨nv, hnv, attrOf_inj e⟩ hm

/-- Three properties of rays that are triples. -/
def exProps : List (Prop' (Nat × Nat × Nat) Nat) :=
  [⟨vertices, 3, fun r => r.1⟩, ⟨directions, 3, fun r => r.2.1⟩, ⟨flag, 0, fun r => r.2.2⟩]

/-- The bundle `exA` shows two rays with three properties. -/
theorem exA_shows : Shows exProps exHeap exA [(1, 3, 5), (2, 4, 6)] :=
  shows_construct exA_wf (by decide +kernel) (by decide +kernel)

theorem exA_noClash : NoClash exA := by unfold NoClash; decide

/-- The sum of a bundle with itself. -/
example : ∃ (h' : Heap Nat) (c : Obj), add exHeap exA exA = .ok (h', c) ∧
    Shows exProps h' c [(1, 3, 5), (2, 4, 6), (1, 3, 5), (2, 4, 6)] := by
  obtain ⟨h', c, e, _, _, hs⟩ := C01_rays exA_wf exA_wf exA_noClash exA_shows exA_shows
  exact ⟨h', c, e, hs⟩

/-- The concatenation of three copies. -/
example : ∃ (h' : Heap Nat) (c : Obj), concatenate exHeap [exA, exA, exA] = .ok (h', c) ∧
    Shows exProps h' c [(1, 3, 5), (2, 4, 6), (1, 3, 5), (2, 4, 6), (1, 3, 5), (2, 4, 6)] := by
  obtain ⟨h', c, e, _, _, hs⟩ := C02_rays (bs := List.replicate 3 (exA, [(1, 3, 5), (2, 4, 6)])) (by simp)
    (fun x hx => by rw [List.eq_of_mem_replicate hx]; exact exA_wf)
    (fun x hx => by rw [List.eq_of_mem_replicate hx]; exact exA_noClash)
    (fun x hx => by rw [List.eq_of_mem_replicate hx]; exact exA_shows)
  exact ⟨h', c, e, hs⟩

/-- Rays 1, 0 and 1 with new flags. -/
example : ∃ (h' : Heap Nat) (c : Obj),
    inherit (exHeap ++ [⟨0, [11, 12, 13]⟩]) exA (.idx [1, 0, 1]) [(flag, 7)] = .ok (h', c) ∧
    Shows exProps h' c [(2, 4, 11), (1, 3, 12), (2, 4, 13)] := by
  have hw : Wf (exHeap ++ [⟨0, [11, 12, 13]⟩]) exA := exA_wf.mono (List.prefix_append _ _)
  obtain ⟨h', c, e, _, _, hs⟩ := C03_rays (props := exProps) (rays := [(1, 3, 5), (2, 4, 6)])
    (news := [(2, 4, 11), (1, 3, 12), (2, 4, 13)]) (sel := [1, 0, 1]) (given := [(flag, 7)]) hw
    (shows_construct hw (by decide +kernel) (by decide +kernel)) (by decide)
    (by
      intro p r hr
      have hp : flag = p := by
        by_contra hne
        simp [lookup, hne] at hr
      subst hp
      cases hr
      rfl)
    (by decide) (by decide)
  exact ⟨h', c, e, hs⟩

/-- Deleting the first ray, named twice. -/
example : ∃ (h' : Heap Nat) (c : Obj), deleteRays exHeap exA [0, 0] = .ok (h', c) ∧
    Shows exProps h' c [(2, 4, 6)] := by
  obtain ⟨h', c, e, _, _, hs⟩ := C04_rays (sel := [0, 0]) exA_wf exA_shows (by rfl) (by simp)
  exact ⟨h', c, e, hs⟩

/-- Two rays over the rationals, the second of which meets a mirror. -/
def exRays : List (Ray ℚ Nat) := [⟨⟨0, 0, 1⟩, ⟨1, 0, 0⟩, 3, 0, none, 5⟩, ⟨⟨1, 0, 1⟩, ⟨0, 0, -1⟩, 2, 0, some 1, 6⟩]

/-- The hit of the second ray. -/
def exHit : HitRec ℚ Nat := ⟨1, ⟨⟨1, 0, 1⟩, ⟨0, 0, -1⟩, 2, 0, some 1, 6⟩, ⟨1, 0, 0⟩, ⟨0, 0, 1⟩⟩

def exRayHeap : Heap (Val ℚ Nat) :=
  [⟨3, exRays.map fun r => .vec r.vertex⟩, ⟨3, exRays.map fun r => .vec r.dir⟩,
   ⟨0, exRays.map fun r => .num r.energy⟩, ⟨0, exRays.map fun r => .idx r.parent⟩,
   ⟨0, exRays.map fun r => .opt r.ref⟩, ⟨0, exRays.map fun r => .ext r.extra⟩,
   ⟨3, [.vec ⟨1, 0, 0⟩]⟩, ⟨3, [.vec ⟨0, 0, 1⟩]⟩, ⟨0, [.num (3/2)]⟩, ⟨0, [.idx 1]⟩]

def exRayBundle : Obj := construct [(vertices, some 0), (directions, some 1), (energy, some 2), (parents, some 3),
  (refIndex, some 4), (flag, some 5)]

/-- A mirror that absorbs a quarter. -/
example : ∃ (h' : Heap (Val ℚ Nat)) (c : Obj),
    inherit exRayHeap exRayBundle (.idx [1]) [(vertices, 6), (directions, 7), (energy, 8), (parents, 9)] = .ok (h', c) ∧
    Shows (rayProps ℚ Nat flag) h' c [⟨⟨1, 0, 0⟩, ⟨0, 0, 1⟩, 3/2, 1, some 1, 6⟩] := by
  have hw : Wf exRayHeap exRayBundle := construct_wf (by decide) (by decide) (by decide)
  obtain ⟨h', c, e, _, hs⟩ := C03_reflective (extra := flag) (rays := exRays) hw
    (shows_construct hw (by decide +kernel) (by decide +kernel)) (1/4) [exHit] (by decide +kernel)
    (rv := 6) (rd := 7) (re := 8) (rp := 9) (by decide +kernel) (by decide +kernel) (by decide +kernel)
    (by decide +kernel)
  have hr : [exHit].map (reflectOne (1/4)) = [⟨⟨1, 0, 0⟩, ⟨0, 0, 1⟩, 3/2, 1, some 1, 6⟩] := by decide +kernel
  exact ⟨h', c, e, hr ▸ hs⟩

end Tracer.Dict
