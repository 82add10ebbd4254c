import Verif.Props.FrameArrays

/-!
# Components that share arrays (C24, C25)

What a call on one component does to any other component, whatever arrays the two share.
-/

set_option linter.unusedSectionVars false

namespace Tracer

variable {K : Type _} [Field K]

/-- C25: what any other component `g` shows after `f.set_location(v)`. -/
theorem C25_location_exact {h : FHeap K} (f g : Frame) {r : LocRef} {v : V3 K} (hv : h.loc r = some v) :
    g.shows (f.setLocation h (some r)).2.1 =
      (if g.tf = f.tf then h.tfs[g.tf]?.map fun t => { t with loc := v } else h.tfs[g.tf]?,
       if g.loc = .view f.tf then h.tfs[f.tf]?.map fun _ => v else h.loc g.loc,
       h.rot g.rot,
       if g.temp = f.tf then h.tfs[g.temp]?.map fun t => { t with loc := v } else h.tfs[g.temp]?) := by
  unfold Frame.setLocation Frame.shows
  simp only [hv]
  rw [write_get, write_get, write_rot_same h f.tf (fun t => { t with loc := v }) g.rot fun _ _ _ => rfl]
  refine congrArg₂ Prod.mk ?_ (congrArg₂ Prod.mk ?_ (congrArg₂ Prod.mk rfl ?_))
  · by_cases e : g.tf = f.tf
    · rw [if_pos e, if_pos e.symm]
    · rw [if_neg e, if_neg (Ne.symm e)]
  · by_cases e : g.loc = .view f.tf
    · rw [if_pos e, e]
      change (h.write f.tf _).tfs[f.tf]?.map Tf.loc = _
      rw [write_get, if_pos rfl, Option.map_map]
      rfl
    · rw [if_neg e, write_loc_same _ _ _ _ fun e' => absurd e' e]
  · by_cases e : g.temp = f.tf
    · rw [if_pos e, if_pos e.symm]
    · rw [if_neg e, if_neg (Ne.symm e)]

/-- C25: what any other component `g` shows after `f.set_rotation(m)`. -/
theorem C25_rotation_exact {h : FHeap K} (f g : Frame) {r : RotRef} {m : M3 K} (hm : h.rot r = some m) :
    g.shows (f.setRotation h (some r)).2.1 =
      (if g.tf = f.tf then h.tfs[g.tf]?.map fun t => { t with rot := m } else h.tfs[g.tf]?,
       h.loc g.loc,
       if g.rot = .view f.tf then h.tfs[f.tf]?.map fun _ => m else h.rot g.rot,
       if g.temp = f.tf then h.tfs[g.temp]?.map fun t => { t with rot := m } else h.tfs[g.temp]?) := by
  unfold Frame.setRotation Frame.shows
  simp only [hm]
  rw [write_get, write_get, write_loc_same h f.tf (fun t => { t with rot := m }) g.loc fun _ _ _ => rfl]
  refine congrArg₂ Prod.mk ?_ (congrArg₂ Prod.mk rfl (congrArg₂ Prod.mk ?_ ?_))
  · by_cases e : g.tf = f.tf
    · rw [if_pos e, if_pos e.symm]
    · rw [if_neg e, if_neg (Ne.symm e)]
  · by_cases e : g.rot = .view f.tf
    · rw [if_pos e, e]
      change (h.write f.tf _).tfs[f.tf]?.map Tf.rot = _
      rw [write_get, if_pos rfl, Option.map_map]
      rfl
    · rw [if_neg e, write_rot_same _ _ _ _ fun e' => absurd e' e]
  · by_cases e : g.temp = f.tf
    · rw [if_pos e, if_pos e.symm]
    · rw [if_neg e, if_neg (Ne.symm e)]

theorem map_fix_iff {α : Type _} {o : Option α} {x : α} (ho : o = some x) (φ : α → α) : o.map φ = o ↔ φ x = x := by
  rw [ho]; simp

theorem Tf.with_loc_eq {t : Tf K} {v : V3 K} : ({ t with loc := v } : Tf K) = t ↔ v = t.loc := by
  cases t; simp

theorem Tf.with_rot_eq {t : Tf K} {m : M3 K} : ({ t with rot := m } : Tf K) = t ↔ m = t.rot := by
  cases t; simp

/-- C25: `f.set_location(v)` leaves another component as it was exactly when it does not move `f`, or when the other
component does not look at the array of `f`'s transform. -/
theorem C25_location_iff {h : FHeap K} {f : Frame} {t : Tf K} (hf : h.tfs[f.tf]? = some t) (g : Frame)
    {r : LocRef} {v : V3 K} (hv : h.loc r = some v) :
    g.shows (f.setLocation h (some r)).2.1 = g.shows h ↔
      v = t.loc ∨ (g.tf ≠ f.tf ∧ g.loc ≠ .view f.tf ∧ g.temp ≠ f.tf) := by
  rw [C25_location_exact f g hv]
  unfold Frame.shows
  simp only [Prod.mk.injEq, true_and]
  have h1 : (if g.tf = f.tf then h.tfs[g.tf]?.map fun t => { t with loc := v } else h.tfs[g.tf]?) = h.tfs[g.tf]? ↔
      (g.tf = f.tf → v = t.loc) := by
    by_cases e : g.tf = f.tf
    · simp only [e, if_true, true_implies]
      rw [map_fix_iff hf, Tf.with_loc_eq]
    · simp [e]
  have h2 : (if g.loc = .view f.tf then h.tfs[f.tf]?.map fun _ => v else h.loc g.loc) = h.loc g.loc ↔
      (g.loc = .view f.tf → v = t.loc) := by
    by_cases e : g.loc = .view f.tf
    · simp only [e, if_true, true_implies]
      change _ = h.tfs[f.tf]?.map Tf.loc ↔ _
      rw [hf]
      simp
    · simp [e]
  have h3 : (if g.temp = f.tf then h.tfs[g.temp]?.map fun t => { t with loc := v } else h.tfs[g.temp]?) =
      h.tfs[g.temp]? ↔ (g.temp = f.tf → v = t.loc) := by
    by_cases e : g.temp = f.tf
    · simp only [e, if_true, true_implies]
      rw [map_fix_iff hf, Tf.with_loc_eq]
    · simp [e]
  rw [h1, h2, h3]
  tauto

/-- C25: the same for `f.set_rotation(m)`. -/
theorem C25_rotation_iff {h : FHeap K} {f : Frame} {t : Tf K} (hf : h.tfs[f.tf]? = some t) (g : Frame)
    {r : RotRef} {m : M3 K} (hm : h.rot r = some m) :
    g.shows (f.setRotation h (some r)).2.1 = g.shows h ↔
      m = t.rot ∨ (g.tf ≠ f.tf ∧ g.rot ≠ .view f.tf ∧ g.temp ≠ f.tf) := by
  rw [C25_rotation_exact f g hm]
  unfold Frame.shows
  simp only [Prod.mk.injEq, true_and]
  have h1 : (if g.tf = f.tf then h.tfs[g.tf]?.map fun t => { t with rot := m } else h.tfs[g.tf]?) = h.tfs[g.tf]? ↔
      (g.tf = f.tf → m = t.rot) := by
    by_cases e : g.tf = f.tf
    · simp only [e, if_true, true_implies]
      rw [map_fix_iff hf, Tf.with_rot_eq]
    · simp [e]
  have h2 : (if g.rot = .view f.tf then h.tfs[f.tf]?.map fun _ => m else h.rot g.rot) = h.rot g.rot ↔
      (g.rot = .view f.tf → m = t.rot) := by
    by_cases e : g.rot = .view f.tf
    · simp only [e, if_true, true_implies]
      change _ = h.tfs[f.tf]?.map Tf.rot ↔ _
      rw [hf]
      simp
    · simp [e]
  have h3 : (if g.temp = f.tf then h.tfs[g.temp]?.map fun t => { t with rot := m } else h.tfs[g.temp]?) =
      h.tfs[g.temp]? ↔ (g.temp = f.tf → m = t.rot) := by
    by_cases e : g.temp = f.tf
    · simp only [e, if_true, true_implies]
      rw [map_fix_iff hf, Tf.with_rot_eq]
    · simp [e]
  rw [h1, h2, h3]
  tauto

/-- C25: `f.set_transform(t)`, `f.transform_frame(t)` and making a component change nothing another component shows,
whatever is shared. -/
theorem C25_rebinding (h : FHeap K) (f g : Frame) {s : Tf K} (hg : g.Holds h s) (ht : g.temp < h.tfs.length)
    (r : Nat) (junk : Tf K) (loc : Option LocRef) (rot : Option RotRef) :
    g.shows (f.setTransform h r).2.1 = g.shows h ∧ g.shows (f.transformFrame h r).2.1 = g.shows h ∧
      g.shows (Frame.new h junk loc rot).2.1 = g.shows h := by
  refine ⟨?_, ?_, ?_⟩
  · unfold Frame.setTransform
    split <;> rfl
  · unfold Frame.transformFrame
    split
    · exact (ext_tf h _).shows ⟨s, hg⟩ ht
    · rfl
  · obtain ⟨f', φ, err, he, _⟩ := new_cases h junk loc rot
    rw [he]
    have hb := (show g.InSync h from ⟨s, hg⟩).bounds
    have ha : (⟨h.tfs.length, .view h.tfs.length, .view h.tfs.length, h.tfs.length⟩ : Frame).Apart g :=
      ⟨by have := hb.1; change h.tfs.length ≠ g.tf; omega, hb.2.1, hb.2.2, by change g.temp ≠ h.tfs.length; omega⟩
    exact (apart_shows _ ha φ).trans ((ext_tf h junk).shows ⟨s, hg⟩ ht)

/-- C24: `f.set_location(v)` leaves the location and the transform of another component in agreement exactly when that
component was at `v` already, or has both its transform and its location in the array of `f`'s transform, or
neither. -/
theorem C24_location_iff {h : FHeap K} {f : Frame} {t : Tf K} (hf : h.tfs[f.tf]? = some t) {g : Frame} {s : Tf K}
    (hg : g.Holds h s) {r : LocRef} {v : V3 K} (hv : h.loc r = some v) :
    g.InSync (f.setLocation h (some r)).2.1 ↔ v = s.loc ∨ (g.tf = f.tf ↔ g.loc = .view f.tf) := by
  obtain ⟨g1, g2, g3⟩ := hg
  have he := C25_location_exact f g hv
  unfold Frame.shows at he
  simp only [Prod.mk.injEq] at he
  obtain ⟨e1, e2, e3, _⟩ := he
  unfold Frame.InSync Frame.Holds
  rw [e1, e2, e3, g1, g2, g3, hf]
  by_cases ht : g.tf = f.tf <;> by_cases hl : g.loc = .view f.tf
  · simp [ht, hl]
  · simp only [ht, hl, if_true, if_false, Option.map_some, Option.some.injEq, iff_false, not_true_eq_false, or_false]
    constructor
    · rintro ⟨u, rfl, h2, _⟩
      exact h2.symm
    · rintro rfl
      exact ⟨_, rfl, rfl, rfl⟩
  · simp only [ht, hl, if_true, if_false, Option.map_some, Option.some.injEq, false_iff, not_true_eq_false, or_false]
    constructor
    · rintro ⟨u, rfl, h2, _⟩
      exact h2
    · rintro rfl
      exact ⟨_, rfl, rfl, rfl⟩
  · simp [ht, hl]

/-- C24: the same for `f.set_rotation(m)`. -/
theorem C24_rotation_iff {h : FHeap K} {f : Frame} {t : Tf K} (hf : h.tfs[f.tf]? = some t) {g : Frame} {s : Tf K}
    (hg : g.Holds h s) {r : RotRef} {m : M3 K} (hm : h.rot r = some m) :
    g.InSync (f.setRotation h (some r)).2.1 ↔ m = s.rot ∨ (g.tf = f.tf ↔ g.rot = .view f.tf) := by
  obtain ⟨g1, g2, g3⟩ := hg
  have he := C25_rotation_exact f g hm
  unfold Frame.shows at he
  simp only [Prod.mk.injEq] at he
  obtain ⟨e1, e2, e3, _⟩ := he
  unfold Frame.InSync Frame.Holds
  rw [e1, e2, e3, g1, g2, g3, hf]
  by_cases ht : g.tf = f.tf <;> by_cases hl : g.rot = .view f.tf
  · simp [ht, hl]
  · simp only [ht, hl, if_true, if_false, Option.map_some, Option.some.injEq, iff_false, not_true_eq_false, or_false]
    constructor
    · rintro ⟨u, rfl, _, h2⟩
      exact h2.symm
    · rintro rfl
      exact ⟨_, rfl, rfl, rfl⟩
  · simp only [ht, hl, if_true, if_false, Option.map_some, Option.some.injEq, false_iff, not_true_eq_false, or_false]
    constructor
    · rintro ⟨u, rfl, _, h2⟩
      exact h2
    · rintro rfl
      exact ⟨_, rfl, rfl, rfl⟩
  · simp [ht, hl]

/-! A component at the first array of the heap is moved to (5, 0, 0) and turned.  One that has the same array moves along;
one that has only its location there keeps its transform and gets out of step. -/
example :
    (⟨0, .cell 0, .view 0, 1⟩ : Frame).shows ((⟨0, .view 0, .view 0, 0⟩ : Frame).setLocation Examples.heap (some (.cell 0))).2.1 =
      (some ⟨1, ⟨5, 0, 0⟩⟩, some ⟨5, 0, 0⟩, some 1, some ⟨1, ⟨0, 0, 1⟩⟩) ∧
    (⟨0, .cell 0, .cell 0, 1⟩ : Frame).shows ((⟨0, .view 0, .view 0, 0⟩ : Frame).setRotation Examples.heap (some (.cell 0))).2.1 =
      (some ⟨⟨⟨0, -1, 0⟩, ⟨1, 0, 0⟩, ⟨0, 0, 1⟩⟩, 0⟩, some ⟨5, 0, 0⟩, some ⟨⟨0, -1, 0⟩, ⟨1, 0, 0⟩, ⟨0, 0, 1⟩⟩,
        some ⟨1, ⟨0, 0, 1⟩⟩) := by
  rw [C25_location_exact _ _ (v := ⟨5, 0, 0⟩) rfl, C25_rotation_exact _ _ (m := ⟨⟨0, -1, 0⟩, ⟨1, 0, 0⟩, ⟨0, 0, 1⟩⟩) rfl]
  exact ⟨rfl, rfl⟩

example : (⟨1, .view 1, .view 1, 1⟩ : Frame).shows
      ((⟨0, .view 0, .view 0, 0⟩ : Frame).setLocation Examples.heap (some (.cell 0))).2.1 =
        (⟨1, .view 1, .view 1, 1⟩ : Frame).shows Examples.heap ∧
    (⟨1, .view 1, .view 1, 1⟩ : Frame).shows
      ((⟨0, .view 0, .view 0, 0⟩ : Frame).setRotation Examples.heap (some (.cell 0))).2.1 =
        (⟨1, .view 1, .view 1, 1⟩ : Frame).shows Examples.heap ∧
    (⟨1, .view 1, .view 1, 0⟩ : Frame).shows
      ((⟨0, .view 0, .view 0, 0⟩ : Frame).setLocation Examples.heap (some (.cell 0))).2.1 ≠
        (⟨1, .view 1, .view 1, 0⟩ : Frame).shows Examples.heap := by
  refine ⟨(C25_location_iff Examples.heap_holds.1 _ (v := ⟨5, 0, 0⟩) rfl).2 (.inr ⟨by decide, by decide, by decide⟩),
    (C25_rotation_iff Examples.heap_holds.1 _ (m := ⟨⟨0, -1, 0⟩, ⟨1, 0, 0⟩, ⟨0, 0, 1⟩⟩) rfl).2
      (.inr ⟨by decide, by decide, by decide⟩), ?_⟩
  intro h
  rcases (C25_location_iff Examples.heap_holds.1 _ (v := ⟨5, 0, 0⟩) rfl).1 h with h | h
  · revert h; decide
  · exact h.2.2 rfl

example : (⟨0, .view 0, .view 0, 0⟩ : Frame).shows
      ((⟨0, .view 0, .view 0, 0⟩ : Frame).setTransform Examples.heap 1).2.1 =
        (⟨0, .view 0, .view 0, 0⟩ : Frame).shows Examples.heap :=
  (C25_rebinding Examples.heap _ _ Examples.heap_holds (by decide) 1 1 none none).1

example : ¬ (⟨1, .view 0, .view 1, 1⟩ : Frame).InSync
      ((⟨0, .view 0, .view 0, 0⟩ : Frame).setLocation ⟨[(1 : Tf ℚ), 1], [⟨5, 0, 0⟩], []⟩ (some (.cell 0))).2.1 ∧
    (⟨0, .view 0, .cell 0, 0⟩ : Frame).InSync
      ((⟨0, .view 0, .view 0, 0⟩ : Frame).setLocation ⟨[(1 : Tf ℚ), 1], [⟨5, 0, 0⟩], [1]⟩ (some (.cell 0))).2.1 := by
  rw [C24_location_iff (t := 1) (s := 1) rfl ⟨rfl, rfl, rfl⟩ (v := ⟨5, 0, 0⟩) rfl,
    C24_location_iff (t := 1) (s := 1) rfl ⟨rfl, rfl, rfl⟩ (v := ⟨5, 0, 0⟩) rfl]
  refine ⟨?_, .inr ⟨fun _ => rfl, fun _ => rfl⟩⟩
  rintro (h | h)
  · revert h; decide
  · exact absurd (h.2 rfl) (by decide)

example : ¬ (⟨0, .view 0, .cell 0, 0⟩ : Frame).InSync
      ((⟨0, .view 0, .view 0, 0⟩ : Frame).setRotation ⟨[(1 : Tf ℚ)], [], [1, ⟨⟨0, -1, 0⟩, ⟨1, 0, 0⟩, ⟨0, 0, 1⟩⟩]⟩
        (some (.cell 1))).2.1 := by
  rw [C24_rotation_iff (t := 1) (s := 1) rfl ⟨rfl, rfl, rfl⟩ (m := ⟨⟨0, -1, 0⟩, ⟨1, 0, 0⟩, ⟨0, 0, 1⟩⟩) rfl]
  rintro (h | h)
  · revert h; decide
  · exact absurd (h.1 rfl) (by decide)

end Tracer
