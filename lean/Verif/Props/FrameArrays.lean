import Verif.Spec.Frames
import Verif.Lemmas.Vec
import Mathlib.Algebra.Order.Field.Rat

/-!
# Frames and the arrays behind them (C24, C25)
-/

set_option linter.unusedSectionVars false

namespace Tracer

variable {K : Type _} [Field K]

/-! ## Lemmas -/

theorem write_get (h : FHeap K) (i j : Nat) (φ : Tf K → Tf K) :
    (h.write i φ).tfs[j]? = if i = j then h.tfs[j]?.map φ else h.tfs[j]? := by
  unfold FHeap.write
  simp only [List.getElem?_modify]
  split <;> simp_all

theorem write_loc_same (h : FHeap K) (i : Nat) (φ : Tf K → Tf K) (r : LocRef)
    (hφ : r = .view i → ∀ t, h.tfs[i]? = some t → (φ t).loc = t.loc) : (h.write i φ).loc r = h.loc r := by
  cases r with
  | cell c => rfl
  | view j =>
    show (h.write i φ).tfs[j]?.map Tf.loc = h.tfs[j]?.map Tf.loc
    rw [write_get]
    split
    · rename_i hij
      subst hij
      cases ht : h.tfs[i]? with
      | none => rfl
      | some t => simp [hφ rfl t ht]
    · rfl

theorem write_rot_same (h : FHeap K) (i : Nat) (φ : Tf K → Tf K) (r : RotRef)
    (hφ : r = .view i → ∀ t, h.tfs[i]? = some t → (φ t).rot = t.rot) : (h.write i φ).rot r = h.rot r := by
  cases r with
  | cell c => rfl
  | view j =>
    show (h.write i φ).tfs[j]?.map Tf.rot = h.tfs[j]?.map Tf.rot
    rw [write_get]
    split
    · rename_i hij
      subst hij
      cases ht : h.tfs[i]? with
      | none => rfl
      | some t => simp [hφ rfl t ht]
    · rfl

/-- Heaps that extend each other: same arrays, more of them. -/
structure FHeap.Ext (h h' : FHeap K) : Prop where
  tfs : ∀ (i : Nat) t, h.tfs[i]? = some t → h'.tfs[i]? = some t
  vecs : ∀ (i : Nat) v, h.vecs[i]? = some v → h'.vecs[i]? = some v
  mats : ∀ (i : Nat) m, h.mats[i]? = some m → h'.mats[i]? = some m

theorem append_get {α : Type _} (l : List α) (x : α) (i : Nat) (a : α) (h : l[i]? = some a) : (l ++ [x])[i]? = some a := by
  rw [List.getElem?_append_left (List.getElem?_eq_some_iff.1 h).1, h]

theorem ext_vec (h : FHeap K) (v : V3 K) : h.Ext { h with vecs := h.vecs ++ [v] } :=
  ⟨fun _ _ h => h, fun _ _ h => append_get _ _ _ _ h, fun _ _ h => h⟩

theorem ext_mat (h : FHeap K) (m : M3 K) : h.Ext { h with mats := h.mats ++ [m] } :=
  ⟨fun _ _ h => h, fun _ _ h => h, fun _ _ h => append_get _ _ _ _ h⟩

theorem ext_tf (h : FHeap K) (t : Tf K) : h.Ext { h with tfs := h.tfs ++ [t] } :=
  ⟨fun _ _ h => append_get _ _ _ _ h, fun _ _ h => h, fun _ _ h => h⟩

theorem FHeap.Ext.loc {h h' : FHeap K} (e : h.Ext h') {r : LocRef} {v : V3 K} (hr : h.loc r = some v) :
    h'.loc r = some v := by
  cases r with
  | cell c => exact e.vecs _ _ hr
  | view i =>
    obtain ⟨t, ht, rfl⟩ := Option.map_eq_some_iff.1 hr
    show h'.tfs[i]?.map Tf.loc = _
    rw [e.tfs _ _ ht]
    rfl

theorem FHeap.Ext.rot {h h' : FHeap K} (e : h.Ext h') {r : RotRef} {m : M3 K} (hr : h.rot r = some m) :
    h'.rot r = some m := by
  cases r with
  | cell c => exact e.mats _ _ hr
  | view i =>
    obtain ⟨t, ht, rfl⟩ := Option.map_eq_some_iff.1 hr
    show h'.tfs[i]?.map Tf.rot = _
    rw [e.tfs _ _ ht]
    rfl

theorem FHeap.Ext.holds {h h' : FHeap K} (e : h.Ext h') {f : Frame} {t : Tf K} (hf : f.Holds h t) : f.Holds h' t :=
  ⟨e.tfs _ _ hf.1, e.loc hf.2.1, e.rot hf.2.2⟩

theorem FHeap.Ext.shows {h h' : FHeap K} (e : h.Ext h') {f : Frame} (hf : f.InSync h)
    (ht : f.temp < h.tfs.length) : f.shows h' = f.shows h := by
  obtain ⟨t, h1, h2, h3⟩ := hf
  have h4 : h.tfs[f.temp]? = some h.tfs[f.temp] := List.getElem?_eq_getElem ht
  unfold Frame.shows
  rw [h1, h2, h3, h4, e.tfs _ _ h1, e.loc h2, e.rot h3, e.tfs _ _ h4]

theorem apart_shows (h : FHeap K) {f g : Frame} (ha : f.Apart g) (φ : Tf K → Tf K) :
    g.shows (h.write f.tf φ) = g.shows h := by
  obtain ⟨h1, h2, h3, h4⟩ := ha
  unfold Frame.shows
  rw [write_get, if_neg h1, write_loc_same _ _ _ _ (fun h => absurd h h2),
    write_rot_same _ _ _ _ (fun h => absurd h h3), write_get, if_neg (Ne.symm h4)]

theorem sync_of_shows {h h' : FHeap K} {g : Frame} (hs : g.shows h' = g.shows h) (hg : g.InSync h) : g.InSync h' := by
  obtain ⟨t, h1, h2, h3⟩ := hg
  unfold Frame.shows at hs
  simp only [Prod.mk.injEq] at hs
  exact ⟨t, hs.1.trans h1, hs.2.1.trans h2, hs.2.2.1.trans h3⟩

/-! ## C24 -/

/-- C24: `set_location(v)` on a component holding `t`, for any 3-component array as the argument
(shared with whatever): the component then holds `t` with the location `v`, the rotation is kept. -/
theorem C24_set_location {h : FHeap K} {f : Frame} {t : Tf K} (hf : f.Holds h t) {r : LocRef} {v : V3 K}
    (hv : h.loc r = some v) :
    ∃ f' h', f.setLocation h (some r) = (f', h', none) ∧ f'.Holds h' { t with loc := v } := by
  obtain ⟨h1, h2, h3⟩ := hf
  refine ⟨_, _, by unfold Frame.setLocation; simp only [hv]; rfl, ?_, ?_, ?_⟩
  · rw [write_get, if_pos rfl, h1]; rfl
  · rw [write_loc_same]
    · exact hv
    · intro hr t' ht'
      subst hr
      have : (h.tfs[f.tf]?).map Tf.loc = some v := hv
      rw [ht'] at this
      simpa using this.symm
  · rw [write_rot_same]
    · exact h3
    · intros; rfl

/-- C24: `set_rotation(m)`: the location is kept. -/
theorem C24_set_rotation {h : FHeap K} {f : Frame} {t : Tf K} (hf : f.Holds h t) {r : RotRef} {m : M3 K}
    (hm : h.rot r = some m) :
    ∃ f' h', f.setRotation h (some r) = (f', h', none) ∧ f'.Holds h' { t with rot := m } := by
  obtain ⟨h1, h2, h3⟩ := hf
  refine ⟨_, _, by unfold Frame.setRotation; simp only [hm]; rfl, ?_, ?_, ?_⟩
  · rw [write_get, if_pos rfl, h1]; rfl
  · rw [write_loc_same]
    · exact h2
    · intros; rfl
  · rw [write_rot_same]
    · exact hm
    · intro hr t' ht'
      subst hr
      have : (h.tfs[f.tf]?).map Tf.rot = some m := hm
      rw [ht'] at this
      simpa using this.symm

/-- C24: `set_transform(t)`. -/
theorem C24_set_transform {h : FHeap K} (f : Frame) {r : Nat} {t : Tf K} (ht : h.tfs[r]? = some t) :
    ∃ f', f.setTransform h r = (f', h, none) ∧ f'.Holds h t := by
  refine ⟨_, by unfold Frame.setTransform; rw [if_pos (List.getElem?_eq_some_iff.1 ht).1], ht, ?_, ?_⟩
  · show h.tfs[r]?.map Tf.loc = _; rw [ht]; rfl
  · show h.tfs[r]?.map Tf.rot = _; rw [ht]; rfl

/-- C24: `transform_frame(T)` sets the frame for tracing to the product and changes nothing else. -/
theorem C24_transform_frame {h : FHeap K} {f : Frame} {t T : Tf K} (hf : f.Holds h t) {r : Nat}
    (hT : h.tfs[r]? = some T) :
    ∃ f' h', f.transformFrame h r = (f', h', none) ∧ f'.Holds h' t ∧ h'.tfs[f'.temp]? = some (T * t) := by
  refine ⟨_, _, by unfold Frame.transformFrame; rw [hT, hf.1], ?_, ?_⟩
  · exact (ext_tf h (T * t)).holds (f := { f with temp := h.tfs.length }) hf
  · simp

/-- C24: an argument of the wrong shape raises `ValueError` and changes nothing. -/
theorem C24_wrong_shape (h : FHeap K) (f : Frame) :
    f.setLocation h none = (f, h, some .value) ∧ f.setRotation h none = (f, h, some .value) := ⟨rfl, rfl⟩

/-- C24: a constructed component holds the arguments, whatever memory `N.empty` returned, and the
frame for tracing is the transform. -/
theorem C24_new {h : FHeap K} (junk : Tf K) {rl : LocRef} {rm : RotRef} {v : V3 K} {m : M3 K}
    (hv : h.loc rl = some v) (hm : h.rot rm = some m) :
    ∃ f h', Frame.new h junk (some rl) (some rm) = (f, h', none) ∧ f.Holds h' ⟨m, v⟩ ∧
      h'.tfs[f.temp]? = some ⟨m, v⟩ := by
  have e := ext_tf h junk
  have h0 : (Frame.mk h.tfs.length (.view h.tfs.length) (.view h.tfs.length) h.tfs.length).Holds
      { h with tfs := h.tfs ++ [junk] } junk := by
    refine ⟨?_, ?_, ?_⟩ <;> simp [FHeap.loc, FHeap.rot]
  obtain ⟨f1, h1, hs1, hh1⟩ := C24_set_location h0 (e.loc hv)
  have hm' : h1.rot rm = some m := by
    unfold Frame.setLocation at hs1
    simp only [e.loc hv, Prod.mk.injEq] at hs1
    rw [← hs1.2.1, write_rot_same]
    · exact e.rot hm
    · intros; rfl
  obtain ⟨f2, h2, hs2, hh2⟩ := C24_set_rotation hh1 hm'
  refine ⟨f2, h2, ?_, hh2, ?_⟩
  · unfold Frame.new
    simp only [hs1, hs2]
  · have ht : f2.temp = f2.tf := by
      unfold Frame.setLocation at hs1
      simp only [e.loc hv, Prod.mk.injEq] at hs1
      unfold Frame.setRotation at hs2
      simp only [hm', Prod.mk.injEq] at hs2
      rw [← hs2.1, ← hs1.1]
    rw [ht]
    exact hh2.1

theorem setLocation_sync {h : FHeap K} {f : Frame} (hf : f.InSync h) (arg : Option LocRef) :
    (f.setLocation h arg).1.InSync (f.setLocation h arg).2.1 := by
  cases arg with
  | none => exact hf
  | some r =>
    cases hv : h.loc r with
    | none => unfold Frame.setLocation; simp only [hv]; exact hf
    | some v =>
      obtain ⟨t, ht⟩ := hf
      obtain ⟨f', h', e, hh⟩ := C24_set_location ht hv
      rw [e]; exact ⟨_, hh⟩

theorem setRotation_sync {h : FHeap K} {f : Frame} (hf : f.InSync h) (arg : Option RotRef) :
    (f.setRotation h arg).1.InSync (f.setRotation h arg).2.1 := by
  cases arg with
  | none => exact hf
  | some r =>
    cases hv : h.rot r with
    | none => unfold Frame.setRotation; simp only [hv]; exact hf
    | some v =>
      obtain ⟨t, ht⟩ := hf
      obtain ⟨f', h', e, hh⟩ := C24_set_rotation ht hv
      rw [e]; exact ⟨_, hh⟩

theorem setTransform_sync {h : FHeap K} {f : Frame} (hf : f.InSync h) (r : Nat) :
    (f.setTransform h r).1.InSync (f.setTransform h r).2.1 := by
  by_cases hr : r < h.tfs.length
  · obtain ⟨f', e, hh⟩ := C24_set_transform f (List.getElem?_eq_getElem hr)
    rw [e]; exact ⟨_, hh⟩
  · unfold Frame.setTransform; rw [if_neg hr]; exact hf

theorem transformFrame_sync {h : FHeap K} {f : Frame} (hf : f.InSync h) (r : Nat) :
    (f.transformFrame h r).1.InSync (f.transformFrame h r).2.1 := by
  cases hT : h.tfs[r]? with
  | none => unfold Frame.transformFrame; simp only [hT]; exact hf
  | some T =>
    obtain ⟨t, ht⟩ := hf
    obtain ⟨f', h', e, hh, _⟩ := C24_transform_frame ht hT
    rw [e]; exact ⟨_, hh⟩

/-- C24 for every program with one component, whatever arrays it passes and however often it
passes the same ones. -/
theorem C24_one_component (ops : List (FrameOp K)) (w : World K) {f : Frame} (hw : w.frames = [f])
    (hf : f.InSync w.heap) (hops : ∀ op ∈ ops, ∀ junk loc rot, op ≠ .new junk loc rot) :
    ∃ f', (w.runAll ops).frames = [f'] ∧ f'.InSync (w.runAll ops).heap := by
  induction ops generalizing w f with
  | nil => exact ⟨f, hw, hf⟩
  | cons op ops ih =>
    have key : ∃ f', (op.run w).1.frames = [f'] ∧ f'.InSync (op.run w).1.heap := by
      have call : ∀ (i : Nat) (m : Frame → FHeap K → Outcome K), (m f w.heap).1.InSync (m f w.heap).2.1 →
          ∃ f', (w.call i m).1.frames = [f'] ∧ f'.InSync (w.call i m).1.heap := by
        intro i m hm
        unfold World.call
        rw [hw]
        cases i with
        | zero => exact ⟨_, rfl, hm⟩
        | succ i => exact ⟨f, hw, hf⟩
      cases op with
      | vec v => obtain ⟨t, ht⟩ := hf; exact ⟨f, hw, t, (ext_vec _ v).holds ht⟩
      | mat m => obtain ⟨t, ht⟩ := hf; exact ⟨f, hw, t, (ext_mat _ m).holds ht⟩
      | array a => obtain ⟨t, ht⟩ := hf; exact ⟨f, hw, t, (ext_tf _ a).holds ht⟩
      | new junk loc rot => exact absurd rfl (hops _ List.mem_cons_self junk loc rot)
      | setLocation i arg => exact call i _ (setLocation_sync hf arg)
      | setRotation i arg => exact call i _ (setRotation_sync hf arg)
      | setTransform i r => exact call i _ (setTransform_sync hf r)
      | transformFrame i r => exact call i _ (transformFrame_sync hf r)
    obtain ⟨f', h1, h2⟩ := key
    exact ih _ h1 h2 fun op h => hops op (List.mem_cons_of_mem _ h)

/-- Non-vacuous: a component at the origin is moved twice by passing it views of its own array. -/
example : ∃ f', ((⟨⟨[⟨1, 0⟩, ⟨1, ⟨0, 0, 1⟩⟩], [⟨5, 0, 0⟩], [1]⟩, [⟨0, .view 0, .cell 0, 0⟩]⟩ : World ℚ).runAll
    [.setTransform 0 1, .setLocation 0 (some (.view 1)), .setTransform 0 0, .setLocation 0 (some (.view 1))]).frames = [f'] ∧
    f'.tf = 0 ∧ f'.loc = .view 1 := by
  obtain ⟨f', h, _⟩ := C24_one_component (K := ℚ)
    [.setTransform 0 1, .setLocation 0 (some (.view 1)), .setTransform 0 0, .setLocation 0 (some (.view 1))]
    ⟨⟨[⟨1, 0⟩, ⟨1, ⟨0, 0, 1⟩⟩], [⟨5, 0, 0⟩], [1]⟩, [⟨0, .view 0, .cell 0, 0⟩]⟩ rfl
    ⟨⟨1, 0⟩, rfl, rfl, rfl⟩ (by simp)
  refine ⟨f', h, ?_⟩
  have h2 : ([⟨0, .view 1, .view 0, 0⟩] : List Frame) = [f'] := by rw [← h]; rfl
  cases h2
  exact ⟨rfl, rfl⟩

/-! ## C25 -/

theorem setLocation_temp (f : Frame) (h : FHeap K) (arg : Option LocRef) : (f.setLocation h arg).1.temp = f.temp := by
  unfold Frame.setLocation; repeat' split
  all_goals rfl

theorem setRotation_temp (f : Frame) (h : FHeap K) (arg : Option RotRef) : (f.setRotation h arg).1.temp = f.temp := by
  unfold Frame.setRotation; repeat' split
  all_goals rfl

/-- How a method call may change the arrays and attributes: the parts of the invariant. -/
structure Frame.Good (h : FHeap K) (f : Frame) (o : Outcome K) (w : World K) (i : Nat) : Prop where
  sync : o.1.InSync o.2.1
  temp : o.1.temp < o.2.1.tfs.length
  others : ∀ (j : Nat) g, j ≠ i → w.frames[j]? = some g → g.shows o.2.1 = g.shows h
  length : h.tfs.length ≤ o.2.1.tfs.length
  apart : ∀ (j : Nat) g, j ≠ i → w.frames[j]? = some g → o.1.Apart g ∧ g.Apart o.1

theorem call_ok {w : World K} (hw : w.Ok) {i : Nat} {m : Frame → FHeap K → Outcome K}
    (hm : ∀ f, w.frames[i]? = some f → Frame.Good w.heap f (m f w.heap) w i) :
    (w.call i m).1.Ok ∧ ∀ (j : Nat) g, j ≠ i → w.frames[j]? = some g →
      (w.call i m).1.frames[j]? = some g ∧ g.shows (w.call i m).1.heap = g.shows w.heap := by
  unfold World.call
  cases hf : w.frames[i]? with
  | none => exact ⟨hw, fun j g _ hj => ⟨hj, rfl⟩⟩
  | some f =>
    have hi : i < w.frames.length := (List.getElem?_eq_some_iff.1 hf).1
    obtain ⟨hsync, htemp, hothers, hlen, hapart⟩ := hm f hf
    have hget : ∀ (j : Nat) g, (w.frames.set i (m f w.heap).1)[j]? = some g →
        (j = i ∧ g = (m f w.heap).1) ∨ (j ≠ i ∧ w.frames[j]? = some g) := by
      intro j g hj
      by_cases hji : j = i
      · subst hji
        rw [List.getElem?_set_self hi] at hj
        exact Or.inl ⟨rfl, by simpa using hj.symm⟩
      · rw [List.getElem?_set_ne (Ne.symm hji)] at hj
        exact Or.inr ⟨hji, hj⟩
    refine ⟨⟨?_, ?_, ?_⟩, ?_⟩
    · intro g hg
      obtain ⟨j, hj⟩ := List.mem_iff_getElem?.1 hg
      rcases hget j g hj with ⟨rfl, rfl⟩ | ⟨hji, hj⟩
      · exact hsync
      · exact sync_of_shows (hothers j g hji hj) (hw.sync g (List.mem_of_getElem? hj))
    · intro g hg
      obtain ⟨j, hj⟩ := List.mem_iff_getElem?.1 hg
      rcases hget j g hj with ⟨rfl, rfl⟩ | ⟨hji, hj⟩
      · exact htemp
      · exact Nat.lt_of_lt_of_le (hw.temp g (List.mem_of_getElem? hj)) hlen
    · intro j k g g' hjk hj hk
      rcases hget j g hj with ⟨hji, rfl⟩ | ⟨hji, hj'⟩
      · rcases hget k g' hk with ⟨hki, rfl⟩ | ⟨hki, hk'⟩
        · exact absurd (hji.trans hki.symm) hjk
        · exact (hapart k g' hki hk').1
      · rcases hget k g' hk with ⟨hki, rfl⟩ | ⟨hki, hk'⟩
        · exact (hapart j g hji hj').2
        · exact hw.apart j k g g' hjk hj' hk'
    · intro j g hji hj
      refine ⟨?_, hothers j g hji hj⟩
      show (w.frames.set i _)[j]? = _
      rw [List.getElem?_set_ne (Ne.symm hji), hj]

theorem setLocation_good {w : World K} (hw : w.Ok) {i : Nat} {f : Frame} (hf : w.frames[i]? = some f)
    {arg : Option LocRef} (hn : (FrameOp.setLocation i arg : FrameOp K).NoShare w) :
    Frame.Good w.heap f (f.setLocation w.heap arg) w i := by
  have hmem := List.mem_of_getElem? hf
  have hself : Frame.Good w.heap f (f, w.heap, none) w i :=
    ⟨hw.sync f hmem, hw.temp f hmem, fun _ _ _ _ => rfl, Nat.le_refl _,
      fun j g hj hg => ⟨hw.apart _ _ _ _ (Ne.symm hj) hf hg, hw.apart _ _ _ _ hj hg hf⟩⟩
  have hsync := setLocation_sync (hw.sync f hmem) arg
  cases arg with
  | none => exact ⟨hself.1, hself.2, hself.3, hself.4, hself.5⟩
  | some r =>
    cases hv : w.heap.loc r with
    | none =>
      unfold Frame.setLocation; simp only [hv]
      exact ⟨hself.1, hself.2, hself.3, hself.4, hself.5⟩
    | some v =>
      unfold Frame.setLocation at hsync ⊢
      simp only [hv] at hsync ⊢
      refine ⟨hsync, ?_, ?_, ?_, ?_⟩
      · simpa [FHeap.write] using hw.temp f hmem
      · intro j g hj hg
        exact apart_shows _ (hw.apart _ _ _ _ (Ne.symm hj) hf hg) _
      · simp [FHeap.write]
      · intro j g hj hg
        have h1 := hw.apart _ _ _ _ (Ne.symm hj) hf hg
        have h2 := hw.apart _ _ _ _ hj hg hf
        exact ⟨h1, h2.1, hn j g hj hg, h2.2.2.1, h2.2.2.2⟩

theorem setRotation_good {w : World K} (hw : w.Ok) {i : Nat} {f : Frame} (hf : w.frames[i]? = some f)
    {arg : Option RotRef} (hn : (FrameOp.setRotation i arg : FrameOp K).NoShare w) :
    Frame.Good w.heap f (f.setRotation w.heap arg) w i := by
  have hmem := List.mem_of_getElem? hf
  have hself : Frame.Good w.heap f (f, w.heap, none) w i :=
    ⟨hw.sync f hmem, hw.temp f hmem, fun _ _ _ _ => rfl, Nat.le_refl _,
      fun j g hj hg => ⟨hw.apart _ _ _ _ (Ne.symm hj) hf hg, hw.apart _ _ _ _ hj hg hf⟩⟩
  have hsync := setRotation_sync (hw.sync f hmem) arg
  cases arg with
  | none => exact ⟨hself.1, hself.2, hself.3, hself.4, hself.5⟩
  | some r =>
    cases hv : w.heap.rot r with
    | none =>
      unfold Frame.setRotation; simp only [hv]
      exact ⟨hself.1, hself.2, hself.3, hself.4, hself.5⟩
    | some v =>
      unfold Frame.setRotation at hsync ⊢
      simp only [hv] at hsync ⊢
      refine ⟨hsync, ?_, ?_, ?_, ?_⟩
      · simpa [FHeap.write] using hw.temp f hmem
      · intro j g hj hg
        exact apart_shows _ (hw.apart _ _ _ _ (Ne.symm hj) hf hg) _
      · simp [FHeap.write]
      · intro j g hj hg
        have h1 := hw.apart _ _ _ _ (Ne.symm hj) hf hg
        have h2 := hw.apart _ _ _ _ hj hg hf
        exact ⟨h1, h2.1, h2.2.1, hn j g hj hg, h2.2.2.2⟩

theorem Frame.InSync.bounds {h : FHeap K} {g : Frame} (hg : g.InSync h) :
    g.tf < h.tfs.length ∧ g.loc ≠ .view h.tfs.length ∧ g.rot ≠ .view h.tfs.length := by
  obtain ⟨t, h1, h2, h3⟩ := hg
  refine ⟨(List.getElem?_eq_some_iff.1 h1).1, ?_, ?_⟩
  · intro h; rw [h] at h2; simp [FHeap.loc] at h2
  · intro h; rw [h] at h3; simp [FHeap.rot] at h3

theorem setTransform_good {w : World K} (hw : w.Ok) {i : Nat} {f : Frame} (hf : w.frames[i]? = some f)
    {r : Nat} (hn : (FrameOp.setTransform i r : FrameOp K).NoShare w) :
    Frame.Good w.heap f (f.setTransform w.heap r) w i := by
  have hmem := List.mem_of_getElem? hf
  have hself : Frame.Good w.heap f (f, w.heap, none) w i :=
    ⟨hw.sync f hmem, hw.temp f hmem, fun _ _ _ _ => rfl, Nat.le_refl _,
      fun j g hj hg => ⟨hw.apart _ _ _ _ (Ne.symm hj) hf hg, hw.apart _ _ _ _ hj hg hf⟩⟩
  have hsync := setTransform_sync (hw.sync f hmem) r
  unfold Frame.setTransform at hsync ⊢
  split
  · rename_i hr
    rw [if_pos hr] at hsync
    refine ⟨hsync, hw.temp f hmem, fun _ _ _ _ => rfl, Nat.le_refl _, ?_⟩
    intro j g hj hg
    have h2 := hw.apart _ _ _ _ hj hg hf
    obtain ⟨n1, n2, n3, n4⟩ := hn j g hj hg
    refine ⟨⟨n1, n2, n3, n4⟩, Ne.symm n1, ?_, ?_, h2.2.2.2⟩
    · simpa using n1
    · simpa using n1
  · exact ⟨hself.1, hself.2, hself.3, hself.4, hself.5⟩

theorem transformFrame_good {w : World K} (hw : w.Ok) {i : Nat} {f : Frame} (hf : w.frames[i]? = some f)
    {r : Nat} : Frame.Good w.heap f (f.transformFrame w.heap r) w i := by
  have hmem := List.mem_of_getElem? hf
  have hself : Frame.Good w.heap f (f, w.heap, none) w i :=
    ⟨hw.sync f hmem, hw.temp f hmem, fun _ _ _ _ => rfl, Nat.le_refl _,
      fun j g hj hg => ⟨hw.apart _ _ _ _ (Ne.symm hj) hf hg, hw.apart _ _ _ _ hj hg hf⟩⟩
  have hsync := transformFrame_sync (hw.sync f hmem) r
  unfold Frame.transformFrame at hsync ⊢
  split
  · rename_i t own h1 h2
    simp only [h1, h2] at hsync
    refine ⟨hsync, by simp, ?_, by simp, ?_⟩
    · intro j g hj hg
      have hg' := List.mem_of_getElem? hg
      exact (ext_tf _ _).shows (hw.sync g hg') (hw.temp g hg')
    · intro j g hj hg
      have hg' := List.mem_of_getElem? hg
      have h1 := hw.apart _ _ _ _ (Ne.symm hj) hf hg
      have h2 := hw.apart _ _ _ _ hj hg hf
      refine ⟨h1, h2.1, h2.2.1, h2.2.2.1, ?_⟩
      have := (hw.sync g hg').bounds.1
      show w.heap.tfs.length ≠ g.tf
      omega
  · exact ⟨hself.1, hself.2, hself.3, hself.4, hself.5⟩

theorem ext_ok {w : World K} (hw : w.Ok) {h : FHeap K} (e : w.heap.Ext h)
    (hl : w.heap.tfs.length ≤ h.tfs.length) :
    (⟨h, w.frames⟩ : World K).Ok ∧ ∀ g ∈ w.frames, g.shows h = g.shows w.heap := by
  refine ⟨⟨?_, ?_, hw.apart⟩, fun g hg => e.shows (hw.sync g hg) (hw.temp g hg)⟩
  · intro f hf
    obtain ⟨t, ht⟩ := hw.sync f hf
    exact ⟨t, e.holds ht⟩
  · intro f hf
    exact Nat.lt_of_lt_of_le (hw.temp f hf) hl

/-- Writing into an array that did not exist before changes no component. -/
theorem fresh_shows {w : World K} (hw : w.Ok) (junk : Tf K) (φ : Tf K → Tf K) {g : Frame} (hg : g ∈ w.frames) :
    g.shows (({ w.heap with tfs := w.heap.tfs ++ [junk] } : FHeap K).write w.heap.tfs.length φ) = g.shows w.heap := by
  have hb := (hw.sync g hg).bounds
  rw [← (ext_tf w.heap junk).shows (hw.sync g hg) (hw.temp g hg)]
  refine apart_shows (f := ⟨w.heap.tfs.length, .cell 0, .cell 0, 0⟩) _ ⟨?_, hb.2.1, hb.2.2, ?_⟩ _
  · exact Nat.ne_of_gt hb.1
  · exact Nat.ne_of_lt (hw.temp g hg)

theorem write_write (h : FHeap K) (i : Nat) (φ ψ : Tf K → Tf K) : (h.write i φ).write i ψ = h.write i (ψ ∘ φ) := by
  unfold FHeap.write
  simp only [FHeap.mk.injEq, and_true]
  apply List.ext_getElem?
  intro j
  simp only [List.getElem?_modify]
  split <;> simp [Option.map_map]
  cases h.tfs[j]? <;> rfl

/-- What the constructor may leave behind. -/
theorem new_cases (h : FHeap K) (junk : Tf K) (loc : Option LocRef) (rot : Option RotRef) :
    ∃ f φ err, Frame.new h junk loc rot =
        (f, ({ h with tfs := h.tfs ++ [junk] } : FHeap K).write h.tfs.length φ, err) ∧
      (err = none → f.tf = h.tfs.length ∧ f.temp = h.tfs.length ∧ some f.loc = loc ∧ some f.rot = rot ∧
        f.InSync (({ h with tfs := h.tfs ++ [junk] } : FHeap K).write h.tfs.length φ)) := by
  have hid : ∀ h : FHeap K, ∀ i, h.write i id = h := by
    intro h i
    unfold FHeap.write
    simp
  have h0 : (Frame.mk h.tfs.length (.view h.tfs.length) (.view h.tfs.length) h.tfs.length).InSync
      { h with tfs := h.tfs ++ [junk] } := by
    refine ⟨junk, ?_, ?_, ?_⟩ <;> simp [FHeap.loc, FHeap.rot]
  have h1 := setLocation_sync h0 loc
  unfold Frame.new
  cases loc with
  | none => exact ⟨_, id, some .value, by rw [hid]; rfl, by simp⟩
  | some rl =>
    unfold Frame.setLocation at h1 ⊢
    simp only at h1 ⊢
    cases hv : FHeap.loc { h with tfs := h.tfs ++ [junk] } rl with
    | none => exact ⟨_, id, some .name, by rw [hid], by simp⟩
    | some v =>
      simp only [hv] at h1 ⊢
      have h2 := setRotation_sync h1 rot
      cases rot with
      | none => exact ⟨_, _, some .value, rfl, by simp⟩
      | some rm =>
        unfold Frame.setRotation at h2 ⊢
        simp only at h2 ⊢
        generalize hm : FHeap.rot _ rm = mm at h2 ⊢
        cases mm with
        | none => exact ⟨_, _, some .name, rfl, by simp⟩
        | some m =>
          simp only [write_write] at h2 ⊢
          exact ⟨_, _, none, rfl, fun _ => ⟨rfl, rfl, rfl, rfl, h2⟩⟩

/-- C25 and C24, partial: in every program whose steps do not share arrays between components, a step
keeps all components in sync and changes nothing of any component but the one it is called on.
Missing: programs that share arrays, where both fail (`C25_counterexample`, `C24_counterexample`). -/
theorem C25_step_partial {w : World K} (hw : w.Ok) (op : FrameOp K) (hn : op.NoShare w) :
    (op.run w).1.Ok ∧ ∀ (j : Nat) g, w.frames[j]? = some g → op.target ≠ some j →
      (op.run w).1.frames[j]? = some g ∧ g.shows (op.run w).1.heap = g.shows w.heap := by
  have weaken : ∀ {i : Nat} {p : World K},
      (∀ (j : Nat) g, j ≠ i → w.frames[j]? = some g → p.frames[j]? = some g ∧ g.shows p.heap = g.shows w.heap) →
      ∀ (j : Nat) g, w.frames[j]? = some g → some i ≠ some j → p.frames[j]? = some g ∧ g.shows p.heap = g.shows w.heap :=
    fun h j g hj hi => h j g (fun e => hi (by rw [e])) hj
  have ext : ∀ {h : FHeap K}, w.heap.Ext h → w.heap.tfs.length ≤ h.tfs.length →
      (⟨h, w.frames⟩ : World K).Ok ∧ ∀ (j : Nat) g, w.frames[j]? = some g → (none : Option Nat) ≠ some j →
        w.frames[j]? = some g ∧ g.shows h = g.shows w.heap := by
    intro h e hl
    exact ⟨(ext_ok hw e hl).1, fun j g hj _ => ⟨hj, (ext_ok hw e hl).2 g (List.mem_of_getElem? hj)⟩⟩
  cases op with
  | vec v => exact ext (ext_vec _ v) (Nat.le_refl _)
  | mat m => exact ext (ext_mat _ m) (Nat.le_refl _)
  | array t => exact ext (ext_tf _ t) (by simp)
  | setLocation i arg =>
    have := call_ok (m := fun f h => f.setLocation h arg) hw fun f hf => setLocation_good hw hf hn
    exact ⟨this.1, weaken this.2⟩
  | setRotation i arg =>
    have := call_ok (m := fun f h => f.setRotation h arg) hw fun f hf => setRotation_good hw hf hn
    exact ⟨this.1, weaken this.2⟩
  | setTransform i r =>
    have := call_ok (m := fun f h => f.setTransform h r) hw fun f hf => setTransform_good hw hf hn
    exact ⟨this.1, weaken this.2⟩
  | transformFrame i r =>
    have := call_ok (i := i) (m := fun f h => f.transformFrame h r) hw fun f hf => transformFrame_good hw hf
    exact ⟨this.1, weaken this.2⟩
  | new junk loc rot =>
    obtain ⟨f, φ, err, he, hf⟩ := new_cases w.heap junk loc rot
    have hl : w.heap.tfs.length <
        (({ w.heap with tfs := w.heap.tfs ++ [junk] } : FHeap K).write w.heap.tfs.length φ).tfs.length := by
      simp [FHeap.write]
    have hshow := fun g hg => fresh_shows hw junk φ (g := g) hg
    simp only [FrameOp.run, he]
    cases err with
    | some e =>
      refine ⟨⟨?_, ?_, hw.apart⟩, fun j g hj _ => ⟨hj, hshow g (List.mem_of_getElem? hj)⟩⟩
      · exact fun g hg => sync_of_shows (hshow g hg) (hw.sync g hg)
      · exact fun g hg => Nat.lt_trans (hw.temp g hg) hl
    | none =>
      obtain ⟨htf, htemp, hloc, hrot, hsync⟩ := hf rfl
      refine ⟨⟨?_, ?_, ?_⟩, ?_⟩
      · intro g hg
        rcases List.mem_append.1 hg with hg | hg
        · exact sync_of_shows (hshow g hg) (hw.sync g hg)
        · rw [List.mem_singleton.1 hg]; exact hsync
      · intro g hg
        rcases List.mem_append.1 hg with hg | hg
        · exact Nat.lt_trans (hw.temp g hg) hl
        · rw [List.mem_singleton.1 hg, htemp]; exact hl
      · have split : ∀ (j : Nat) g, (w.frames ++ [f])[j]? = some g →
            (w.frames[j]? = some g) ∨ (j = w.frames.length ∧ g = f) := by
          intro j g hj
          rcases Nat.lt_trichotomy j w.frames.length with h | h | h
          · rw [List.getElem?_append_left h] at hj; exact Or.inl hj
          · subst h; simp at hj; exact Or.inr ⟨rfl, hj.symm⟩
          · rw [List.getElem?_eq_none (by simp; omega)] at hj; simp at hj
        have hnew : ∀ g ∈ w.frames, f.Apart g ∧ g.Apart f := by
          intro g hg
          have hb := (hw.sync g hg).bounds
          have ht := hw.temp g hg
          have hn' := hn g hg
          unfold Frame.Apart
          rw [htf, htemp]
          refine ⟨⟨by omega, hb.2.1, hb.2.2, by omega⟩, by omega, ?_, ?_, by omega⟩
          · intro h; exact hn'.1 (by rw [← hloc, h])
          · intro h; exact hn'.2 (by rw [← hrot, h])
        intro j k g g' hjk hj hk
        rcases split j g hj with hj' | ⟨hj', rfl⟩
        · rcases split k g' hk with hk' | ⟨hk', rfl⟩
          · exact hw.apart j k g g' hjk hj' hk'
          · exact (hnew g (List.mem_of_getElem? hj')).2
        · rcases split k g' hk with hk' | ⟨hk', rfl⟩
          · exact (hnew g' (List.mem_of_getElem? hk')).1
          · exact absurd (hj'.trans hk'.symm) hjk
      · intro j g hj _
        exact ⟨append_get _ _ _ _ hj, hshow g (List.mem_of_getElem? hj)⟩

/-- C24 and C25, partial: the same for whole programs. -/
theorem C24_history_partial (ops : List (FrameOp K)) {w : World K} (hw : w.Ok) (hn : NoSharing w ops) :
    (w.runAll ops).Ok := by
  induction ops generalizing w with
  | nil => exact hw
  | cons op ops ih => exact ih (C25_step_partial hw op hn.1).1 hn.2

/-- C25, partial: a whole program that does not share arrays and does not call methods of component
`j` leaves it as it was. -/
theorem C25_history_partial (ops : List (FrameOp K)) {w : World K} (hw : w.Ok) (hn : NoSharing w ops)
    {j : Nat} {g : Frame} (hj : w.frames[j]? = some g) (hops : ∀ op ∈ ops, op.target ≠ some j) :
    (w.runAll ops).frames[j]? = some g ∧ g.shows (w.runAll ops).heap = g.shows w.heap := by
  induction ops generalizing w with
  | nil => exact ⟨hj, rfl⟩
  | cons op ops ih =>
    obtain ⟨h1, h2⟩ := C25_step_partial hw op hn.1
    obtain ⟨h3, h4⟩ := h2 j g hj (hops op List.mem_cons_self)
    obtain ⟨h5, h6⟩ := ih h1 hn.2 h3 fun op h => hops op (List.mem_cons_of_mem _ h)
    exact ⟨h5, h6.trans h4⟩

/-! ## Programs -/

/-- Nothing exists yet. -/
def World.empty (K : Type _) : World K := ⟨⟨[], [], []⟩, []⟩

theorem World.empty_ok : (World.empty K).Ok := ⟨by simp [World.empty], by simp [World.empty], by simp [World.empty]⟩

/-- Two components are created at the origin and given the same 4x4 array, then one is moved, as
`HomogenizedLocalReceiver` does with its receiver frame. -/
def Examples.sharing : List (FrameOp ℚ) :=
  [.vec 0, .mat 1, .new 1 (some (.cell 0)) (some (.cell 0)), .new 1 (some (.cell 0)) (some (.cell 0)),
   .array ⟨1, ⟨0, 0, 1⟩⟩, .setTransform 0 2, .setTransform 1 2, .vec ⟨5, 0, 0⟩, .setLocation 0 (some (.cell 1))]

/-- What `get_transform()` of a component shows, its location part. -/
def World.location (w : World ℚ) (i : Nat) : Option (V3 ℚ) :=
  w.frames[i]?.bind fun f => w.heap.tfs[f.tf]?.map Tf.loc

/-- C25 fails: moving component 0 to (5, 0, 0) moves component 1 from (0, 0, 1) to (5, 0, 0). -/
theorem C25_counterexample :
    ((World.empty ℚ).runAll (Examples.sharing.take 7)).location 1 = some ⟨0, 0, 1⟩ ∧
    ((World.empty ℚ).runAll Examples.sharing).location 1 = some ⟨5, 0, 0⟩ := by
  constructor <;> decide +kernel

/-- C24 fails for two components: after `b.set_transform(t)`, `a.set_location(b.get_location())` and
`b.set_location(v)`, `a.get_location()` is `v` but `a.get_transform()` has the old location. -/
theorem C24_counterexample :
    let w := (World.empty ℚ).runAll
      [.vec 0, .mat 1, .new 1 (some (.cell 0)) (some (.cell 0)), .new 1 (some (.cell 0)) (some (.cell 0)),
       .array ⟨1, ⟨0, 0, 1⟩⟩, .setTransform 1 2, .setLocation 0 (some (.view 2)),
       .vec ⟨5, 0, 0⟩, .setLocation 1 (some (.cell 1))]
    w.location 0 = some ⟨0, 0, 1⟩ ∧
      (w.frames[0]?.bind fun f => w.heap.loc f.loc) = some ⟨5, 0, 0⟩ := by
  constructor <;> decide +kernel

/-- Before the first `transform_frame`, `_temp_frame` is the transform array itself: moving a new
component moves its frame for tracing as well. -/
theorem C24_temp_follows :
    let w := (World.empty ℚ).runAll
      [.vec 0, .mat 1, .new 1 (some (.cell 0)) (some (.cell 0)), .vec ⟨5, 0, 0⟩, .setLocation 0 (some (.cell 1))]
    (w.frames[0]?.bind fun f => w.heap.tfs[f.temp]?.map Tf.loc) = some ⟨5, 0, 0⟩ := by
  decide +kernel

/-- A program with two components that shares no 4x4 array (but shares the default vectors). -/
def Examples.apart : List (FrameOp ℚ) :=
  [.vec 0, .mat 1, .new 1 (some (.cell 0)) (some (.cell 0)), .new 1 (some (.cell 0)) (some (.cell 0)),
   .array ⟨1, ⟨0, 0, 1⟩⟩, .setTransform 1 2, .vec ⟨5, 0, 0⟩, .setLocation 0 (some (.cell 1))]

theorem Examples.apart_noSharing : NoSharing (World.empty ℚ) Examples.apart := by
  refine ⟨trivial, trivial, ?_, ?_, trivial, ?_, trivial, ?_, trivial⟩
  · intro g hg; simp [FrameOp.run, World.empty] at hg
  · intro g hg
    exact ⟨by simp, by simp⟩
  · intro j g hj hg
    match j, hj with
    | 0, _ =>
      have : g = ⟨0, .cell 0, .cell 0, 0⟩ := by
        simpa [FrameOp.run, World.empty, Frame.new, Frame.setLocation, Frame.setRotation, FHeap.loc, FHeap.rot,
          FHeap.write] using hg.symm
      subst this
      exact ⟨by decide, by decide, by decide, by decide⟩
    | j + 2, _ =>
      simp [FrameOp.run, World.empty, Frame.new, Frame.setLocation, Frame.setRotation, FHeap.loc, FHeap.rot,
          FHeap.write] at hg
  · intro j g hj hg
    simp

example : ((World.empty ℚ).runAll Examples.apart).Ok ∧
    ((World.empty ℚ).runAll Examples.apart).location 1 = some ⟨0, 0, 1⟩ ∧
    ((World.empty ℚ).runAll Examples.apart).location 0 = some ⟨5, 0, 0⟩ :=
  ⟨C24_history_partial _ World.empty_ok Examples.apart_noSharing, by decide +kernel, by decide +kernel⟩

/-- One component at the origin, beside a second 4x4 array, a vector and a matrix. -/
def Examples.heap : FHeap ℚ := ⟨[⟨1, 0⟩, ⟨1, ⟨0, 0, 1⟩⟩], [⟨5, 0, 0⟩], [⟨⟨0, -1, 0⟩, ⟨1, 0, 0⟩, ⟨0, 0, 1⟩⟩]⟩

theorem Examples.heap_holds : (⟨0, .view 0, .view 0, 0⟩ : Frame).Holds Examples.heap ⟨1, 0⟩ := ⟨rfl, rfl, rfl⟩

example : (∃ f' h', (⟨0, .view 0, .view 0, 0⟩ : Frame).setLocation Examples.heap (some (.cell 0)) = (f', h', none) ∧
      f'.Holds h' ⟨1, ⟨5, 0, 0⟩⟩) ∧
    (∃ f' h', (⟨0, .view 0, .view 0, 0⟩ : Frame).setRotation Examples.heap (some (.cell 0)) = (f', h', none) ∧
      f'.Holds h' ⟨⟨⟨0, -1, 0⟩, ⟨1, 0, 0⟩, ⟨0, 0, 1⟩⟩, 0⟩) ∧
    (∃ f', (⟨0, .view 0, .view 0, 0⟩ : Frame).setTransform Examples.heap 1 = (f', Examples.heap, none) ∧
      f'.Holds Examples.heap ⟨1, ⟨0, 0, 1⟩⟩) ∧
    ∃ f h', Frame.new Examples.heap ⟨1, 0⟩ (some (.cell 0)) (some (.cell 0)) = (f, h', none) ∧
      f.Holds h' ⟨⟨⟨0, -1, 0⟩, ⟨1, 0, 0⟩, ⟨0, 0, 1⟩⟩, ⟨5, 0, 0⟩⟩ := by
  obtain ⟨f, h', h1, h2, _⟩ := C24_new (h := Examples.heap) ⟨1, 0⟩ (rl := .cell 0) (rm := .cell 0) rfl rfl
  exact ⟨C24_set_location Examples.heap_holds rfl, C24_set_rotation Examples.heap_holds rfl, C24_set_transform _ rfl, f, h', h1, h2⟩

/-- In the program above, what is done to the second component leaves the first where it is. -/
example : ∃ g : Frame, ((World.empty ℚ).runAll (Examples.apart.take 4)).frames[0]? = some g ∧
    g.shows ((World.empty ℚ).runAll (Examples.apart.take 6)).heap = g.shows ((World.empty ℚ).runAll (Examples.apart.take 4)).heap := by
  have hs := Examples.apart_noSharing
  have hok : ((World.empty ℚ).runAll (Examples.apart.take 4)).Ok :=
    C24_history_partial (Examples.apart.take 4) World.empty_ok ⟨hs.1, hs.2.1, hs.2.2.1, hs.2.2.2.1, trivial⟩
  exact ⟨_, rfl, (C25_history_partial [.array ⟨1, ⟨0, 0, 1⟩⟩, .setTransform 1 2] hok ⟨hs.2.2.2.2.1, hs.2.2.2.2.2.1, trivial⟩ (j := 0) rfl
    (by simp [FrameOp.target])).2⟩

end Tracer
