import Verif.Model.Frames

/-! What C24 and C25 say about components and their arrays. -/

namespace Tracer

variable {K : Type _}

/-- What `get_transform()`, `get_location()`, `get_rotation()` show, and the frame for tracing. -/
def Frame.shows (h : FHeap K) (f : Frame) : Option (Tf K) × Option (V3 K) × Option (M3 K) × Option (Tf K) :=
  (h.tfs[f.tf]?, h.loc f.loc, h.rot f.rot, h.tfs[f.temp]?)

/-- `get_location()` and `get_rotation()` are the parts of `get_transform()`, which is `t`. -/
def Frame.Holds (h : FHeap K) (f : Frame) (t : Tf K) : Prop :=
  h.tfs[f.tf]? = some t ∧ h.loc f.loc = some t.loc ∧ h.rot f.rot = some t.rot

def Frame.InSync (h : FHeap K) (f : Frame) : Prop := ∃ t, f.Holds h t

/-- No array that `f` writes to is looked at by `g`. -/
def Frame.Apart (f g : Frame) : Prop :=
  f.tf ≠ g.tf ∧ g.loc ≠ .view f.tf ∧ g.rot ≠ .view f.tf ∧ g.temp ≠ f.tf

/-- All components are in sync, and no two of them share an array that is written to. -/
structure World.Ok (w : World K) : Prop where
  sync : ∀ f ∈ w.frames, f.InSync w.heap
  temp : ∀ f ∈ w.frames, f.temp < w.heap.tfs.length
  apart : ∀ (i j : Nat) f g, i ≠ j → w.frames[i]? = some f → w.frames[j]? = some g → f.Apart g

/-- The step does not pass a component an array that is part of another component's transform, nor
does it make an array another component looks at part of a transform. Stand-alone vectors and
matrices may be shared. -/
def FrameOp.NoShare (w : World K) : FrameOp K → Prop
  | .setLocation i (some r) => ∀ (j : Nat) g, j ≠ i → w.frames[j]? = some g → r ≠ .view g.tf
  | .setRotation i (some r) => ∀ (j : Nat) g, j ≠ i → w.frames[j]? = some g → r ≠ .view g.tf
  | .setTransform i r => ∀ (j : Nat) g, j ≠ i → w.frames[j]? = some g →
      r ≠ g.tf ∧ g.loc ≠ .view r ∧ g.rot ≠ .view r ∧ g.temp ≠ r
  | .new _ loc rot => ∀ g ∈ w.frames, loc ≠ some (.view g.tf) ∧ rot ≠ some (.view g.tf)
  | _ => True

/-- The component whose method a step calls. -/
def FrameOp.target : FrameOp K → Option Nat
  | .setLocation i _ => some i
  | .setRotation i _ => some i
  | .setTransform i _ => some i
  | .transformFrame i _ => some i
  | _ => none

/-- Every step of the program avoids sharing. -/
def NoSharing [Field K] : World K → List (FrameOp K) → Prop
  | _, [] => True
  | w, op :: ops => op.NoShare w ∧ NoSharing (op.run w).1 ops

end Tracer
