import Verif.Model.Np
import Verif.Model.Vec

/-!
# Frames as arrays on a heap (has_frame.py)

`HasFrame` keeps references to NumPy arrays: `set_transform` stores the caller's array and makes
`_loc` and `_rot` views of it, `set_location` and `set_rotation` store the caller's array and write
its contents into the array in `_transform`.
-/

namespace Tracer

/-- The arrays that exist: 4x4 arrays (their last row is never touched after creation and is left
out), and stand-alone 3-component and 3x3 arrays (has_frame.py:30-31). -/
structure FHeap (K : Type _) where
  tfs : List (Tf K)
  vecs : List (V3 K)
  mats : List (M3 K)

/-- An array of shape (3,): a stand-alone one or the view `t[:3,3]` of a 4x4 array (has_frame.py:46, 63). -/
inductive LocRef where
  | cell (i : Nat)
  | view (i : Nat)
deriving DecidableEq

/-- An array of shape (3,3): a stand-alone one or the view `t[:3,:3]` of a 4x4 array (has_frame.py:53, 64). -/
inductive RotRef where
  | cell (i : Nat)
  | view (i : Nat)
deriving DecidableEq

/-- The attributes `_transform`, `_loc`, `_rot`, `_temp_frame` of a component
(has_frame.py:30-34). -/
structure Frame where
  tf : Nat
  loc : LocRef
  rot : RotRef
  temp : Nat

variable {K : Type _}

/-- The contents of an array of shape (3,); `none` if there is no such array (read in has_frame.py:46-47). -/
def FHeap.loc (h : FHeap K) : LocRef → Option (V3 K)
  | .cell i => h.vecs[i]?
  | .view i => h.tfs[i]?.map Tf.loc

/-- The contents of an array of shape (3,3) (read in has_frame.py:53-54). -/
def FHeap.rot (h : FHeap K) : RotRef → Option (M3 K)
  | .cell i => h.mats[i]?
  | .view i => h.tfs[i]?.map Tf.rot

/-- Write into a 4x4 array (has_frame.py:47, 54). -/
def FHeap.write (h : FHeap K) (i : Nat) (f : Tf K → Tf K) : FHeap K :=
  { h with tfs := h.tfs.modify i f }

/-- What a method leaves behind: the attributes, the arrays, and the exception if it raised (the exceptions of has_frame.py:45, 52). -/
abbrev Outcome (K : Type _) := Frame × FHeap K × Option Err

/-- `HasFrame.set_location` (has_frame.py:42-47). `none` stands for an argument whose shape is not
(3,). -/
def Frame.setLocation (f : Frame) (h : FHeap K) (arg : Option LocRef) : Outcome K :=
  match arg with
  | none => (f, h, some .value)
  | some r =>
    match h.loc r with
    | none => (f, h, some .name)
    | some v => ({ f with loc := r }, h.write f.tf (fun t => { t with loc := v }), none)

/-- `HasFrame.set_rotation` (has_frame.py:49-54). `none` stands for an argument whose shape is not
(3,3). -/
def Frame.setRotation (f : Frame) (h : FHeap K) (arg : Option RotRef) : Outcome K :=
  match arg with
  | none => (f, h, some .value)
  | some r =>
    match h.rot r with
    | none => (f, h, some .name)
    | some m => ({ f with rot := r }, h.write f.tf (fun t => { t with rot := m }), none)

/-- `HasFrame.set_transform` (has_frame.py:56-64) -/
def Frame.setTransform (f : Frame) (h : FHeap K) (r : Nat) : Outcome K :=
  if r < h.tfs.length then ({ f with tf := r, loc := .view r, rot := .view r }, h, none)
  else (f, h, some .name)

/-- `HasFrame.transform_frame` (has_frame.py:69-74): the product is a new array. -/
def Frame.transformFrame [Field K] (f : Frame) (h : FHeap K) (r : Nat) : Outcome K :=
  match h.tfs[r]?, h.tfs[f.tf]? with
  | some t, some own => ({ f with temp := h.tfs.length }, { h with tfs := h.tfs ++ [t * own] }, none)
  | _, _ => (f, h, some .name)

/-- `HasFrame(location, rotation)` (has_frame.py:23-34); `junk` is the uninitialised memory of
`N.empty`. A default argument is a new array, i.e. a call after allocating it. `_temp_frame` is set
last, to the array of `_transform`; only then does the component exist. -/
def Frame.new (h : FHeap K) (junk : Tf K) (loc : Option LocRef) (rot : Option RotRef) : Outcome K :=
  let i := h.tfs.length
  let h := { h with tfs := h.tfs ++ [junk] }
  match Frame.setLocation ⟨i, .view i, .view i, i⟩ h loc with
  | (f, h, some e) => (f, h, some e)
  | (f, h, none) => f.setRotation h rot

/-- A program using frames: the arrays and the components, in order of creation. Components are instances of `HasFrame` (has_frame.py:5-74). -/
structure World (K : Type _) where
  heap : FHeap K
  frames : List Frame

/-- One step of such a program: create an array, create a component, call a method of component
`i`. Arguments are any arrays, in particular ones returned by getters of other components. The
index `.name` errors are for references to arrays or components that do not exist, which Python
cannot express. The methods are those of has_frame.py:23-74. -/
inductive FrameOp (K : Type _) where
  | vec (v : V3 K)
  | mat (m : M3 K)
  | array (t : Tf K)
  | new (junk : Tf K) (loc : Option LocRef) (rot : Option RotRef)
  | setLocation (i : Nat) (arg : Option LocRef)
  | setRotation (i : Nat) (arg : Option RotRef)
  | setTransform (i : Nat) (r : Nat)
  | transformFrame (i : Nat) (r : Nat)

/-- Run a method of component `i` (has_frame.py:36-74). -/
def World.call (w : World K) (i : Nat) (m : Frame → FHeap K → Outcome K) : World K × Option Err :=
  match w.frames[i]? with
  | none => (w, some .name)
  | some f =>
    let r := m f w.heap
    (⟨r.2.1, w.frames.set i r.1⟩, r.2.2)

/-- A step: the world after it, and the exception if it raised. The methods are those of has_frame.py:23-74. -/
def FrameOp.run [Field K] (w : World K) : FrameOp K → World K × Option Err
  | .vec v => ({ w with heap := { w.heap with vecs := w.heap.vecs ++ [v] } }, none)
  | .mat m => ({ w with heap := { w.heap with mats := w.heap.mats ++ [m] } }, none)
  | .array t => ({ w with heap := { w.heap with tfs := w.heap.tfs ++ [t] } }, none)
  | .new junk loc rot =>
    match Frame.new w.heap junk loc rot with
    | (_, h, some e) => ({ w with heap := h }, some e)
    | (f, h, none) => (⟨h, w.frames ++ [f]⟩, none)
  | .setLocation i arg => w.call i fun f h => f.setLocation h arg
  | .setRotation i arg => w.call i fun f h => f.setRotation h arg
  | .setTransform i r => w.call i fun f h => f.setTransform h r
  | .transformFrame i r => w.call i fun f h => f.transformFrame h r

/-- A run of a program that catches all exceptions. The methods are those of has_frame.py:23-74. -/
def World.runAll [Field K] (w : World K) (ops : List (FrameOp K)) : World K :=
  ops.foldl (fun w op => (op.run w).1) w

end Tracer
