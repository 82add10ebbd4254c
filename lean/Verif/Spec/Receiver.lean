import Verif.Model.Surface

/-! Histories of a receiver. -/

namespace Tracer

/-- What can happen to a receiver: it is called with some hits, or its memory is cleared. -/
inductive ReceiverOp (K E : Type _) where
  | call (up : V3 K) (hits : List (HitRec K E))
  | reset

variable {K E : Type _}

/-- The hits of all calls since the last reset, in order. -/
def hitsSinceReset : List (ReceiverOp K E) → List (HitRec K E)
  | [] => []
  | ops => go ops []
where
  /-- `seen` are the hits so far. -/
  go : List (ReceiverOp K E) → List (HitRec K E) → List (HitRec K E)
  | [], seen => seen
  | .call _ hits :: ops, seen => go ops (seen ++ hits)
  | .reset :: ops, _ => go ops []

end Tracer
