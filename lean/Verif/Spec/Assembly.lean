import Verif.Model.Assembly

/-! What it means for the frames of an assembly tree to be right. -/

namespace Tracer

variable {K : Type _} [Field K] {P Q : Type _}

/-- Surface `s` is below the assembly, and `path` are the transforms met on the way to it: of the
assembly itself, the sub-assemblies, the object and the surface. -/
inductive Below : Asm K P Q → List (Tf K) → SurfNode K P → Prop where
  | object {own subs objs o s} : o ∈ objs → s ∈ o.surfs → Below (.mk own subs objs) [own, o.own, s.own] s
  | sub {own subs objs a path s} : a ∈ subs → Below a path s → Below (.mk own subs objs) (own :: path) s

/-- The frame used for tracing of every surface below `a` is the product of `T` and the transforms
on the path to it. -/
def InSync (T : Tf K) (a : Asm K P Q) : Prop :=
  ∀ path s, Below a path s → s.temp = path.foldl (· * ·) T

/-- The same for one object. -/
def ObjNode.InSync (T : Tf K) (o : ObjNode K P Q) : Prop :=
  ∀ s ∈ o.surfs, s.temp = T * o.own * s.own

/-- An object without the frames used for tracing. -/
def ObjNode.relative (o : ObjNode K P Q) : ObjNode K P Q :=
  { o with surfs := o.surfs.map fun s => { s with temp := 1 } }

mutual
/-- An assembly without the frames used for tracing: its structure and relative transforms. -/
def Asm.relative : Asm K P Q → Asm K P Q
  | .mk own subs objs => .mk own (Asm.relativeAll subs) (objs.map ObjNode.relative)

@[inherit_doc Asm.relative]
def Asm.relativeAll : List (Asm K P Q) → List (Asm K P Q)
  | [] => []
  | a :: l => Asm.relative a :: Asm.relativeAll l
end

/-- The calls on the root, and the transform they place it at: the identity, or the argument of
`transform_children`. -/
def Call.onRoot : Call K P Q → Option (Tf K)
  | .setAsm [] _ => some 1
  | .addObj [] _ _ => some 1
  | .addAsm [] _ _ => some 1
  | .transformChildren [] T => some T
  | _ => none

/-- The product of `T` and the transforms of the assemblies above the one at the path. -/
def Asm.above (T : Tf K) : List Nat → Asm K P Q → Option (Tf K)
  | [], _ => some T
  | i :: path, .mk own subs _ =>
    match subs[i]? with
    | none => none
    | some a => a.above (T * own) path

/-- The assembly at a path. -/
def Asm.at : List Nat → Asm K P Q → Option (Asm K P Q)
  | [], a => some a
  | i :: path, .mk _ subs _ =>
    match subs[i]? with
    | none => none
    | some a => a.at path

end Tracer
