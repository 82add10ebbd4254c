import Verif.Spec.Assembly

/-! What a call on a component of an assembly tree is meant to change. -/

namespace Tracer

variable {K : Type _} [Field K] {P Q : Type _}

/-- The assembly that the call is on, or that holds the object or surface that the call is on. -/
def Call.path : Call K P Q → List Nat
  | .setAsm path _ => path
  | .setObj path _ _ => path
  | .setSurf path _ _ _ => path
  | .addObj path _ _ => path
  | .addAsm path _ _ => path
  | .addSurf path _ _ => path
  | .transformChildren path _ => path

/-- What the call is meant to do to that assembly, frames for tracing aside. -/
def Call.asked : Call K P Q → Asm K P Q → Asm K P Q
  | .setAsm _ c, .mk own subs objs => .mk (c.apply own) subs objs
  | .setObj _ i c, .mk own subs objs => .mk own subs (objs.modify i fun o => { o with own := c.apply o.own })
  | .setSurf _ i j c, .mk own subs objs =>
    .mk own subs (objs.modify i fun o => { o with surfs := o.surfs.modify j fun s => { s with own := c.apply s.own } })
  | .addObj _ o t, .mk own subs objs => .mk own subs (objs ++ [{ o.relative with own := t }])
  | .addAsm _ b t, .mk own subs objs => .mk own (subs ++ [.mk t b.relative.subs b.relative.objs]) objs
  | .addSurf _ i s, .mk own subs objs => .mk own subs (objs.modify i fun o => { o with surfs := o.surfs ++ [{ s with temp := 1 }] })
  | .transformChildren _ _, a => a

end Tracer
