import Verif.Model.Posix
/-
Who is answered: the slave with clients around it, without sockets, buffers and receiver.
-/
set_option autoImplicit false
namespace Xcp.Spec

/-- The frames the slave sent on its way from `s` to `t`. -/
def framesOf (s t : St) : List Frame := t.tx.drop s.tx.length

/-- Packets of numbered clients, executed one after the other with whatever happens in between: everything sent
until the packet is done goes to the client that sent it. -/
def toSender (cfg : Cfg) (w : World) : Nat → St → List (Nat × Pdu) → Except Fault (St × List (Dest × Frame))
  | _, s, [] => .ok (s, [])
  | n, s, (c, p) :: ps => do
    let t ← run cfg s (w.apps n)
    let u ← step cfg (w.env n) t (.cmd p)
    let (v, out) ← toSender cfg w (n + 1) u ps
    return (v, (framesOf s t ++ framesOf t u).map (fun f => (.socket c, f)) ++ out)

/-- Packets of clients with addresses: everything goes to the client whose CONNECT was executed last, beginning with the answer to
the CONNECT.  Nobody is connected in the beginning: `master` is arbitrary then. -/
def toMaster (cfg : Cfg) (w : World) : Nat → St → List UInt8 → List (List UInt8 × Pdu) → Except Fault (St × List (Dest × Frame))
  | _, s, _, [] => .ok (s, [])
  | n, s, master, (a, p) :: ps => do
    let t ← run cfg s (w.apps n)
    let u ← step cfg (w.env n) t (.cmd p)
    let master' := if p.buf.head? = some 0xFF ∧ ¬ (t.connected = true ∧ t.busy = true) then a else master
    let (v, out) ← toMaster cfg w (n + 1) u master' ps
    return (v, (framesOf s t).map (fun f => (.addr master, f)) ++ (framesOf t u).map (fun f => (.addr master', f)) ++ out)

end Xcp.Spec
