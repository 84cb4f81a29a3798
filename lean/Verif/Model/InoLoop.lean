import Verif.Model.InoIrq
/-
The loop of the Arduino sketch: `XcpTl_MainFunction` with interrupts, and what the sketch does between its calls,
tools/arduino/hello_xcp/hello_xcp.ino.
-/
set_option autoImplicit false
namespace Xcp

/-- What happens: the interrupt of a message; the next step of `XcpTl_MainFunction`; or, in the rest of `loop`, a call of
`Xcp_MainFunction`, a write to a variable of the sketch, a call of `XcpDaq_TriggerEvent`. -/
inductive LoopOp where
  | irq (m : CanMsg)
  | cpu (env : Env)
  | app (env : Env) (op : Op)

/-- One of them, `loop`, tools/arduino/hello_xcp/hello_xcp.ino:185-199.  The rest of `loop` is executed only outside of
`XcpTl_MainFunction`; anywhere else the program does not get there.
Simplifications: each call is one step (the interrupt uses nothing they use), and `loop` may make them in any order
and number. -/
def InoIrq.loopStep (cfg : Cfg) (x : InoIrq) : LoopOp → Except Fault InoIrq
  | .irq m => x.step cfg (.irq m)
  | .cpu env => x.step cfg (.cpu env)
  | .app env op =>
    match x.pc with
    | .idle => do
      let s ← Xcp.step cfg env x.ino.s op
      return { x with ino := { x.ino with s } }
    | _ => .ok x

/-- A history of them. -/
def InoIrq.loopRun (cfg : Cfg) (x : InoIrq) : List LoopOp → Except Fault InoIrq
  | [] => .ok x
  | o :: os => do
    let y ← x.loopStep cfg o
    y.loopRun cfg os

end Xcp
