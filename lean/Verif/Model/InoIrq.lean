import Verif.Model.Can
/-
The Arduino receiver with interrupts: `XcpTl_MainFunction` step by step, src/tl/can/arduino_can.cpp.
-/
set_option autoImplicit false
namespace Xcp

/-- Where the program is: outside of `XcpTl_MainFunction`; after it saw `XcpTl_FrameReceived`; after it cleared it;
in `XcpUtl_MemCopy`, `i` of `n` bytes copied. -/
inductive InoPc where
  | idle
  | seen
  | cleared
  | copying (i n : Nat)
deriving DecidableEq, Repr

/-- The Arduino with interrupts: the receiver and where the program is. -/
structure InoIrq where
  ino : Ino
  pc  : InoPc

/-- What happens: the interrupt of a message, or the next step of the program. -/
inductive IrqOp where
  | irq (m : CanMsg)
  | cpu (env : Env)

/-- The next step of `XcpTl_MainFunction`, `XcpTl_RxHandler` and `XcpUtl_MemCopy`, src/tl/can/arduino_can.cpp:125-130,
166-174, src/xcp_util.c:32-43: test the flag; clear it; load `XcpTl_Dlc` for the call; copy one byte; dispatch.
`XcpTl_Buffer` is not volatile, but `XcpUtl_MemCopy` is in another file and reads it byte by byte.
Simplification: the dispatcher is one step.  It uses neither `XcpTl_Buffer` nor `XcpTl_Dlc` nor the flag, and the
interrupt uses nothing else, so an interrupt in the middle of it has the effect of one after it. -/
def InoIrq.cpu (cfg : Cfg) (env : Env) (x : InoIrq) : Except Fault InoIrq :=
  match x.pc with
  | .idle => .ok (if x.ino.flag then { x with pc := .seen } else x)
  | .seen => .ok { ino := { x.ino with flag := false }, pc := .cleared }
  | .cleared =>
    if cfg.asserts && x.ino.dlc == 0 then .error .assertFail
    else .ok { x with pc := .copying 0 x.ino.dlc }
  | .copying i n =>
    if i < n then
      match x.ino.buf[i]? with
      | none => .error .bufOob
      | some b =>
        if x.ino.ctoIn.length ≤ i then .error .bufOob
        else .ok { ino := { x.ino with ctoIn := x.ino.ctoIn.set i b }, pc := .copying (i + 1) n }
    else do
      let s ← step cfg env x.ino.s (.cmd ⟨x.ino.ctoLen, x.ino.ctoIn⟩)
      return { ino := { x.ino with s }, pc := .idle }

/-- One of them.  `on_receive` itself is not interrupted. -/
def InoIrq.step (cfg : Cfg) (x : InoIrq) : IrqOp → Except Fault InoIrq
  | .irq m => do
    let y ← x.ino.receive m
    return { x with ino := y }
  | .cpu env => x.cpu cfg env

/-- A history of them. -/
def InoIrq.run (cfg : Cfg) (x : InoIrq) : List IrqOp → Except Fault InoIrq
  | [] => .ok x
  | o :: os => do
    let y ← x.step cfg o
    y.run cfg os

end Xcp
