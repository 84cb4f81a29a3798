import Verif.Model.Base
/-
src/tl/xcp_tl_timeout.c, function by function.
-/
set_option autoImplicit false
namespace Xcp

/-- The static variables of src/tl/xcp_tl_timeout.c:40-42.  One variable holds both the configured
time and the time of the last start.  `func` tells whether a function was set. -/
structure Timeout where
  value : UInt32
  func : Bool
  running : Bool
deriving DecidableEq, Repr

/-- static initialisation, src/tl/xcp_tl_timeout.c:40-42 -/
def Timeout.boot : Timeout := ⟨0, false, false⟩

/-- What is done with the timer; `now` is `XcpHw_GetTimerCounterMS()` at that moment. -/
inductive TimeoutOp where
  | init (v : UInt16) (func : Bool)
  | start (now : UInt32)
  | stop
  | check (now : UInt32)
  | reset (now : UInt32)
deriving DecidableEq, Repr

/-- `XcpTl_TimeoutInit`, `Start`, `Stop`, `Check`, `Reset`, src/tl/xcp_tl_timeout.c:44-72.  The second
component tells whether the time-out function was called. -/
def Timeout.step (t : Timeout) : TimeoutOp → Timeout × Bool
  | .init v f => (⟨v.toUInt32, f, false⟩, false)
  | .start now => ({ t with value := now, running := true }, false)
  | .stop => ({ t with running := false }, false)
  | .check now => (t, t.running && decide (now - t.value > t.value) && t.func)
  | .reset now => ({ t with value := now }, false)

/-- A sequence of calls. -/
def Timeout.run (t : Timeout) : List TimeoutOp → Timeout
  | [] => t
  | o :: os => Timeout.run (t.step o).1 os

end Xcp
