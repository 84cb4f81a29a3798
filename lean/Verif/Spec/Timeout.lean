import Verif.Model.Timeout
/-
What a transport time-out should do.
-/
set_option autoImplicit false
namespace Xcp.Spec

/-- A timer as the property describes it: configured limit, time of the last start or reset. -/
structure RefTimer where
  limit : UInt32
  func : Bool
  started : Bool
  since : UInt32

def RefTimer.step (t : RefTimer) : TimeoutOp → RefTimer
  | .init v f => ⟨v.toUInt32, f, false, t.since⟩
  | .start now => { t with started := true, since := now }
  | .stop => { t with started := false }
  | .check _ => t
  | .reset now => { t with since := now }

def RefTimer.run (t : RefTimer) : List TimeoutOp → RefTimer
  | [] => t
  | o :: os => RefTimer.run (t.step o) os

/-- The callback is due: started, and more than the limit has passed (timer wraps at 2^32). -/
def RefTimer.due (t : RefTimer) (now : UInt32) : Prop :=
  t.started = true ∧ t.func = true ∧ t.limit < now - t.since

def RefTimer.boot : RefTimer := ⟨0, false, false, 0⟩

/-- The callback runs at a check made after the calls `ops`. -/
def CallsBack (ops : List TimeoutOp) (now : UInt32) : Prop :=
  ((Timeout.boot.run ops).step (.check now)).2 = true

/-- C48 in full. -/
def TimeoutRight (ops : List TimeoutOp) (now : UInt32) : Prop :=
  CallsBack ops now ↔ (RefTimer.boot.run ops).due now

end Xcp.Spec
