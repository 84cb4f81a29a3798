import Verif.Model.Locks
/-
The locks on Windows, src/hw/win/hw.c.
-/
set_option autoImplicit false
namespace Xcp

/-- Scheduling thread `i` on Windows.  The locks are critical sections (`InitializeCriticalSection`, `EnterCriticalSection`,
`LeaveCriticalSection`, src/hw/win/hw.c:162-190): entering waits while another thread owns the lock; a thread that owns it
may enter again, and has to leave as often. -/
inductive WinStep (sys : List Thread) : List Thread → Prop where
  | acq (i : Nat) (l : Lock) (rest : List LockAct) (held : List Lock) (h : sys[i]? = some ⟨.acq l :: rest, held⟩)
      (free : ∀ j t, sys[j]? = some t → l ∈ t.held → j = i) : WinStep sys (sys.set i ⟨rest, l :: held⟩)
  | rel (i : Nat) (l : Lock) (rest : List LockAct) (held : List Lock) (h : sys[i]? = some ⟨.rel l :: rest, held⟩) :
      WinStep sys (sys.set i ⟨rest, held.erase l⟩)

/-- The states reached by some schedule of `n` steps. -/
inductive WinReached (sys : List Thread) : Nat → List Thread → Prop where
  | refl : WinReached sys 0 sys
  | step {n : Nat} {a b : List Thread} (h : WinReached sys n a) (hs : WinStep a b) : WinReached sys (n + 1) b

/-- `XcpTl_Send` of Kvaser with a packet of `len` bytes, src/tl/can/kvaser.c:264-284: a packet of more than 8 bytes is refused inside
of the critical section.  The other transport layers of Windows are `LockFn.acts .tlSend` (src/tl/eth/wineth.c:178-195,
src/tl/bt/winbt.c:124-132, src/tl/sxi/xcp_tl.c) or use no lock (src/tl/eth/wineth_iocp.c:293-318). -/
def kvaserSendLocks (len : Nat) : List LockAct := if 8 < len then [.acq .tl] else [.acq .tl, .rel .tl]

end Xcp
