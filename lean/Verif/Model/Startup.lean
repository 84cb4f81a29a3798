import Verif.Model.Can
/-
What `XcpHw_Init` leaves running in the background: the timer signal on Linux (src/hw/linux/hw.c) and the two
dispatch timers on macOS (src/hw/macos/hw.c).
-/
set_option autoImplicit false
namespace Xcp

/-- The threads of the simulator on Linux, src/hw/threads.c:101-116.  None of them blocks the signal of the timer:
`XcpHw_Init` unblocks it (src/hw/linux/hw.c:237) before they are created. -/
inductive ThreadId where
  | main | ui | tl | xcp
deriving DecidableEq, Repr

/-- Whether `SA_RESTART` is set for the signal of the timer: `sa_flags` is `SA_SIGINFO`, src/hw/linux/hw.c:204. -/
def timerRestarts : Bool := false

/-- What happens to an Ethernet slave on Linux: data arrive, or the timer that `XcpHw_Init` starts (every second,
src/hw/linux/hw.c:220-235) sends its signal and the system has it handled by one of the threads; which one is not
specified (POSIX, signal generation and delivery). -/
inductive EthHappens where
  | data (bs : List UInt8)
  | timer (t : ThreadId)
deriving DecidableEq, Repr

/-- What the thread of the transport layer sees of it: `handler` does nothing (src/hw/linux/hw.c:154-165), but a blocking call
interrupted by a signal without `SA_RESTART` fails with `EINTR`.  Simplification: when its signal comes this thread waits in `recv`. -/
def EthHappens.seen : EthHappens → Option Arrival
  | .data bs => some (.data bs)
  | .timer .tl => if timerRestarts then none else some .err
  | .timer _ => none

/-- `XcpTl_RxHandler` (src/tl/eth/common.c:143-188) on Linux. -/
def Eth.rxLinux (e : Eth) (hs : List EthHappens) : Except Fault (List Pdu × RxEnd × Eth × Arrivals) :=
  e.rxHandler (hs.filterMap EthHappens.seen)

/-- The same with SocketCAN: a frame arrives, or the timer. -/
inductive CanHappens where
  | frame (env : Env) (m : CanMsg)
  | timer (t : ThreadId)

/-- How far a process has come: it runs, or has ended with an exit code. -/
inductive Life (α : Type) where
  | runs (x : α)
  | ended (code : Nat)
deriving Repr

/-- `XcpTl_RxHandler`, src/tl/can/linux_socket_can.c:143-167: a `read` that is interrupted has not the size of a frame, so
`errno_abort` calls `abort` (lines 51-55, 155); for `SIGABRT` there is `termination_handler`, which calls `exit(9)`
(src/hw/linux/hw.c:123-152, 184). -/
def canLinux (cfg : Cfg) (inb bc : UInt32) (x : CanSys) : List CanHappens → Except Fault (Life CanSys)
  | [] => .ok (.runs x)
  | .frame env m :: hs => do
    let y ← socketRx cfg inb bc env x m
    canLinux cfg inb bc y hs
  | .timer .tl :: hs => if timerRestarts then canLinux cfg inb bc x hs else .ok (.ended 9)
  | .timer _ :: hs => canLinux cfg inb bc x hs

/-- What the serial queue of macOS runs: the event handlers of `timer1` and `timer2` (src/hw/macos/hw.c:108-122) and their cancel
handlers (lines 140-151). -/
inductive MacBlock where
  | tick1 | tick2 | cancel1 | cancel2
deriving DecidableEq, Repr

/-- The timers, src/hw/macos/hw.c:94-99: the counter `i`; which timer is not cancelled; which cancel handlers have been submitted
and not yet run; whether `exit(0)` was called. -/
structure MacTimers where
  i : Nat
  live1 : Bool
  live2 : Bool
  due1 : Bool
  due2 : Bool
  exited : Bool
deriving DecidableEq, Repr

/-- After `XcpHw_Init`, src/hw/macos/hw.c:124-164. -/
def MacTimers.init : MacTimers := ⟨0, true, true, false, false, false⟩

/-- One block.  A cancelled timer fires no more, and its cancel handler is submitted once (`dispatch_source_cancel`).  Simplification: the
releases of the objects are left out. -/
def MacTimers.run1 (t : MacTimers) : MacBlock → MacTimers
  | .tick1 =>
    if t.exited || !t.live1 then t
    else if 20 ≤ t.i + 1 then { t with i := t.i + 1, live1 := false, due1 := true } else { t with i := t.i + 1 }
  | .tick2 =>
    if t.exited || !t.live2 then t
    else if 20 ≤ t.i + 1 then { t with i := t.i + 1, live2 := false, due2 := true } else { t with i := t.i + 1 }
  | .cancel1 => if t.exited || !t.due1 then t else { t with due1 := false, exited := true }
  | .cancel2 => if t.exited || !t.due2 then t else { t with due2 := false }

/-- Blocks one after the other: the queue is serial. -/
def MacTimers.run (t : MacTimers) (bs : List MacBlock) : MacTimers := bs.foldl MacTimers.run1 t

/-- When `timer1` fires for the `n`th time (counted from 0), in milliseconds after `XcpHw_Init`: after one second, then every 200
milliseconds, src/hw/macos/hw.c:153-157. -/
def macDue1 (n : Nat) : Nat := 1000 + 200 * n

/-- The same for `timer2`: after one second, then every 500 milliseconds, src/hw/macos/hw.c:153-157. -/
def macDue2 (n : Nat) : Nat := 1000 + 500 * n

end Xcp
