import Verif.Model.Timeout
import Verif.Model.Cfg
/-
src/tl/sxi/xcp_tl.c: the receiver of the serial transport layer.
-/
set_option autoImplicit false
namespace Xcp

/-- `XcpTl_ReceiverStateType`, src/tl/sxi/xcp_tl.c:44-48. -/
inductive RcvState where
  | idle | untilLength | remaining
deriving DecidableEq, Repr

/-- `XcpTl_ReceiverType`, src/tl/sxi/xcp_tl.c:50-57, and the timer. -/
structure Rcv where
  buf : List UInt8
  state : RcvState
  index : Nat
  remaining : Nat
  dlc : Nat
  ctr : Nat
  timer : Timeout
deriving DecidableEq, Repr

/-- `XCP_COMM_BUFLEN`, inc/xcp.h:1174-1176, without a checksum field. -/
def commBufLen (cfg : Cfg) : Nat := max cfg.maxCto cfg.maxDto + cfg.lenSize + cfg.ctrSize

/-- `XcpTl_ResetSM`, src/tl/sxi/xcp_tl.c:95-101. -/
def Rcv.resetSM (r : Rcv) : Rcv := { r with state := .idle, index := 0, dlc := 0, ctr := 0, remaining := 0 }

/-- `XcpTl_Init`, src/tl/sxi/xcp_tl.c:65-69, on static (zeroed) storage; `TIMEOUT_VALUE` is 100. -/
def Rcv.init (buflen : Nat) : Rcv :=
  { buf := List.replicate buflen 0, state := .idle, index := 0, remaining := 0, dlc := 0, ctr := 0
    timer := (Timeout.boot.step (.init 100 true)).1 }

/-- `XCP_SXI_MAKEWORD`, src/tl/sxi/xcp_tl.c:40. -/
def sxiWord (b : List UInt8) (i : Nat) : Nat := (b.getD i 0).toNat + 256 * (b.getD (i + 1) 0).toNat

/-- `XcpTl_FeedReceiver`, src/tl/sxi/xcp_tl.c:106-139.  The result has the packet given to
`Xcp_DispatchCommand`, if any: its data pointer is the buffer from byte 4 on.  A store outside the
buffer is a fault.  Simplification: what the dispatched command does with the transport layer is
left out. -/
def Rcv.feed (r : Rcv) (now : UInt32) (octet : UInt8) : Except Fault (Rcv × Option Pdu) :=
  if r.buf.length ≤ r.index then .error .bufOob
  else
    let r := { r with buf := r.buf.set r.index octet }
    let (r, out) : Rcv × Option Pdu :=
      match r.state with
      | .idle => ({ r with state := .untilLength, timer := (r.timer.step (.start now)).1 }, none)
      | .untilLength =>
        if r.index = 1 then
          ({ r with
             dlc := sxiWord r.buf 0, state := .remaining, remaining := (sxiWord r.buf 0 + 2) % 65536
             timer := (r.timer.step (.reset now)).1 }, none)
        else (r, none)
      | .remaining =>
        let r := if r.index = 3 then { r with ctr := sxiWord r.buf 2 } else r
        let r := { r with timer := (r.timer.step (.reset now)).1, remaining := (r.remaining + 65535) % 65536 }
        if r.remaining = 0 then
          ({ r.resetSM with timer := (r.timer.step .stop).1 }, some ⟨r.dlc, r.buf.drop 4⟩)
        else (r, none)
    .ok (if r.state ≠ .idle then { r with index := (r.index + 1) % 65536 } else r, out)

/-- `XcpTl_MainFunction`, src/tl/sxi/xcp_tl.c:74-85: feed one octet if one is available, then check the
timer, which resets the receiver.  `later` is the timer value at the check. -/
def Rcv.main (r : Rcv) (now later : UInt32) (octet : Option UInt8) : Except Fault (Rcv × Option Pdu) := do
  let (r, out) ← match octet with
    | some o => r.feed now o
    | none => pure (r, none)
  let (t, fired) := r.timer.step (.check later)
  return (if fired then { r with timer := t }.resetSM else { r with timer := t }, out)

/-- The receiver fed with a stream, without checking the timer in between: the packets dispatched, or
a fault. -/
def Rcv.feedAll (r : Rcv) : List (UInt32 × UInt8) → Except Fault (Rcv × List Pdu)
  | [] => .ok (r, [])
  | (now, o) :: rest => do
    let (r, out) ← r.feed now o
    let (r, outs) ← r.feedAll rest
    return (r, out.toList ++ outs)

/-- The receiver driven by calls of `XcpTl_MainFunction`. -/
def Rcv.mainAll (r : Rcv) : List (UInt32 × UInt32 × Option UInt8) → Except Fault (Rcv × List Pdu)
  | [] => .ok (r, [])
  | (now, later, o) :: rest => do
    let (r, out) ← r.main now later o
    let (r, outs) ← r.mainAll rest
    return (r, out.toList ++ outs)

end Xcp
