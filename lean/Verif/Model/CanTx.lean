import Verif.Model.Can
/-
The sending side of the CAN transport layers: src/tl/can/linux_socket_can.c, src/tl/can/kvaser.c and
src/tl/can/arduino_can.cpp.  On CAN a packet has no header (inc/xcp.h:134-142), so a frame handed to `XcpTl_Send`
is the packet.
-/
set_option autoImplicit false
namespace Xcp

/-- The message the kernel puts on the bus for a `can_id`: bit 31 (`CAN_EFF_FLAG`) makes it extended, bit 30
(`CAN_RTR_FLAG`) a remote request (the inverse of `rawId`). -/
def busMsg (raw : UInt32) (data : List UInt8) : CanMsg :=
  let ext := raw &&& 0x80000000 == 0x80000000
  { id := (raw &&& (if ext then 0x1FFFFFFF else 0x7FF)).toNat, ext, rtr := raw &&& 0x40000000 == 0x40000000, data }

/-- Length on the bus of a CAN FD frame with `len` bytes: up to 8 as it is, otherwise the next length of the
table (kernel, `can_fd_len2dlc`). -/
def fdBusLen (len : Nat) : Nat := if len ≤ 8 then len else ([12, 16, 20, 24, 32, 48, 64].find? (len ≤ ·)).getD 64

/-- `XcpTl_Send` of SocketCAN, src/tl/can/linux_socket_can.c:201-219.  `fd` is `Xcp_Options.fd`, a command line
option (src/hw/options.c), `outb` is `XCP_ON_CAN_OUTBOUND_IDENTIFIER`.  `can_frame.data` has 8 bytes,
`canfd_frame.data` 64, both zero; a longer copy leaves the frame.  Simplification: `write` succeeds. -/
def socketSend (fd : Bool) (outb : UInt32) (buf : List UInt8) : Except Fault CanMsg :=
  if fd then
    if 64 < buf.length then .error .bufOob
    else .ok (busMsg outb ((storeAt (List.replicate 64 0) 0 buf).take (fdBusLen buf.length)))
  else
    if 8 < buf.length then .error .bufOob
    else .ok (busMsg outb ((storeAt (List.replicate 8 0) 0 buf).take buf.length))

/-- The calls of `XcpTl_Send` for the frames, one after the other. -/
def socketSendAll (fd : Bool) (outb : UInt32) : List Frame → Except Fault (List CanMsg)
  | [] => .ok []
  | f :: fs => do
    let m ← socketSend fd outb f.bytes
    let ms ← socketSendAll fd outb fs
    return m :: ms

/-- The Kvaser transport layer while sending: the thread in the critical section `XCP_TL_ENTER_CRITICAL` and how
often it entered it, and the messages written so far.  On Windows the section is a
`CRITICAL_SECTION` (src/hw/win/hw.c), which its owner may enter again. -/
structure KvTx where
  owner : Option Nat
  depth : Nat
  bus   : List CanMsg
deriving DecidableEq, Repr

/-- `XCP_TL_ENTER_CRITICAL` by thread `i`: `none` if it has to wait. -/
def KvTx.enter (t : KvTx) (i : Nat) : Option KvTx :=
  if t.owner = none ∨ t.owner = some i then some { t with owner := some i, depth := t.depth + 1 } else none

/-- `XCP_TL_LEAVE_CRITICAL`. -/
def KvTx.leave (t : KvTx) : KvTx :=
  { t with owner := if t.depth ≤ 1 then none else t.owner, depth := t.depth - 1 }

/-- `XcpTl_Send` of Kvaser by thread `i`, src/tl/can/kvaser.c:264-284 (`KV_MAX_DLC` is 8): a longer packet is
reported and dropped, and the critical section is not left (lines 271-275).  `none`: the thread waits. Simplification: `canWrite` succeeds. -/
def kvSend (outb : UInt32) (t : KvTx) (i : Nat) (buf : List UInt8) : Option KvTx := do
  let t ← t.enter i
  if 8 < buf.length then return t
  else
    let m : CanMsg := { id := (canStrip outb).toNat, ext := canIsExt outb, rtr := false, data := buf }
    return KvTx.leave { t with bus := t.bus ++ [m] }

/-- Packets sent one after the other, each by the thread given with it. -/
def kvSendAll (outb : UInt32) (t : KvTx) : List (Nat × List UInt8) → Option KvTx
  | [] => some t
  | p :: ps => do
    let t ← kvSend outb t p.1 p.2
    kvSendAll outb t ps

/-- The `for` loop of `XcpTl_SetDLC`, src/tl/can/kvaser.c:230-234: the bound is the size of the table in bytes,
14, while it has 7 elements.  `none`: the loop ends and the function returns no value. -/
def setDlcLoop (len : Nat) : Nat → Nat → Except Fault Nat
  | 0, _ => .error .noReturn
  | k + 1, idx =>
    match ([12, 16, 20, 24, 32, 48, 64] : List Nat)[idx]? with
    | none => .error .tableOob
    | some d => if len ≤ d then .ok d else setDlcLoop len k (idx + 1)

/-- `XcpTl_SetDLC`, src/tl/can/kvaser.c:223-236 (not called anywhere). -/
def setDlc (len : Nat) : Except Fault Nat := if len ≤ 8 then .ok len else setDlcLoop len 14 0

/-- `XcpTl_Send` on the Arduino (MKR Zero shield), src/tl/can/arduino_can.cpp:183-202.  The library (CAN.h)
refuses to begin an extended packet announced with more than 8 bytes, and `write` takes no more
than 8 bytes into a packet; `none`: nothing is sent. -/
def inoSend (outb : UInt32) (buf : List UInt8) : Option CanMsg :=
  if canIsExt outb then
    if 8 < buf.length then none
    else some { id := (canStrip outb).toNat, ext := true, rtr := false, data := buf }
  else some { id := (canStrip outb).toNat, ext := false, rtr := false, data := buf.take 8 }

end Xcp
