import Verif.Model.Dispatch
import Verif.Model.Eth
/-
The CAN transport layers: src/tl/can/linux_socket_can.c, src/tl/can/kvaser.c and
src/tl/can/arduino_can.cpp (its transport layer commands are in Model/Std.lean).
-/
set_option autoImplicit false
namespace Xcp

/-- A message on the bus: identifier (11 bits, or 29 bits if extended), remote request, data. -/
structure CanMsg where
  id   : Nat
  ext  : Bool
  rtr  : Bool
  data : List UInt8
deriving DecidableEq, Repr

/-- `XCP_ON_CAN_IS_EXTENDED_IDENTIFIER`, inc/xcp.h:499, inc/xcp_macros.h:113. -/
def canIsExt (i : UInt32) : Bool := i &&& 0x80000000 == 0x80000000

/-- `XCP_ON_CAN_STRIP_IDENTIFIER`, inc/xcp.h:500. -/
def canStrip (i : UInt32) : UInt32 := i &&& ~~~0x80000000

/-- `can_id` of a received frame, as the kernel builds it: `CAN_EFF_FLAG` is bit 31, `CAN_RTR_FLAG`
bit 30. -/
def rawId (m : CanMsg) : UInt32 :=
  UInt32.ofNat (m.id + (if m.ext then 0x80000000 else 0) + (if m.rtr then 0x40000000 else 0))

/-- The mask of one filter, src/tl/can/linux_socket_can.c:119 and 121: `CAN_EFF_FLAG` or
`CAN_SFF_MASK`. -/
def socketMask (i : UInt32) : UInt32 := if canIsExt i then 0x80000000 else 0x7FF

/-- The kernel's receive filter for the pair (`can_id`, `can_mask`): the frame passes if the masked
identifiers agree. -/
def filterPass (i mask raw : UInt32) : Bool := raw &&& mask == i &&& mask

/-- The filters set by `XcpTl_Init`, src/tl/can/linux_socket_can.c:117-123: a frame passes if one of
them does. -/
def socketPass (inb bc : UInt32) (m : CanMsg) : Bool :=
  filterPass inb (socketMask inb) (rawId m) || filterPass bc (socketMask bc) (rawId m)

/-- The slave and the receive buffer `Xcp_CtoIn` points to. -/
structure CanSys where
  s   : St
  buf : List UInt8

/-- `XcpTl_RxHandler`, src/tl/can/linux_socket_can.c:143-167, for a frame on the bus.  The copy is not
checked against the buffer, and `XCP_ON_CAN_MAX_DLC_REQUIRED` plays no part.  Simplification: `read` delivers whole frames (otherwise the program
aborts, line 154). -/
def socketRx (cfg : Cfg) (inb bc : UInt32) (env : Env) (x : CanSys) (m : CanMsg) : Except Fault CanSys :=
  if socketPass inb bc m then
    if m.data.length = 0 then .ok x
    else if x.buf.length < m.data.length then .error .bufOob
    else do
      let buf := storeAt x.buf 0 m.data
      let s ← step cfg env x.s (.cmd ⟨m.data.length, buf⟩)
      return ⟨s, buf⟩
  else .ok x

/-- Frames received one after the other. -/
def socketRun (cfg : Cfg) (inb bc : UInt32) (x : CanSys) : List (Env × CanMsg) → Except Fault CanSys
  | [] => .ok x
  | m :: ms => do
    let y ← socketRx cfg inb bc m.1 x m.2
    socketRun cfg inb bc y ms

/-- The message flags of CANlib: `canMSG_RTR` 1, `canMSG_STD` 2, `canMSG_EXT` 4
(src/tl/can/kvaser.c:129-137). -/
def kvFlags (m : CanMsg) : Nat := (if m.rtr then 1 else 0) + (if m.ext then 4 else 2)

/-- `XcpTl_MatchingAddress`, src/tl/can/kvaser.c:81-91. -/
def kvMatching (id0 id1 : UInt32) (flag : Nat) : Bool :=
  (canStrip id0 == id1) && (canIsExt id0 == (flag == 4))

/-- The acceptance filter of `XcpTl_SetCANFilter`, src/tl/can/kvaser.c:238-262: code, mask, and
whether it applies to extended (otherwise: standard) identifiers. -/
def kvFilter (inb bc : UInt32) : UInt32 × UInt32 × Bool :=
  let i0 := canStrip inb
  let i1 := canStrip bc
  let filter := i0 &&& i1
  let mask := (i0 ||| i1) ^^^ filter
  if canIsExt inb || canIsExt bc then (filter, mask ^^^ 0x1FFFFFFF, true) else (filter, mask ^^^ 0x7FF, false)

/-- `canSetAcceptanceFilter` (CANlib documentation): messages of the filter's kind are accepted if
code and identifier agree in the bits of the mask; the other kind is not affected. -/
def kvAccept (inb bc : UInt32) (m : CanMsg) : Bool :=
  let (code, mask, ext) := kvFilter inb bc
  m.ext != ext || (code ^^^ UInt32.ofNat m.id) &&& mask == 0

/-- The receive case of `Kv_Notification`, src/tl/can/kvaser.c:110-127: whether the message is
dispatched. -/
def kvDispatches (cfg : Cfg) (inb bc : UInt32) (m : CanMsg) : Bool :=
  kvAccept inb bc m && !(cfg.maxDlc && m.data.length != cfg.maxCto) && m.data.length != 0 &&
    kvMatching inb (UInt32.ofNat m.id) (kvFlags m)

/-- The Arduino receiver (src/tl/can/arduino_can.cpp:51-56): the slave, the buffer `Xcp_CtoIn` points to, its
length (never set by this transport layer), `XcpTl_Buffer`, `XcpTl_Dlc` and `XcpTl_FrameReceived`. -/
structure Ino where
  s      : St
  ctoIn  : List UInt8
  ctoLen : Nat
  buf    : List UInt8
  dlc    : Nat
  flag   : Bool

/-- `on_receive` for the MKR Zero shield (called from the interrupt), src/tl/can/arduino_can.cpp:137-164.  Of a
remote request nothing is available: `packetSize` is 0 and the buffer keeps its contents.
`XcpTl_Dlc` is an `unsigned char`. -/
def Ino.receive (x : Ino) (m : CanMsg) : Except Fault Ino :=
  if m.rtr then .ok { x with dlc := 0, flag := true }
  else if x.buf.length < m.data.length then .error .bufOob
  else .ok { x with buf := storeAt x.buf 0 m.data, dlc := m.data.length % 256, flag := true }

/-- `XcpTl_MainFunction` and `XcpTl_RxHandler`, src/tl/can/arduino_can.cpp:125-130, 166-174.  Simplification: it is not
interrupted by `on_receive`. -/
def Ino.main (cfg : Cfg) (env : Env) (x : Ino) : Except Fault Ino :=
  if x.flag then
    if cfg.asserts && x.dlc == 0 then .error .assertFail
    else if x.ctoIn.length < x.dlc then .error .bufOob
    else do
      let ctoIn := storeAt x.ctoIn 0 (x.buf.take x.dlc)
      let s ← step cfg env x.s (.cmd ⟨x.ctoLen, ctoIn⟩)
      return { x with s, ctoIn, flag := false }
  else .ok x

/-- What happens on the Arduino: a message arrives, or the main function is called. -/
inductive InoOp where
  | receive (m : CanMsg)
  | main (env : Env)

/-- One of them. -/
def Ino.step (cfg : Cfg) (x : Ino) : InoOp → Except Fault Ino
  | .receive m => x.receive m
  | .main env => x.main cfg env

/-- A history of them. -/
def Ino.run (cfg : Cfg) (x : Ino) : List InoOp → Except Fault Ino
  | [] => .ok x
  | o :: os => do
    let y ← x.step cfg o
    y.run cfg os

/-- `XcpTl_Buffer[64]` and the initial values, src/tl/can/arduino_can.cpp:52-55. -/
def Ino.init (cfg : Cfg) (mem : Mem) : Ino :=
  { s := St.init cfg mem, ctoIn := List.replicate (cfg.maxCto + cfg.lenSize + cfg.ctrSize) 0, ctoLen := 0
    buf := List.replicate 64 0, dlc := 0, flag := false }

end Xcp
