/-
Basic vocabulary of the model: faults, bytes, words, memory, received packets.
-/
set_option autoImplicit false
namespace Xcp

/-- Outcomes of the C program that the model does not continue from: undefined
behaviour or a failed assertion.  They are results, not assumptions. -/
inductive Fault where
  /-- index outside `Xcp_ServerCommands` (src/xcp.c:383-635, 959) -/
  | dispatchOob
  /-- `XCP_ASSERT`/`XCP_ASSERT_LE` failed (inc/xcp_macros.h:178, inc/xcp.h:543) -/
  | assertFail
  /-- index outside `XcpDaq_Entities` (src/xcp_daq.c:129) -/
  | entityOob
  /-- index outside `XcpDaq_ListForEvent` (src/xcp_daq.c:146) -/
  | eventOob
  /-- index outside `XcpDaq_QueueDTOs` (src/xcp_daq.c:142) -/
  | queueOob
  /-- read outside the received packet's buffer -/
  | rxOob
  /-- write outside the CTO transmit buffer -/
  | txOob
  /-- write outside the local DTO buffer of `XcpDaq_TriggerEvent` (src/xcp_daq.c:497) -/
  | dtoOob
  /-- signed integer overflow (`Xcp_GetDWord`, `Xcp_ModifyBits_Res`) -/
  | intOverflow
  /-- shift by at least the width of `int` (`Xcp_ModifyBits_Res`) -/
  | shiftOob
  /-- access outside a receive buffer of a transport layer -/
  | bufOob
  /-- division by zero (`XcpUtl_Itoa`) -/
  | divZero
  /-- a loop that does not end (`XcpUtl_Itoa`) -/
  | noReturn
  /-- use of a null pointer (flash emulation) -/
  | nullDeref
  /-- the program calls `exit` -/
  | exit
  /-- index outside the tables of the predefined DAQ lists (inc/xcp.h:1048-1054) -/
  | tableOob
deriving DecidableEq, Repr

/-- Byte addressed memory with 32-bit addresses. -/
abbrev Mem := UInt32 → UInt8

/-- The `n` bytes stored from `a` on (addresses wrap at 2^32). -/
def Mem.read (m : Mem) (a : UInt32) (n : Nat) : List UInt8 :=
  (List.range n).map fun i => m (a + UInt32.ofNat i)

/-- Memory after storing `bs` from `a` on. -/
def Mem.write (m : Mem) (a : UInt32) (bs : List UInt8) : Mem :=
  fun x => bs.getD (x - a).toNat (m x)

/-- Memory transfer address, inc/xcp.h `Xcp_MtaType`. -/
structure Mta where
  ext  : UInt8
  addr : UInt32
deriving DecidableEq, Repr

/-- `XCP_INCREMENT_MTA`, src/xcp.c:77. -/
def Mta.advance (m : Mta) (n : Nat) : Mta := { m with addr := m.addr + UInt32.ofNat n }

/-- The `n` low-order bytes of `v`, least significant first.  Models the uses of
`XCP_LOBYTE/XCP_HIBYTE/XCP_LOWORD/XCP_HIWORD` (inc/xcp_macros.h:53-67). -/
def leBytes (n v : Nat) : List UInt8 :=
  (List.range n).map fun i => UInt8.ofNat (v / 256 ^ i)

/-- A received packet, `Xcp_PduType` (inc/xcp.h:819-822).  `buf` is the receive
buffer the `data` pointer points to; `len` is the number of bytes received. -/
structure Pdu where
  len : Nat
  buf : List UInt8
deriving DecidableEq, Repr

/-- `Xcp_GetByte`, src/xcp.c:2152-2154: no check against `len`; a read outside the
buffer is a fault. -/
def Pdu.byte (p : Pdu) (i : Nat) : Except Fault UInt8 :=
  match p.buf[i]? with
  | some b => .ok b
  | none => .error .rxOob

/-- `Xcp_GetWord`, src/xcp.c:2156-2162. -/
def Pdu.word (motorola : Bool) (p : Pdu) (i : Nat) : Except Fault Nat := do
  let a ← p.byte i
  let b ← p.byte (i + 1)
  return if motorola then a.toNat * 256 + b.toNat else b.toNat * 256 + a.toNat

/-- `Xcp_GetDWord`, src/xcp.c:2164-2176.  `h * 0x10000` is an `int`
multiplication of a promoted `uint16_t`: it overflows for `h >= 0x8000` unless
the compiler defines signed wrap-around (`wrapv`). -/
def Pdu.dword (motorola wrapv : Bool) (p : Pdu) (i : Nat) : Except Fault UInt32 := do
  let a ← p.word motorola i
  let b ← p.word motorola (i + 2)
  let h := if motorola then a else b
  let l := if motorola then b else a
  if 0x8000 ≤ h ∧ wrapv = false then throw .intOverflow
  return UInt32.ofNat (h * 0x10000 + l)

/-- `Xcp_SetWord`, src/xcp.c:2182-2190, on a buffer given as a list: the two bytes
stored at `offs` and `offs+1`. -/
def wordBytes (motorola : Bool) (v : Nat) : List UInt8 :=
  if motorola then [UInt8.ofNat (v / 256), UInt8.ofNat v] else [UInt8.ofNat v, UInt8.ofNat (v / 256)]

/-- `Xcp_SetDWord`, src/xcp.c:2192-2200: the four bytes stored at `offs..offs+3`. -/
def dwordBytes (motorola : Bool) (v : Nat) : List UInt8 :=
  if motorola then wordBytes motorola (v / 65536 % 65536) ++ wordBytes motorola (v % 65536)
  else wordBytes motorola (v % 65536) ++ wordBytes motorola (v / 65536 % 65536)

/-- `Xcp_SetResetBit8`, src/xcp.c:2202-2209. -/
def setResetBit8 (result value flag : UInt8) : UInt8 :=
  if value &&& flag = flag then result ||| flag else result &&& ~~~flag

end Xcp
