import Verif.Model.Cfg
/-
The state of the slave: `Xcp_State` and the file-scope variables of src/xcp.c,
src/xcp_daq.c and src/xcp_checksum.c, application memory, and the log of frames
handed to the transport layer.
-/
set_option autoImplicit false
namespace Xcp

/-- Which transmit buffer a frame came from. -/
inductive Kind where
  | cto | dto
deriving DecidableEq, Repr

/-- One call of `XcpTl_Send`: header (length, counter) followed by the payload. -/
structure Frame where
  kind : Kind
  bytes : List UInt8
deriving DecidableEq, Repr

/-- `XcpDaq_AllocStateType`, src/xcp_daq.c:59-65. -/
inductive AllocState where
  | idle | afterFree | afterAllocDaq | afterAllocOdt | afterAllocOdtEntry
deriving DecidableEq, Repr

/-- `XcpDaq_AllocTransitionype`, src/xcp_daq.c:67-72. -/
inductive AllocCall where
  | free | allocDaq | allocOdt | allocOdtEntry
deriving DecidableEq, Repr

/-- `XcpDaq_EntityType`, inc/xcp.h:880-887.  The union is modelled by its two 32-bit
words on a little-endian target with 32-bit pointers (bit offset, address
extension and prescaler members switched off):
`w` overlays `odtEntry.mta.address`, `{odt.numOdtEntries, odt.firstOdtEntry}` and
`{daqList.numOdts, daqList.firstOdt}`; `len` overlays `odtEntry.length`.
`kind` is written but never read by the code. -/
structure Entity where
  kind : Nat
  w : Nat
  len : Nat
deriving DecidableEq, Repr

/-- `daqList.numOdts` / `odt.numOdtEntries`: byte 0 of the union. -/
def Entity.num (e : Entity) : Nat := e.w % 256
/-- `daqList.firstOdt` / `odt.firstOdtEntry`: bytes 2 and 3 of the union. -/
def Entity.first (e : Entity) : Nat := e.w / 65536 % 65536
/-- store to byte 0 of the union -/
def Entity.setNum (e : Entity) (n : Nat) : Entity :=
  { e with w := e.w / 256 * 256 + n % 256 }
/-- store to bytes 2 and 3 of the union -/
def Entity.setFirst (e : Entity) (n : Nat) : Entity :=
  { e with w := (n % 65536) * 65536 + e.w % 65536 }
/-- store to `odtEntry.mta.address` -/
def Entity.setAddr (e : Entity) (a : UInt32) : Entity := { e with w := a.toNat }
/-- `odtEntry.mta.address` -/
def Entity.addr (e : Entity) : UInt32 := UInt32.ofNat e.w

/-- zeroed storage -/
def Entity.zero : Entity := ⟨0, 0, 0⟩

/-- `XcpDaq_OdtType`, src/xcp_daq.c:49-52: `len` is a `uint8_t`.  `data` holds the bytes
of the last copy into the slot (bytes behind them are never read). -/
structure Slot where
  len : Nat
  data : List UInt8
deriving DecidableEq, Repr

/-- `XcpDaq_QueueType` and `XcpDaq_QueueDTOs`, src/xcp_daq.c:80-84, 141-142. -/
structure Queue where
  head : Nat
  tail : Nat
  overload : Bool
  slots : Nat → Slot

/-- `XcpDaq_PointerType`, inc/xcp.h:737-741. -/
structure DaqPtr where
  list : Nat
  odt : Nat
  entry : Nat
deriving DecidableEq, Repr

/-- The DAQ part of the state.  `running` stands for
`daqProcessor.state == XCP_DAQ_STATE_RUNNING`; the code never distinguishes the
other processor states. -/
structure Daq where
  running : Bool
  ptr : DaqPtr
  allocState : AllocState
  entities : Nat → Entity
  entityCount : Nat
  listCount : Nat
  odtCount : Nat
  /-- the one `XcpDaq_ListState.mode` shared by all dynamic lists, src/xcp_daq.c:133, 354-379 -/
  mode : UInt8
  listForEvent : Nat → Nat
  queue : Queue

/-- `XcpPgm_ProcessorStateType`, inc/xcp.h:745-749. -/
inductive PgmState where
  | uninit | idle | active
deriving DecidableEq, Repr

/-- `Xcp_BlockModeStateType`, inc/xcp.h:757-760. -/
structure BlockMode where
  active : Bool
  remaining : Nat
deriving DecidableEq, Repr

/-- `Xcp_StatisticsType`, inc/xcp.h:763-769. -/
structure Stats where
  ctosReceived : Nat
  crosSend : Nat
  crosBusy : Nat
deriving DecidableEq, Repr

/-- `Xcp_ChecksumStateType`. -/
inductive CkState where
  | idle | initial | remaining | final
deriving DecidableEq, Repr

/-- `Xcp_ChecksumJobType`, src/xcp_checksum.c:328. -/
structure CkJob where
  state : CkState
  addr : UInt32
  size : Nat
  interim : Nat
deriving DecidableEq, Repr

/-- The whole state. -/
structure St where
  connected : Bool
  busy : Bool
  daq : Daq
  pgm : PgmState
  counter : Nat
  resProt : UInt8
  seedReq : UInt8
  mta : Mta
  slaveBlk : BlockMode
  masterBlk : BlockMode
  stats : Stats
  ck : CkJob
  /-- payload part of `Xcp_CtoOut.data` (keeps old bytes between packets) -/
  ctoOut : List UInt8
  /-- application memory -/
  mem : Mem
  /-- log of all frames sent so far -/
  tx : List Frame

/-- Result of a function that may fault. -/
abbrev R := Except Fault St

/-- Kind of memory access asked from the application, `Xcp_MemoryAccessType`. -/
inductive Access where
  | read | write
deriving DecidableEq, Repr

/-- The answers of the application's hook functions and of the hardware timer during
one step.  They are arbitrary and may differ from step to step. -/
structure Env where
  /-- `Xcp_HookFunction_CheckMemoryAccess` -/
  memCheck : Mta → Nat → Access → Bool → Bool
  /-- `Xcp_HookFunction_GetSeed` -/
  seed : UInt8 → List UInt8
  /-- `Xcp_HookFunction_Unlock` (resource mask, bytes from the key on, length byte) -/
  unlock : UInt8 → List UInt8 → Nat → Bool
  /-- `Xcp_HookFunction_GetId` -/
  getId : UInt8 → Option (UInt32 × Nat)
  /-- `XcpHw_GetTimerCounter` -/
  timer : UInt32
  /-- `Xcp_HookFunction_AddressMapper`, result address -/
  mapAddr : Mta → UInt32

end Xcp
