import Verif.Model.Jobs
/-
Uploads in slave block mode while commands and main function run in different threads (`Xcp_Thread` and
`XcpTl_Thread`, src/hw/threads.c:96-115, 125-131), one access to the shared variables at a time.  Only on Windows the
threads get that far: with the POSIX locks `Xcp_SlaveBlockTransferSetActive` waits for itself (C53).
-/
set_option autoImplicit false
namespace Xcp

/-- Where a thread stands in `Xcp_UploadSingleBlock`, src/xcp.c:871-911.  Simplifications: `remaining -= length` and
the update of the MTA are one access each, so is the copy of a block; no padding of packets
(XCP_ON_CAN_MAX_DLC_REQUIRED off); the assertion of `Xcp_CopyMemory` about 0 bytes is off. -/
inductive UpPc where
  /-- before the test, line 876 -/
  | test
  /-- before `dataOut[0] = ERR_SUCCESS`, line 880 -/
  | head
  /-- before the comparison, line 884 -/
  | pick
  /-- before `length = remaining`, line 885 -/
  | length
  /-- before the length of the packet is set, lines 890, 898; `l` bytes are to be sent -/
  | setLen (l : Nat)
  /-- before `Xcp_CopyMemory`, lines 894, 900 -/
  | copy (l : Nat)
  /-- before `XCP_INCREMENT_MTA`, lines 895, 901 -/
  | move (l : Nat)
  /-- before `remaining -= …`, lines 896, 902 -/
  | sub (l : Nat)
  /-- before `Xcp_SendCto`, line 905 -/
  | send
  /-- before the comparison with 0, line 906 -/
  | check
  /-- before `XCP_ENTER_CRITICAL` and `Xcp_SetBusy(FALSE)`, lines 864-865 -/
  | free1
  /-- before `blockTransferActive = FALSE` and `XCP_LEAVE_CRITICAL`, lines 867-868 -/
  | free2
deriving DecidableEq, Repr

/-- Where the thread that executes commands stands. -/
inductive BlkPc where
  /-- between two packets -/
  | wait
  /-- before `bs` is stored as answer (`Xcp_Send8`, src/xcp.c:815-853) -/
  | fill (bs : List UInt8)
  /-- before `Xcp_SendCto`, src/xcp.c:855 -/
  | send
  /-- `Xcp_SetMta_Res`, before line 1284 -/
  | mta (a : UInt32)
  /-- `Xcp_Upload`, before `remaining = len`, src/xcp.c:931 -/
  | rem (n : UInt8)
  /-- `Xcp_SlaveBlockTransferSetActive(TRUE)`, before lines 864-865 -/
  | act1
  /-- before lines 867-868 -/
  | act2
  /-- in `Xcp_UploadSingleBlock` -/
  | up (pc : UpPc)
deriving DecidableEq, Repr

/-- Packets received: UPLOAD of `n` bytes, SET_MTA.  Simplification: no memory check, no address extension. -/
inductive BlkReq where
  | upload (n : UInt8)
  | setMta (a : UInt32)
deriving DecidableEq, Repr

/-- Packets sent, by `Xcp_UploadSingleBlock` or as other answer. -/
inductive BlkOut where
  | data (f : List UInt8)
  | answer (f : List UInt8)
deriving DecidableEq, Repr

/-- Both threads and what they share: busy flag, state of the block transfer (`Xcp_State.slaveBlockModeState`), MTA,
output buffer and its length (`Xcp_CtoOut`), who holds the lock.  `over` is set when more than the buffer was written.
`taken` keeps the uploads that were not refused, with the MTA at that time.  Simplifications: the memory does not change
meanwhile; a packet is sent at once (see Conc). -/
structure BlkSys where
  mem : Mem
  busy : Bool
  active : Bool
  remaining : UInt8
  mta : UInt32
  buf : List UInt8
  len : Nat
  over : Bool
  lock : Option JobThread
  main : UpPc
  cmd : BlkPc
  todo : List BlkReq
  taken : List (UInt32 × UInt8)
  out : List BlkOut

/-- After CONNECT, with packets `todo` to come. -/
def BlkSys.init (cfg : Cfg) (mem : Mem) (mta : UInt32) (todo : List BlkReq) : BlkSys :=
  { mem, busy := false, active := false, remaining := 0, mta, buf := List.replicate cfg.maxCto 0, len := 0, over := false,
    lock := none, main := .test, cmd := .wait, todo, taken := [], out := [] }

/-- The next access in `Xcp_UploadSingleBlock` (src/xcp.c:871-911) of thread `who`, and where it stands then: `none` if
it has returned. -/
def BlkSys.up (cfg : Cfg) (x : BlkSys) (who : JobThread) : UpPc → BlkSys × Option UpPc
  | .test => (x, if x.active then some .head else none)
  | .head => ({ x with buf := x.buf.set 0 0xFF }, some .pick)
  | .pick => (x, some (if x.remaining.toNat ≤ cfg.maxCto - 1 then .length else .setLen (cfg.maxCto - 1)))
  | .length => (x, some (.setLen x.remaining.toNat))
  | .setLen l => ({ x with len := l + 1 }, some (.copy l))
  | .copy l =>
    ({ x with buf := x.buf.take 1 ++ x.mem.read x.mta l ++ x.buf.drop (l + 1)
              over := x.over || decide (cfg.maxCto < l + 1) }, some (.move l))
  | .move l => ({ x with mta := x.mta + UInt32.ofNat l }, some (.sub l))
  | .sub l => ({ x with remaining := x.remaining - UInt8.ofNat l }, some .send)
  | .send => ({ x with out := x.out ++ [.data (x.buf.take x.len)] }, some .check)
  | .check => (x, if x.remaining = 0 then some .free1 else none)
  | .free1 => if x.lock = none then ({ x with lock := some who, busy := false }, some .free2) else (x, some .free1)
  | .free2 => ({ x with lock := none, active := false }, none)

/-- The next access of the thread that calls `Xcp_MainFunction`, src/xcp.c:706-711 (line 708 tests the address of a
function). -/
def BlkSys.mainStep (cfg : Cfg) (x : BlkSys) : BlkSys :=
  { (x.up cfg .main x.main).1 with main := (x.up cfg .main x.main).2.getD .test }

/-- The next access of the thread that executes commands: `Xcp_DispatchCommand` src/xcp.c:942-971, `Xcp_Upload`
src/xcp.c:931-935, `Xcp_SlaveBlockTransferSetActive` src/xcp.c:863-869, `Xcp_SetMta_Res` src/xcp.c:1282-1289,
`Xcp_BusyResponse` src/xcp.c:2253-2258. -/
def BlkSys.cmdStep (cfg : Cfg) (x : BlkSys) : BlkSys :=
  match x.cmd with
  | .wait =>
    match x.todo with
    | [] => x
    | r :: rest =>
      if x.busy then { x with todo := rest, cmd := .fill [0xFE, 0x10] }
      else match r with
        | .setMta a => { x with todo := rest, cmd := .mta a }
        | .upload n => { x with todo := rest, cmd := .rem n, taken := x.taken ++ [(x.mta, n)] }
  | .fill bs => { x with buf := bs ++ x.buf.drop bs.length, len := bs.length, cmd := .send }
  | .send => { x with out := x.out ++ [.answer (x.buf.take x.len)], cmd := .wait }
  | .mta a => { x with mta := a, cmd := .fill [0xFF] }
  | .rem n => { x with remaining := n, cmd := .act1 }
  | .act1 => if x.lock = none then { x with lock := some .cmd, busy := true, cmd := .act2 } else x
  | .act2 => { x with lock := none, active := true, cmd := .up .test }
  | .up pc => { (x.up cfg .cmd pc).1 with cmd := (x.up cfg .cmd pc).2.elim .wait .up }

def BlkSys.step (cfg : Cfg) (x : BlkSys) : JobThread → BlkSys
  | .main => x.mainStep cfg
  | .cmd => x.cmdStep cfg

/-- A schedule: which thread makes the next access. -/
def BlkSys.run (cfg : Cfg) (x : BlkSys) (sched : List JobThread) : BlkSys := sched.foldl (BlkSys.step cfg) x

end Xcp
