import Verif.Model.Dispatch
/-
The critical sections, with the locks of src/hw/posix/hw.c and the mapping of
examples/xcpsim/xcp_config.h:223-238.
-/
set_option autoImplicit false
namespace Xcp

/-- `XCP_HW_LOCK_XCP` to `XCP_HW_LOCK_HW`, inc/xcp.h:505-508. -/
inductive Lock where
  | xcp | tl | daq | hw
deriving DecidableEq, Repr

/-- `XcpHw_AcquireLock` and `XcpHw_ReleaseLock`, src/hw/posix/hw.c:119-131. -/
inductive LockAct where
  | acq (l : Lock)
  | rel (l : Lock)
deriving DecidableEq, Repr

/-- A thread: the lock operations it still executes and the locks it owns. -/
structure Thread where
  todo : List LockAct
  held : List Lock
deriving DecidableEq, Repr

/-- Scheduling thread `i`.  The mutexes have the default attributes (`pthread_mutex_init(…, NULL)`,
src/hw/posix/hw.c:103-109): locking waits while any thread, also the caller itself, owns the mutex. -/
inductive ThreadStep (sys : List Thread) : List Thread → Prop where
  | acq (i : Nat) (l : Lock) (rest : List LockAct) (held : List Lock) (h : sys[i]? = some ⟨.acq l :: rest, held⟩)
      (free : ∀ t ∈ sys, l ∉ t.held) : ThreadStep sys (sys.set i ⟨rest, l :: held⟩)
  | rel (i : Nat) (l : Lock) (rest : List LockAct) (held : List Lock) (h : sys[i]? = some ⟨.rel l :: rest, held⟩) :
      ThreadStep sys (sys.set i ⟨rest, held.erase l⟩)

/-- The states reached by some schedule. -/
inductive Reached (sys : List Thread) : List Thread → Prop where
  | refl : Reached sys sys
  | step {a b : List Thread} (h : Reached sys a) (hs : ThreadStep a b) : Reached sys b

/-- Threads at the start. -/
def threads (ts : List (List LockAct)) : List Thread := ts.map fun t => ⟨t, []⟩

/-- The functions of the slave that use locks. -/
inductive LockFn where
  | setBusy | blockActive | startChecksum | getState | setDaqState | setPgmState | tlSend
deriving DecidableEq, Repr

/-- `Xcp_SetBusy`, src/xcp.c:2223-2227. -/
def setBusyLocks : List LockAct := [.acq .xcp, .rel .xcp]

/-- `Xcp_GetState`, src/xcp.c:2233-2241. -/
def getStateLocks : List LockAct := [.acq .daq, .rel .daq]

/-- What each of them does with the locks: `Xcp_SlaveBlockTransferSetActive` src/xcp.c:863-869,
`Xcp_StartChecksumCalculation` src/xcp_checksum.c:338-350 (the path that starts a job),
`XcpDaq_SetProcessorState` src/xcp_daq.c:583-590, `XcpPgm_SetProcessorState` src/xcp.c:2328-2335,
`XcpTl_Send` src/tl/eth/linuxeth.c:122-139, src/tl/can/linux_socket_can.c:201-218. -/
def LockFn.acts : LockFn → List LockAct
  | .setBusy => setBusyLocks
  | .blockActive => .acq .xcp :: setBusyLocks ++ [.rel .xcp]
  | .startChecksum => .acq .xcp :: setBusyLocks ++ [.rel .xcp]
  | .getState => getStateLocks
  | .setDaqState => getStateLocks ++ [.acq .daq, .rel .daq]
  | .setPgmState => getStateLocks
  | .tlSend => [.acq .tl, .rel .tl]

/-- `Xcp_StartChecksumCalculation`, src/xcp_checksum.c:338-350, both paths. -/
def startChecksumLocks (s : St) : List LockAct :=
  if s.ck.state ≠ .idle ∨ s.busy then [.acq .xcp, .rel .xcp] else LockFn.acts .startChecksum

/-- Locking functions a command's code can call besides `XcpTl_Send`: `Xcp_Upload` src/xcp.c:914-937,
`Xcp_BuildChecksum_Res` src/xcp.c:1339, `XcpDaq_SetPointer` src/xcp_daq.c:381-390, `XcpDaq_Init`
src/xcp_daq.c:280-303 on a sequence error (src/xcp_daq.c:189, 214, 243) and in `Xcp_Disconnect` (src/xcp.c:698-704,
called for DISCONNECT and for a wrong key, lines 1049 and 1230),
`Xcp_StartStopSynch_Res` src/xcp.c:1701-1721, `Xcp_ProgramStart_Res`/`Xcp_ProgramReset_Res` src/xcp.c:1943, 1987. -/
def Cmd.lockFns (cfg : Cfg) : Cmd → List LockFn
  | .upload | .shortUpload => if cfg.slaveBlock then [.blockActive] else []
  | .buildChecksum => if cfg.chunked then [.startChecksum] else []
  | .setDaqPtr => [.getState]
  | .allocDaq | .allocOdt | .allocOdtEntry | .disconnect | .unlock => [.setDaqState, .getState]
  | .startStopSynch => [.setDaqState]
  | .programStart | .programReset => [.setPgmState]
  | _ => []

/-- Locking functions an operation can call. -/
def Op.lockFns (cfg : Cfg) : Op → List LockFn
  | .cmd p => .tlSend ::
      match p.buf.head? with
      | none => []
      | some b =>
        match cmdTable[0xFF - b.toNat]? with
        | none => []
        | some c => c.lockFns cfg
  | .main => .tlSend :: (if cfg.slaveBlock then [.blockActive] else []) ++ (if cfg.chunked then [.setBusy] else [])
  | .trigger _ => [.getState, .tlSend]
  | .eventPkt .. | .servPkt .. => [.tlSend]
  | .appWrite .. => []
  | .apiDisconnect => [.setDaqState, .getState]

/-- `acts` is what an operation can do with the locks: it calls locking functions one after the other, in some
order and number.  Simplification: which of them it calls depends on state and data, so this is an
over-approximation. -/
def Op.Locks (cfg : Cfg) (op : Op) (acts : List LockAct) : Prop :=
  ∃ fs : List LockFn, (∀ f ∈ fs, f ∈ op.lockFns cfg) ∧ acts = (fs.map LockFn.acts).flatten

/-- `XcpTl_FeedReceiver` of the serial transport layer, src/tl/sxi/xcp_tl.c:106-139, with the octet that completes
a command packet: the command is executed inside of the critical section. -/
def feedLocks (cmd : List LockAct) : List LockAct := .acq .tl :: cmd ++ [.rel .tl]

end Xcp
