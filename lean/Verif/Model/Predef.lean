import Verif.Model.Dispatch
/-
The slave with predefined DAQ lists: `XCP_DAQ_ENABLE_PREDEFINED_LISTS` on and
`XCP_DAQ_ENABLE_DYNAMIC_LISTS` off (the combination of both has functions without a return value,
src/xcp_daq.c:309-352, 405-418, 617-632, and does not compile).  DAQ commands are switched on.  Everything but the DAQ lists is the slave of
`Verif.Model.Dispatch`.
-/
set_option autoImplicit false
namespace Xcp

/-- `XcpDaq_ListConfigurationType`, inc/xcp.h:860-863, an entry of `XcpDaq_PredefinedLists`. -/
structure PList where
  numOdts : UInt8
  firstOdt : UInt16
deriving DecidableEq, Repr

/-- `XcpDaq_ODTType`, inc/xcp.h:838-841, an entry of `XcpDaq_PredefinedOdts`. -/
structure POdt where
  numEntries : UInt8
  firstEntry : UInt16
deriving DecidableEq, Repr

/-- `XcpDaq_ODTEntryType`, inc/xcp.h:830-836 (bit offset and address extension switched off), an
entry of `XcpDaq_PredefinedOdtEntries`. -/
structure PEntry where
  addr : UInt32
  len : UInt32
deriving DecidableEq, Repr

/-- Configuration: the tables the application defines (as tests/xcp_mocks.c:18-31 does). -/
structure PCfg where
  base : Cfg
  lists : List PList
  odts : List POdt
  entries : List PEntry

/-- `XcpDaq_PredefinedListCount`, a `uint8_t` initialised with the number of elements of
`XcpDaq_PredefinedLists` (inc/xcp.h:449, tests/xcp_mocks.c:30). -/
def PCfg.count (cfg : PCfg) : Nat := cfg.lists.length % 256

/-- State: of the DAQ part of `st` only the processor state, the DAQ pointer, the event
assignments and the queue are used; `modes` is `XcpDaq_PredefinedListsState`. -/
structure PSt where
  st : St
  modes : List UInt8

/-- Result of a function that may fault. -/
abbrev PR := Except Fault PSt

/-- `XCP_ASSERT_PGM_IDLE`, src/xcp.c:90-99. -/
def pPgmIdle (cfg : PCfg) (s : PSt) (k : PR) : PR :=
  if s.st.pgm = .active then .ok { s with st := sendResult cfg.base s.st ERR_PGM_ACTIVE } else k

/-- `XCP_ASSERT_DAQ_STOPPED`, src/xcp.c:79-88. -/
def pDaqStopped (cfg : PCfg) (s : PSt) (k : PR) : PR :=
  if s.st.daq.running then .ok { s with st := sendResult cfg.base s.st ERR_DAQ_ACTIVE } else k

/-- `XCP_ASSERT_UNLOCKED(XCP_RESOURCE_DAQ)`, src/xcp.c:109-115. -/
def pUnlocked (cfg : PCfg) (s : PSt) (k : PR) : PR :=
  if isProtected cfg.base s.st RES_DAQ then .ok { s with st := sendResult cfg.base s.st ERR_ACCESS_LOCKED } else k

/-- Element `i` of one of the tables. -/
def tableAt {α : Type} (l : List α) (i : Nat) : Except Fault α :=
  match l[i]? with
  | some a => .ok a
  | none => .error .tableOob

/-- `XcpDaq_GetOdt`, src/xcp_daq.c:617-632. -/
def pGetOdt (cfg : PCfg) (list odtNo : Nat) : Except Fault POdt := do
  let l ← tableAt cfg.lists list
  tableAt cfg.odts ((l.firstOdt.toNat % 256 + odtNo) % 256)

/-- `XcpDaq_GetOdtEntry`, src/xcp_daq.c:309-329. -/
def pGetOdtEntry (cfg : PCfg) (list odtNo entry : Nat) : Except Fault PEntry := do
  let o ← pGetOdt cfg list odtNo
  tableAt cfg.entries ((o.firstEntry.toNat + entry) % 256)

/-- `XcpDaq_ValidateOdtEntry`, src/xcp_daq.c:447-468. -/
def pValidate (cfg : PCfg) (list odtNo entry : Nat) : Except Fault Bool :=
  if cfg.count ≤ list then .ok false
  else do
    let l ← tableAt cfg.lists list
    if l.numOdts.toNat ≤ odtNo then return false
    else
      let o ← pGetOdt cfg list odtNo
      return decide (entry < o.numEntries.toNat)

/-- `XcpDaq_GetFirstPid`, src/xcp_daq.c:660-676. -/
def pGetFirstPid (cfg : PCfg) (list : Nat) : Except Fault (Bool × Nat) :=
  if cfg.count ≤ list then .ok (false, 0)
  else do
    let pid ← (List.range list).foldlM (fun acc i => do
      let l ← tableAt cfg.lists i
      return (acc + l.numOdts.toNat) % 256) 0
    return (true, pid)

/-- Store to `XcpDaq_PredefinedListsState[list].mode`. -/
def setModeAt (modes : List UInt8) (list : Nat) (f : UInt8 → UInt8) : Except Fault (List UInt8) := do
  let m ← tableAt modes list
  return modes.set list (f m)

/-- `XcpDaq_StartStopLists`, src/xcp_daq.c:634-658: here each list has its own state. -/
def pStartStopLists (cfg : PCfg) (start : Bool) (modes : List UInt8) : Except Fault (List UInt8) :=
  (List.range cfg.count).foldlM (fun m i => setModeAt m i (startStopBody start)) modes

/-- `XcpDaq_Init`, src/xcp_daq.c:281-307.  The event assignments `XcpDaq_ListForEvent` stay. -/
def pDaqInit (cfg : PCfg) (s : PSt) : PR := do
  let m ← pStartStopLists cfg false s.modes
  let m ← (List.range cfg.count).foldlM (fun m i => setModeAt m i (fun _ => 0)) m
  return ⟨{ s.st with daq := { s.st.daq with running := false, ptr := ⟨0, 0, 0⟩, queue := queueInit } }, m⟩

/-- `Xcp_Disconnect`, src/xcp.c:698-704. -/
def pDisconnect (cfg : PCfg) (s : PSt) : PR :=
  pDaqInit cfg { s with st := defaultResourceProtection cfg.base s.st }

/-- `Xcp_Disconnect_Res`, src/xcp.c:1044-1050. -/
def pDisconnectRes (cfg : PCfg) (s : PSt) : PR :=
  pPgmIdle cfg s (pDisconnect cfg { s with st := positive cfg.base s.st })

/-- `Xcp_Unlock_Res`, src/xcp.c:1205-1230. -/
def pUnlockRes (cfg : PCfg) (env : Env) (s : PSt) (p : Pdu) : PR := do
  let length ← p.byte 1
  pPgmIdle cfg s <|
    if s.st.seedReq = 0 then .ok { s with st := errorResp cfg.base s.st ERR_SEQUENCE }
    else if env.unlock s.st.seedReq (p.buf.drop 2) length.toNat then
      let s1 := { s.st with resProt := s.st.resProt &&& ~~~s.st.seedReq }
      .ok { s with st := { send8 cfg.base s1 [0xFF, s1.resProt] with seedReq := 0 } }
    else do
      let s1 ← pDisconnect cfg { s with st := errorResp cfg.base s.st ERR_ACCESS_LOCKED }
      return { s1 with st := { s1.st with seedReq := 0 } }

/-- `Xcp_SetDaqPtr_Res`, src/xcp.c:1512-1541. -/
def pSetDaqPtrRes (cfg : PCfg) (s : PSt) (p : Pdu) : PR :=
  pDaqStopped cfg s <| pPgmIdle cfg s <| pUnlocked cfg s do
    let list ← p.word cfg.base.motorola 2
    let odt ← p.byte 4
    let entry ← p.byte 5
    let ok ← pValidate cfg (list % 256) odt.toNat entry.toNat
    if ok then
      let d := { s.st.daq with ptr := ⟨list % 256, odt.toNat, entry.toNat⟩ }
      return { s with st := positive cfg.base { s.st with daq := d } }
    else return { s with st := errorResp cfg.base s.st ERR_OUT_OF_RANGE }

/-- `ERR_WRITE_PROTECTED`, inc/xcp.h:683. -/
def ERR_WRITE_PROTECTED : UInt8 := 0x23

/-- The rest of WRITE_DAQ and WRITE_DAQ_MULTIPLE after the access checks, src/xcp.c:1554-1562,
1584-1598: every list is predefined, so the write is refused.  (A DAQ pointer beyond
the lists is never set, see `C71_invariant`; the entry written then would lie outside the tables.) -/
def pWriteProtected (cfg : PCfg) (s : PSt) : PR :=
  if s.st.daq.ptr.list < cfg.count then .ok { s with st := sendResult cfg.base s.st ERR_WRITE_PROTECTED }
  else .error .tableOob

/-- `Xcp_WriteDaq_Res`, src/xcp.c:1543-1563. -/
def pWriteDaqRes (cfg : PCfg) (s : PSt) (p : Pdu) : PR := do
  let _ ← p.byte 1
  let _ ← p.byte 2
  let _ ← p.byte 3
  let _ ← p.dword cfg.base.motorola cfg.base.wrapv 4
  pDaqStopped cfg s <| pPgmIdle cfg s <| pUnlocked cfg s <| pWriteProtected cfg s

/-- `Xcp_WriteDaqMultiple_Res`, src/xcp.c:1566-1599. -/
def pWriteDaqMultipleRes (cfg : PCfg) (s : PSt) (p : Pdu) : PR := do
  let n ← p.byte 1
  if cfg.base.maxCto < n.toNat * 8 + 2 then return { s with st := sendResult cfg.base s.st ERR_OUT_OF_RANGE }
  else pDaqStopped cfg s <| pPgmIdle cfg s <| pUnlocked cfg s <| pWriteProtected cfg s

/-- `Xcp_SetDaqListMode_Res`, src/xcp.c:1603-1669.  Neither the list nor the event number is
checked: the mode is stored outside `XcpDaq_PredefinedListsState` for a list that does not exist.
(The event is assigned first, src/xcp.c:1655-1657.) -/
def pSetDaqListModeRes (cfg : PCfg) (s : PSt) (p : Pdu) : PR := do
  let mode ← p.byte 1
  let list ← p.word cfg.base.motorola 2
  let ev ← p.word cfg.base.motorola 4
  let prescaler ← p.byte 6
  let _ ← p.byte 7
  pDaqStopped cfg s <| pPgmIdle cfg s <| pUnlocked cfg s <|
    if mode &&& MODE_DIRECTION = MODE_DIRECTION then .ok { s with st := errorResp cfg.base s.st ERR_CMD_SYNTAX }
    else if mode &&& MODE_ALTERNATING = MODE_ALTERNATING then
      .ok { s with st := errorResp cfg.base s.st ERR_CMD_SYNTAX }
    else if 1 < prescaler then .ok { s with st := errorResp cfg.base s.st ERR_OUT_OF_RANGE }
    else do
      let d ← addEventChannel cfg.base s.st.daq (list % 256) ev
      let m ← setModeAt s.modes (list % 256) (fun m => newMode m mode)
      return ⟨positive cfg.base { s.st with daq := d }, m⟩

/-- The end of `Xcp_StartStopDaqList_Res`, src/xcp.c:1696-1698. -/
def pStartStopDaqListEnd (cfg : PCfg) (s : PSt) (list : Nat) : PR := do
  let (_, pid) ← pGetFirstPid cfg list
  return { s with st := send8 cfg.base s.st [0xFF, UInt8.ofNat pid, 0, 0, 0, 0, 0, 0] }

/-- `Xcp_StartStopDaqList_Res` after the check of the list number, src/xcp.c:1683-1698.
(`XcpDaq_GetListState` only forms the address; it is used in mode 2 only.) -/
def pStartStopDaqListBody (cfg : PCfg) (s : PSt) (mode : UInt8) (list : Nat) : PR :=
  if mode = 0 then pStartStopDaqListEnd cfg s list
  else if mode = 1 then pStartStopDaqListEnd cfg s list
  else if mode = 2 then do
    let m ← setModeAt s.modes list (· ||| MODE_SELECTED)
    pStartStopDaqListEnd cfg { s with modes := m } list
  else .ok { s with st := errorResp cfg.base s.st ERR_OUT_OF_RANGE }

/-- `Xcp_StartStopDaqList_Res`, src/xcp.c:1671-1699.  After the out-of-range error the function
goes on. -/
def pStartStopDaqListRes (cfg : PCfg) (s : PSt) (p : Pdu) : PR := do
  let mode ← p.byte 1
  let list ← p.word cfg.base.motorola 2
  pPgmIdle cfg s <| pUnlocked cfg s <|
    if cfg.count ≤ list % 256 then
      pStartStopDaqListBody cfg { s with st := errorResp cfg.base s.st ERR_OUT_OF_RANGE } mode (list % 256)
    else pStartStopDaqListBody cfg s mode (list % 256)

/-- `Xcp_StartStopSynch_Res`, src/xcp.c:1701-1721. -/
def pStartStopSynchRes (cfg : PCfg) (s : PSt) (p : Pdu) : PR := do
  let mode ← p.byte 1
  pPgmIdle cfg s <| pUnlocked cfg s <|
    if mode = 1 then do
      let m ← pStartStopLists cfg true s.modes
      return ⟨positive cfg.base { s.st with daq := { s.st.daq with running := true } }, m⟩
    else if mode = 0 then do
      let m ← pStartStopLists cfg false s.modes
      return ⟨positive cfg.base { s.st with daq := { s.st.daq with running := false } }, m⟩
    else if mode = 2 then do
      let m ← pStartStopLists cfg false s.modes
      return ⟨positive cfg.base s.st, m⟩
    else .ok { s with st := errorResp cfg.base s.st ERR_OUT_OF_RANGE }

/-- `XcpDaq_GetProperties`, src/xcp_daq.c:566-581 (`XCP_DAQ_CONFIG_TYPE_NONE`: the bit set is
`XCP_DAQ_CONFIG_TYPE_STATIC` = 0). -/
def pDaqProperties (cfg : Cfg) : UInt8 :=
  (if cfg.prescalerProp then 0x02 else 0) ||| (if cfg.timestamping then 0x10 else 0)

/-- `Xcp_GetDaqProcessorInfo_Res`, src/xcp.c:1733-1754: MIN_DAQ is the number of lists. -/
def pGetDaqProcessorInfoRes (cfg : PCfg) (s : PSt) : PR :=
  pPgmIdle cfg s <| pUnlocked cfg s <|
    .ok { s with st := send8 cfg.base s.st ([0xFF, pDaqProperties cfg.base] ++ leBytes 2 cfg.count ++
      leBytes 2 cfg.base.numEvents ++ [UInt8.ofNat cfg.count, 0]) }

/-- `Xcp_GetDaqListInfo_Res` after the check of the list number, src/xcp.c:1773-1789: properties
(predefined 1, fixed event 2, DAQ direction 4, inc/xcp.h:392-395), number of ODTs, and zeros for
MAX_ODT_ENTRIES and the fixed event. -/
def pGetDaqListInfoBody (cfg : PCfg) (s : PSt) (list : Nat) : PR := do
  let l ← tableAt cfg.lists list
  return { s with st := send8 cfg.base s.st [0xFF, 7, l.numOdts, 0, 0, 0, 0, 0] }

/-- `Xcp_GetDaqListInfo_Res`, src/xcp.c:1760-1790. -/
def pGetDaqListInfoRes (cfg : PCfg) (s : PSt) (p : Pdu) : PR := do
  let list ← p.word cfg.base.motorola 2
  pPgmIdle cfg s <| pUnlocked cfg s <|
    if cfg.count ≤ list % 256 then
      pGetDaqListInfoBody cfg { s with st := errorResp cfg.base s.st ERR_OUT_OF_RANGE } (list % 256)
    else pGetDaqListInfoBody cfg s (list % 256)

/-- The handler functions; FREE_DAQ and the ALLOC commands do not exist. -/
def pHandler (cfg : PCfg) (env : Env) (s : PSt) (p : Pdu) : Cmd → PR
  | .disconnect => pDisconnectRes cfg s
  | .unlock => pUnlockRes cfg env s p
  | .setDaqPtr => pSetDaqPtrRes cfg s p
  | .writeDaq => pWriteDaqRes cfg s p
  | .writeDaqMultiple => pWriteDaqMultipleRes cfg s p
  | .setDaqListMode => pSetDaqListModeRes cfg s p
  | .startStopDaqList => pStartStopDaqListRes cfg s p
  | .startStopSynch => pStartStopSynchRes cfg s p
  | .getDaqProcessorInfo => pGetDaqProcessorInfoRes cfg s
  | .getDaqListInfo => pGetDaqListInfoRes cfg s p
  | .freeDaq | .allocDaq | .allocOdt | .allocOdtEntry => do
    let st ← notImplemented cfg.base s.st
    return { s with st := st }
  | c => do
    let st ← handler cfg.base env s.st p c
    return { s with st := st }

/-- `Xcp_DispatchCommand`, src/xcp.c:945-973. -/
def pDispatch (cfg : PCfg) (env : Env) (s : PSt) (p : Pdu) : PR := do
  let cmd ← p.byte 0
  if s.st.connected then
    if s.st.busy then return { s with st := busyResponse cfg.base s.st }
    else
      let s1 := { s with st := bumpReceived cfg.base s.st }
      match cmdTable[0xFF - cmd.toNat]? with
      | some c =>
        if cfg.base.supports c then pHandler cfg env s1 p c
        else return { s1 with st := errorResp cfg.base s1.st ERR_CMD_UNKNOWN }
      | none => throw .dispatchOob
  else if cmd = 0xFF then do
    let st ← connectRes cfg.base (bumpReceived cfg.base s.st)
    return { s with st := st }
  else return { s with st := bumpReceived cfg.base s.st }

/-- Body of the entry loop of `XcpDaq_TriggerEvent`, src/xcp_daq.c:539-548. -/
def pSampleEntry (cfg : PCfg) (s : PSt) (list odtIdx : Nat) (acc : List UInt8) (e : Nat) :
    Except Fault (List UInt8) := do
  let en ← pGetOdtEntry cfg list odtIdx e
  if cfg.base.maxDto - acc.length < en.len.toNat then throw (if cfg.base.asserts then .assertFail else .dtoOob)
  if cfg.base.asserts && en.len == 0 then throw .assertFail
  return acc ++ s.st.mem.read en.addr en.len.toNat

/-- Packet of one ODT, src/xcp_daq.c:528-548. -/
def pSampleOdt (cfg : PCfg) (env : Env) (s : PSt) (mode : UInt8) (list pid odtIdx : Nat) :
    Except Fault (List UInt8) := do
  let o ← pGetOdt cfg list odtIdx
  let ts := cfg.base.timestamping && (mode &&& MODE_TIMESTAMP == MODE_TIMESTAMP)
  let start := UInt8.ofNat pid ::
    (if odtIdx = 0 ∧ ts = true then leBytes cfg.base.tsSize env.timer.toNat else [])
  (List.range o.numEntries.toNat).foldlM (pSampleEntry cfg s list odtIdx) start

/-- The ODT loop of `XcpDaq_TriggerEvent`, src/xcp_daq.c:527-552. -/
def pSampleList (cfg : PCfg) (env : Env) (s : PSt) (mode : UInt8) (list : Nat) (st : Nat × Queue) (odtIdx : Nat) :
    Except Fault (Nat × Queue) := do
  let data ← pSampleOdt cfg env s mode list st.1 odtIdx
  let q ← st.2.enqueue cfg.base data
  return ((st.1 + 1) % 256, q)

/-- The mode of the list, read for the timestamp flag, src/xcp_daq.c:513-517. -/
def pListMode (cfg : PCfg) (s : PSt) (list : Nat) : Except Fault UInt8 :=
  if cfg.base.timestamping then tableAt s.modes list else .ok 0

/-- `XcpDaq_TriggerEvent`, src/xcp_daq.c:487-554.  The mode is read for the timestamp flag only;
whether the list was started is not looked at. -/
def pTrigger (cfg : PCfg) (env : Env) (s : PSt) (ev : Nat) : PR :=
  if ¬ s.st.daq.running then .ok s
  else if cfg.base.numEvents % 256 ≤ ev then .ok s
  else do
    let list := s.st.daq.listForEvent ev
    let (found, pid) ← pGetFirstPid cfg list
    if ¬ found then return s
    else
      let l ← tableAt cfg.lists list
      let mode ← pListMode cfg s list
      let (_, q) ← (List.range l.numOdts.toNat).foldlM (pSampleList cfg env s mode list) (pid, s.st.daq.queue)
      let st ← transmit cfg.base (queueSize + 1) { s.st with daq := { s.st.daq with queue := q } }
      return { s with st := st }

/-- One operation. -/
def pStep (cfg : PCfg) (env : Env) (s : PSt) : Op → PR
  | .cmd p => pDispatch cfg env s p
  | .trigger ev => pTrigger cfg env s ev.toNat
  | .apiDisconnect => pDisconnect cfg s
  | op => do
    let st ← step cfg.base env s.st op
    return { s with st := st }

/-- A history. -/
def pRun (cfg : PCfg) : PSt → List (Env × Op) → PR
  | s, [] => .ok s
  | s, (env, op) :: rest => do
    let s1 ← pStep cfg env s op
    pRun cfg s1 rest

/-- The state after `Xcp_Init`, src/xcp.c:640-677, at program start. -/
def PSt.init (cfg : PCfg) (mem : Mem) : PSt := ⟨St.init cfg.base mem, List.replicate cfg.lists.length 0⟩

end Xcp
