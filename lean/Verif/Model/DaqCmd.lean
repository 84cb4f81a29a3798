import Verif.Model.Cal
/-
DAQ commands, src/xcp.c:1496-1930.
-/
set_option autoImplicit false
namespace Xcp

/-- `Xcp_ClearDaqList_Res`, src/xcp.c:1500-1510: nothing is cleared. -/
def clearDaqListRes (cfg : Cfg) (s : St) (p : Pdu) : R := do
  let _ ← p.word cfg.motorola 2
  assertPgmIdle cfg s <| assertUnlocked cfg s RES_DAQ <| .ok (positive cfg s)

/-- `Xcp_SetDaqPtr_Res`, src/xcp.c:1512-1541, `XcpDaq_SetPointer`, src/xcp_daq.c:381-390.
The list number is cut to 8 bits. -/
def setDaqPtrRes (cfg : Cfg) (s : St) (p : Pdu) : R :=
  assertDaqStopped cfg s <| assertPgmIdle cfg s <| assertUnlocked cfg s RES_DAQ do
    let list ← p.word cfg.motorola 2
    let odt ← p.byte 4
    let entry ← p.byte 5
    let ok ← validateOdtEntry cfg s.daq (list % 256) odt.toNat entry.toNat
    if ok then
      return positive cfg { s with daq := { s.daq with ptr := ⟨list % 256, odt.toNat, entry.toNat⟩ } }
    else return errorResp cfg s ERR_OUT_OF_RANGE

/-- `Xcp_WriteDaq_Res`, src/xcp.c:1543-1563. -/
def writeDaqRes (cfg : Cfg) (s : St) (p : Pdu) : R := do
  let _ ← p.byte 1
  let size ← p.byte 2
  let _ ← p.byte 3
  let addr ← p.dword cfg.motorola cfg.wrapv 4
  assertDaqStopped cfg s <| assertPgmIdle cfg s <| assertUnlocked cfg s RES_DAQ do
    let d ← writeDaqEntry cfg s.daq size addr
    return positive cfg { s with daq := d }

/-- Loop body of `Xcp_WriteDaqMultiple_Res`, src/xcp.c:1590-1597.  `daq_offset` is a
`uint8_t`. -/
def writeDaqMultipleBody (cfg : Cfg) (p : Pdu) (d : Daq) (i : Nat) : Except Fault Daq := do
  let off := (i * 8 + 2) % 256
  let _ ← p.byte off
  let size ← p.byte (off + 1)
  let addr ← p.dword cfg.motorola cfg.wrapv (off + 2)
  let _ ← p.byte (off + 6)
  writeDaqEntry cfg d size addr

/-- `Xcp_WriteDaqMultiple_Res`, src/xcp.c:1566-1599. -/
def writeDaqMultipleRes (cfg : Cfg) (s : St) (p : Pdu) : R := do
  let n ← p.byte 1
  if cfg.maxCto < n.toNat * 8 + 2 then return sendResult cfg s ERR_OUT_OF_RANGE
  else
    assertDaqStopped cfg s <| assertPgmIdle cfg s <| assertUnlocked cfg s RES_DAQ do
      let d ← (List.range n.toNat).foldlM (writeDaqMultipleBody cfg p) s.daq
      return positive cfg { s with daq := d }

/-- The six `Xcp_SetResetBit8` calls, src/xcp.c:1658-1663. -/
def newMode (old mode : UInt8) : UInt8 :=
  [MODE_TIMESTAMP, MODE_ALTERNATING, MODE_DIRECTION, MODE_PID_OFF, MODE_SELECTED, MODE_STARTED].foldl
    (fun m f => setResetBit8 m mode f) old

/-- `Xcp_SetDaqListMode_Res`, src/xcp.c:1603-1669 (`XCP_DAQ_ALTERNATING_SUPPORTED` and
`XCP_DAQ_PRESCALER_SUPPORTED` are defined nowhere and so count as off).  Neither the
list nor the event number is checked. -/
def setDaqListModeRes (cfg : Cfg) (s : St) (p : Pdu) : R := do
  let mode ← p.byte 1
  let list ← p.word cfg.motorola 2
  let ev ← p.word cfg.motorola 4
  let prescaler ← p.byte 6
  let _ ← p.byte 7
  assertDaqStopped cfg s <| assertPgmIdle cfg s <| assertUnlocked cfg s RES_DAQ <|
    if mode &&& MODE_DIRECTION = MODE_DIRECTION then .ok (errorResp cfg s ERR_CMD_SYNTAX)
    else if mode &&& MODE_ALTERNATING = MODE_ALTERNATING then .ok (errorResp cfg s ERR_CMD_SYNTAX)
    else if 1 < prescaler then .ok (errorResp cfg s ERR_OUT_OF_RANGE)
    else do
      let d ← addEventChannel cfg s.daq (list % 256) ev
      return positive cfg { s with daq := { d with mode := newMode d.mode mode } }

/-- The end of `Xcp_StartStopDaqList_Res`, src/xcp.c:1696-1698. -/
def startStopDaqListEnd (cfg : Cfg) (s : St) (list : Nat) : R := do
  let (_, pid) ← getFirstPid cfg s.daq list
  return send8 cfg s [0xFF, UInt8.ofNat pid, 0, 0, 0, 0, 0, 0]

/-- `Xcp_StartStopDaqList_Res` after the check of the list number, src/xcp.c:1685-1698.
Modes 0 (stop) and 1 (start) have empty bodies. -/
def startStopDaqListBody (cfg : Cfg) (s : St) (mode : UInt8) (list : Nat) : R :=
  if mode = 0 then startStopDaqListEnd cfg s list
  else if mode = 1 then startStopDaqListEnd cfg s list
  else if mode = 2 then
    startStopDaqListEnd cfg { s with daq := { s.daq with mode := s.daq.mode ||| MODE_SELECTED } } list
  else .ok (errorResp cfg s ERR_OUT_OF_RANGE)

/-- `Xcp_StartStopDaqList_Res`, src/xcp.c:1671-1699.  After the out-of-range error the
function goes on. -/
def startStopDaqListRes (cfg : Cfg) (s : St) (p : Pdu) : R := do
  let mode ← p.byte 1
  let list ← p.word cfg.motorola 2
  assertPgmIdle cfg s <| assertUnlocked cfg s RES_DAQ <|
    if s.daq.listCount ≤ list % 256 then
      startStopDaqListBody cfg (errorResp cfg s ERR_OUT_OF_RANGE) mode (list % 256)
    else startStopDaqListBody cfg s mode (list % 256)

/-- `Xcp_StartStopSynch_Res`, src/xcp.c:1701-1721. -/
def startStopSynchRes (cfg : Cfg) (s : St) (p : Pdu) : R := do
  let mode ← p.byte 1
  assertPgmIdle cfg s <| assertUnlocked cfg s RES_DAQ <|
    if mode = 1 then
      .ok (positive cfg { s with daq := { startStopLists true s.daq with running := true } })
    else if mode = 0 then
      .ok (positive cfg { s with daq := { startStopLists false s.daq with running := false } })
    else if mode = 2 then
      .ok (positive cfg { s with daq := startStopLists false s.daq })
    else .ok (errorResp cfg s ERR_OUT_OF_RANGE)

/-- `Xcp_GetDaqListMode_Res`, src/xcp.c:1723-1729: an empty positive response. -/
def getDaqListModeRes (cfg : Cfg) (s : St) : R :=
  assertPgmIdle cfg s <| assertUnlocked cfg s RES_DAQ <| .ok (positive cfg s)

/-- `Xcp_GetDaqProcessorInfo_Res`, src/xcp.c:1733-1754. -/
def getDaqProcessorInfoRes (cfg : Cfg) (s : St) : R :=
  assertPgmIdle cfg s <| assertUnlocked cfg s RES_DAQ <|
    .ok (send8 cfg s ([0xFF, daqProperties cfg] ++ leBytes 2 s.daq.listCount ++
      leBytes 2 cfg.numEvents ++ [0, 0]))

/-- `Xcp_GetDaqListInfo_Res` after the check of the list number, src/xcp.c:1773-1789 (no
predefined lists). -/
def getDaqListInfoBody (cfg : Cfg) (s : St) (list : Nat) : R := do
  let _ ← s.daq.ent cfg list
  return errorResp cfg s ERR_CMD_SYNTAX

/-- `Xcp_GetDaqListInfo_Res`, src/xcp.c:1760-1790.  After the out-of-range error the
function goes on. -/
def getDaqListInfoRes (cfg : Cfg) (s : St) (p : Pdu) : R := do
  let list ← p.word cfg.motorola 2
  assertPgmIdle cfg s <| assertUnlocked cfg s RES_DAQ <|
    if s.daq.listCount ≤ list % 256 then
      getDaqListInfoBody cfg (errorResp cfg s ERR_OUT_OF_RANGE) (list % 256)
    else getDaqListInfoBody cfg s (list % 256)

/-- `Xcp_FreeDaq_Res`, src/xcp.c:1796-1801. -/
def freeDaqRes (cfg : Cfg) (s : St) : R :=
  assertUnlocked cfg s RES_DAQ <| assertPgmIdle cfg s <|
    .ok (sendResult cfg { s with daq := daqFree s.daq } (daqFreeResult s.daq))

/-- `Xcp_AllocDaq_Res`, src/xcp.c:1807-1815: the count is cut to 8 bits. -/
def allocDaqRes (cfg : Cfg) (s : St) (p : Pdu) : R :=
  assertPgmIdle cfg s <| assertUnlocked cfg s RES_DAQ do
    let n ← p.word cfg.motorola 2
    let r := allocDaq cfg s.daq (n % 256)
    return sendResult cfg { s with daq := r.1 } r.2

/-- `Xcp_AllocOdt_Res`, src/xcp.c:1821-1831. -/
def allocOdtRes (cfg : Cfg) (s : St) (p : Pdu) : R :=
  assertPgmIdle cfg s <| assertUnlocked cfg s RES_DAQ do
    let list ← p.word cfg.motorola 2
    let n ← p.byte 4
    let r ← allocOdt cfg s.daq (list % 256) n.toNat
    return sendResult cfg { s with daq := r.1 } r.2

/-- `Xcp_AllocOdtEntry_Res`, src/xcp.c:1837-1849. -/
def allocOdtEntryRes (cfg : Cfg) (s : St) (p : Pdu) : R :=
  assertPgmIdle cfg s <| assertUnlocked cfg s RES_DAQ do
    let list ← p.word cfg.motorola 2
    let odt ← p.byte 4
    let n ← p.byte 5
    let r ← allocOdtEntry cfg s.daq (list % 256) odt.toNat n.toNat
    return sendResult cfg { s with daq := r.1 } r.2

/-- `Xcp_GetDaqClock_Res`, src/xcp.c:1855-1870 (`XCP_DAQ_CLOCK_ACCESS_ALWAYS_SUPPORTED` is
defined nowhere, so the access check is always compiled in). -/
def getDaqClockRes (cfg : Cfg) (env : Env) (s : St) : R :=
  assertPgmIdle cfg s <| assertUnlocked cfg s RES_DAQ <|
    .ok (send8 cfg s ([0xFF, 0, 0, 0] ++ leBytes 4 env.timer.toNat))

/-- `Xcp_GetDaqResolutionInfo_Res`, src/xcp.c:1876-1890. -/
def getDaqResolutionInfoRes (cfg : Cfg) (s : St) : R :=
  assertPgmIdle cfg s <| assertUnlocked cfg s RES_DAQ <|
    .ok (send8 cfg s [0xFF, 1, UInt8.ofNat (cfg.maxDto - 1), 1, UInt8.ofNat (cfg.maxDto - 1), 0x34, 1, 0])

/-- `Xcp_GetDaqEventInfo_Res`, src/xcp.c:1896-1926: no PGM check. -/
def getDaqEventInfoRes (cfg : Cfg) (s : St) (p : Pdu) : R := do
  let ev ← p.word cfg.motorola 2
  assertUnlocked cfg s RES_DAQ <|
    if cfg.numEvents % 256 ≤ ev then .ok (sendResult cfg s ERR_OUT_OF_RANGE)
    else
      let e := cfg.events ev
      match e.name with
      | some a =>
        if e.nameLen = 0 then
          .ok (send8 cfg s [0xFF, e.properties, 1, 0, e.cycle, e.timeunit, 0])
        else
          .ok (send8 cfg { s with mta := ⟨0, a⟩ }
            [0xFF, e.properties, 1, e.nameLen, e.cycle, e.timeunit, 0])
      | none => .ok (send8 cfg s [0xFF, e.properties, 1, 0, e.cycle, e.timeunit, 0])

end Xcp
