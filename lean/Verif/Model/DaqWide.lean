import Verif.Model.Dispatch
import Verif.Model.Validate
/-
Dynamic DAQ lists with pools of any size.  `XCP_DAQ_ENTITY_TYPE` is 8, 16 or 32 bits wide, and with it the
numbers of lists, ODTs and entries (inc/xcp.h:245-251, 559-563).  `Verif/Model/Daq.lean` is the 8-bit case.

Simplification: as in `Entity`, the union is modelled by two 32-bit words of a little-endian target with
32-bit pointers; sums of counters do not reach 2^32 because no pool of that size fits in the memory.
-/
set_option autoImplicit false
namespace Xcp

/-- The width of `XCP_DAQ_ENTITY_TYPE`, inc/xcp.h:245-251. -/
inductive Width where
  | w8 | w16 | w32
deriving DecidableEq, Repr

/-- Number of values of the type. -/
def Width.mod : Width → Nat
  | .w8 => 256
  | .w16 => 65536
  | .w32 => 4294967296

/-- The choice of the preprocessor, inc/xcp.h:245-251. -/
def Cfg.width (cfg : Cfg) : Width :=
  if cfg.maxEnt < 256 then .w8 else if cfg.maxEnt < 65536 then .w16 else .w32

/-- `daqList.numOdts` / `odt.numOdtEntries`, inc/xcp.h:842-843, 854: the first member of the union. -/
def Entity.numW (wd : Width) (e : Entity) : Nat := e.w % wd.mod

/-- `daqList.firstOdt` / `odt.firstOdtEntry`, inc/xcp.h:844, 855: a `uint16_t` at byte 2, or at byte 4 behind
a 32-bit number. -/
def Entity.firstW (wd : Width) (e : Entity) : Nat :=
  match wd with
  | .w32 => e.len % 65536
  | _ => e.w / 65536 % 65536

/-- store to the first member -/
def Entity.setNumW (wd : Width) (e : Entity) (n : Nat) : Entity :=
  { e with w := e.w / wd.mod * wd.mod + n % wd.mod }

/-- store to the second member -/
def Entity.setFirstW (wd : Width) (e : Entity) (n : Nat) : Entity :=
  match wd with
  | .w32 => { e with len := e.len / 65536 * 65536 + n % 65536 }
  | _ => { e with w := (n % 65536) * 65536 + e.w % 65536 }

/-- The comparison `x > count - 1` (src/xcp_daq.c:426, 454, 458, 462, 666): in `int` for the narrow types, in
`unsigned int` for the 32-bit type. -/
def beyond (wd : Width) (x count : Nat) : Bool :=
  match wd with
  | .w32 => decide ((count + 4294967295) % 4294967296 < x)
  | _ => decide (count ≤ x)

/-- `XcpDaq_Alloc`, src/xcp_daq.c:183-206. -/
def wAllocDaq (cfg : Cfg) (d : Daq) (n : Nat) : Daq × UInt8 :=
  if ¬ allocOk d.allocState .allocDaq then
    (if cfg.resetOnSeqErr then daqInit d else d, ERR_SEQUENCE)
  else if d.entityCount + n ≤ cfg.maxEnt then
    let d1 := d.mapRange d.entityCount n (fun e => { e with kind := 1 }.setNumW cfg.width 0)
    ({ d1 with
        allocState := .afterAllocDaq
        listCount := (d.listCount + n) % cfg.width.mod
        entityCount := (d.entityCount + n) % cfg.width.mod }, ERR_SUCCESS)
  else (d, ERR_MEMORY_OVERFLOW)

/-- `XcpDaq_AllocOdt`, src/xcp_daq.c:208-232. -/
def wAllocOdt (cfg : Cfg) (d : Daq) (list n : Nat) : Except Fault (Daq × UInt8) :=
  if ¬ allocOk d.allocState .allocOdt then
    .ok (if cfg.resetOnSeqErr then daqInit d else d, ERR_SEQUENCE)
  else if d.entityCount + n ≤ cfg.maxEnt then do
    let d1 := d.mapRange d.entityCount n (fun e => { e with kind := 2 })
    let l ← d1.ent cfg list
    let d2 := d1.setEnt list ((l.setNumW cfg.width (l.numW cfg.width + n)).setFirstW cfg.width d.entityCount)
    return ({ d2 with
        allocState := .afterAllocOdt
        odtCount := (d.odtCount + n) % cfg.width.mod
        entityCount := (d.entityCount + n) % cfg.width.mod }, ERR_SUCCESS)
  else .ok (d, ERR_MEMORY_OVERFLOW)

/-- `XcpDaq_AllocOdtEntry`, src/xcp_daq.c:234-261. -/
def wAllocOdtEntry (cfg : Cfg) (d : Daq) (list odtNo n : Nat) : Except Fault (Daq × UInt8) :=
  if ¬ allocOk d.allocState .allocOdtEntry then
    .ok (if cfg.resetOnSeqErr then daqInit d else d, ERR_SEQUENCE)
  else if d.entityCount + n ≤ cfg.maxEnt then do
    let d1 := d.mapRange d.entityCount n (fun e => { e with kind := 3 })
    let l ← d1.ent cfg list
    let odt := (l.firstW cfg.width + odtNo % 65536) % cfg.width.mod
    let o ← d1.ent cfg odt
    let d2 := d1.setEnt odt ((o.setFirstW cfg.width d.entityCount).setNumW cfg.width n)
    return ({ d2 with
        allocState := .afterAllocOdtEntry
        entityCount := (d.entityCount + n) % cfg.width.mod }, ERR_SUCCESS)
  else .ok (d, ERR_MEMORY_OVERFLOW)

/-- `XcpDaq_GetOdt`, src/xcp_daq.c:617-632. -/
def wGetOdt (cfg : Cfg) (d : Daq) (list odtNo : Nat) : Except Fault Entity := do
  let l ← d.ent cfg list
  d.ent cfg ((l.firstW cfg.width % cfg.width.mod + odtNo) % cfg.width.mod)

/-- Index computed by `XcpDaq_GetOdtEntry`, src/xcp_daq.c:309-329: the entry number is cut to 16 bits. -/
def wGetOdtEntryIdx (cfg : Cfg) (d : Daq) (list odtNo entry : Nat) : Except Fault Nat := do
  let o ← wGetOdt cfg d list odtNo
  return (o.firstW cfg.width + entry % 65536) % cfg.width.mod

/-- `XcpDaq_ValidateOdtEntry`, src/xcp_daq.c:447-468. -/
def wValidateOdtEntry (cfg : Cfg) (d : Daq) (list odtNo entry : Nat) : Except Fault Bool :=
  if beyond cfg.width list d.listCount then .ok false
  else do
    let l ← d.ent cfg list
    if beyond cfg.width odtNo (l.numW cfg.width) then return false
    else
      let o ← wGetOdt cfg d list odtNo
      return ! beyond cfg.width entry (o.numW cfg.width)

/-- `XcpDaq_GetFirstPid`, src/xcp_daq.c:660-676: found flag and first PID, as wide as an ODT number. -/
def wGetFirstPid (cfg : Cfg) (d : Daq) (list : Nat) : Except Fault (Bool × Nat) :=
  if beyond cfg.width list d.listCount then .ok (false, 0)
  else do
    let pid ← (List.range list).foldlM (fun acc i => do
      let l ← d.ent cfg i
      return (acc + l.numW cfg.width) % cfg.width.mod) 0
    return (true, pid)

/-- `Xcp_WriteDaqEntry`, src/xcp.c:2341-2362. -/
def wWriteDaqEntry (cfg : Cfg) (d : Daq) (size : UInt8) (addr : UInt32) : Except Fault Daq := do
  let i ← wGetOdtEntryIdx cfg d d.ptr.list d.ptr.odt d.ptr.entry
  let e ← d.ent cfg i
  let d1 := d.setEnt i ({ e with len := size.toNat }.setAddr addr)
  return { d1 with ptr := { d.ptr with entry := (d.ptr.entry + 1) % cfg.width.mod } }

/-- The loop of `XcpDaq_ValidateList`, src/xcp_daq.c:435-441.  The loop variable is a `uint8_t` and the bound an
ODT number: with 256 ODTs or more the condition never fails, so after 256 rounds without a hit the loop goes on
forever.  `k` rounds are left. -/
def wAnyEntries (cfg : Cfg) (d : Daq) (list numOdts : Nat) : Nat → Nat → Except Fault Bool
  | _, 0 => if 256 ≤ numOdts then .error .noReturn else .ok false
  | idx, k + 1 => do
    let o ← wGetOdt cfg d list idx
    if o.numW cfg.width ≠ 0 then return true else wAnyEntries cfg d list numOdts (idx + 1) k

/-- `XcpDaq_ValidateList`, src/xcp_daq.c:419-446. -/
def wValidateList (cfg : Cfg) (d : Daq) (list : Nat) : Except Fault Bool :=
  if beyond cfg.width list d.listCount then .ok false
  else do
    let l ← d.ent cfg list
    if l.numW cfg.width = 0 then return false
    else wAnyEntries cfg d list (l.numW cfg.width) 0 (min (l.numW cfg.width) 256)

/-- Entry loop of `XcpDaq_TriggerEvent`, src/xcp_daq.c:539-548. -/
def wSampleEntry (cfg : Cfg) (s : St) (list odtIdx : Nat) (acc : List UInt8) (e : Nat) :
    Except Fault (List UInt8) := do
  let i ← wGetOdtEntryIdx cfg s.daq list odtIdx e
  let en ← s.daq.ent cfg i
  if cfg.maxDto - acc.length < en.len then throw (if cfg.asserts then .assertFail else .dtoOob)
  if cfg.asserts && en.len == 0 then throw .assertFail
  return acc ++ s.mem.read en.addr en.len

/-- Packet of one ODT, src/xcp_daq.c:528-548: the PID is stored in a byte. -/
def wSampleOdt (cfg : Cfg) (env : Env) (s : St) (list pid odtIdx : Nat) : Except Fault (List UInt8) := do
  let o ← wGetOdt cfg s.daq list odtIdx
  let ts := cfg.timestamping && (s.daq.mode &&& MODE_TIMESTAMP == MODE_TIMESTAMP)
  let start := UInt8.ofNat pid ::
    (if odtIdx = 0 ∧ ts = true then leBytes cfg.tsSize env.timer.toNat else [])
  (List.range (o.numW cfg.width)).foldlM (wSampleEntry cfg s list odtIdx) start

/-- The ODT loop of `XcpDaq_TriggerEvent`, src/xcp_daq.c:527-552. -/
def wSampleList (cfg : Cfg) (env : Env) (s : St) (list : Nat) (st : Nat × Queue) (odtIdx : Nat) :
    Except Fault (Nat × Queue) := do
  let data ← wSampleOdt cfg env s list st.1 odtIdx
  let q ← st.2.enqueue cfg data
  return ((st.1 + 1) % cfg.width.mod, q)

/-- `XcpDaq_TriggerEvent`, src/xcp_daq.c:487-554. -/
def wTriggerEvent (cfg : Cfg) (env : Env) (s : St) (ev : Nat) : R :=
  if ¬ s.daq.running then .ok s
  else if cfg.numEvents % 256 ≤ ev then .ok s
  else do
    let list := s.daq.listForEvent ev
    let (found, pid) ← wGetFirstPid cfg s.daq list
    if ¬ found then return s
    else
      let l ← s.daq.ent cfg list
      let (_, q) ← (List.range (l.numW cfg.width)).foldlM (wSampleList cfg env s list) (pid, s.daq.queue)
      transmit cfg (queueSize + 1) { s with daq := { s.daq with queue := q } }

/-! ### Commands -/

/-- `Xcp_SetDaqPtr_Res`, src/xcp.c:1512-1541, `XcpDaq_SetPointer`, src/xcp_daq.c:381-390. -/
def wSetDaqPtrRes (cfg : Cfg) (s : St) (p : Pdu) : R :=
  assertDaqStopped cfg s <| assertPgmIdle cfg s <| assertUnlocked cfg s RES_DAQ do
    let list ← p.word cfg.motorola 2
    let odt ← p.byte 4
    let entry ← p.byte 5
    let ok ← wValidateOdtEntry cfg s.daq (list % cfg.width.mod) odt.toNat entry.toNat
    if ok then
      return positive cfg { s with daq := { s.daq with ptr := ⟨list % cfg.width.mod, odt.toNat, entry.toNat⟩ } }
    else return errorResp cfg s ERR_OUT_OF_RANGE

/-- `Xcp_WriteDaq_Res`, src/xcp.c:1543-1563. -/
def wWriteDaqRes (cfg : Cfg) (s : St) (p : Pdu) : R := do
  let _ ← p.byte 1
  let size ← p.byte 2
  let _ ← p.byte 3
  let addr ← p.dword cfg.motorola cfg.wrapv 4
  assertDaqStopped cfg s <| assertPgmIdle cfg s <| assertUnlocked cfg s RES_DAQ do
    let d ← wWriteDaqEntry cfg s.daq size addr
    return positive cfg { s with daq := d }

/-- Loop body of `Xcp_WriteDaqMultiple_Res`, src/xcp.c:1590-1597. -/
def wWriteDaqMultipleBody (cfg : Cfg) (p : Pdu) (d : Daq) (i : Nat) : Except Fault Daq := do
  let off := (i * 8 + 2) % 256
  let _ ← p.byte off
  let size ← p.byte (off + 1)
  let addr ← p.dword cfg.motorola cfg.wrapv (off + 2)
  let _ ← p.byte (off + 6)
  wWriteDaqEntry cfg d size addr

/-- `Xcp_WriteDaqMultiple_Res`, src/xcp.c:1566-1599. -/
def wWriteDaqMultipleRes (cfg : Cfg) (s : St) (p : Pdu) : R := do
  let n ← p.byte 1
  if cfg.maxCto < n.toNat * 8 + 2 then return sendResult cfg s ERR_OUT_OF_RANGE
  else
    assertDaqStopped cfg s <| assertPgmIdle cfg s <| assertUnlocked cfg s RES_DAQ do
      let d ← (List.range n.toNat).foldlM (wWriteDaqMultipleBody cfg p) s.daq
      return positive cfg { s with daq := d }

/-- `Xcp_SetDaqListMode_Res`, src/xcp.c:1603-1669, and `XcpDaq_AddEventChannel`, src/xcp_daq.c:477-481:
`XcpDaq_ListForEvent` (src/xcp_daq.c:146) is an array of `uint8_t` whatever the width of list numbers, so the
list number loses its upper bits. -/
def wSetDaqListModeRes (cfg : Cfg) (s : St) (p : Pdu) : R := do
  let mode ← p.byte 1
  let list ← p.word cfg.motorola 2
  let ev ← p.word cfg.motorola 4
  let prescaler ← p.byte 6
  let _ ← p.byte 7
  assertDaqStopped cfg s <| assertPgmIdle cfg s <| assertUnlocked cfg s RES_DAQ <|
    if mode &&& MODE_DIRECTION = MODE_DIRECTION then .ok (errorResp cfg s ERR_CMD_SYNTAX)
    else if mode &&& MODE_ALTERNATING = MODE_ALTERNATING then .ok (errorResp cfg s ERR_CMD_SYNTAX)
    else if 1 < prescaler then .ok (errorResp cfg s ERR_OUT_OF_RANGE)
    else do
      let d ← addEventChannel cfg s.daq (list % cfg.width.mod % 256) ev
      return positive cfg { s with daq := { d with mode := newMode d.mode mode } }

/-- The end of `Xcp_StartStopDaqList_Res`, src/xcp.c:1696-1698: `Xcp_Send8` takes a byte. -/
def wStartStopDaqListEnd (cfg : Cfg) (s : St) (list : Nat) : R := do
  let (_, pid) ← wGetFirstPid cfg s.daq list
  return send8 cfg s [0xFF, UInt8.ofNat pid, 0, 0, 0, 0, 0, 0]

/-- `Xcp_StartStopDaqList_Res` after the check of the list number, src/xcp.c:1685-1698. -/
def wStartStopDaqListBody (cfg : Cfg) (s : St) (mode : UInt8) (list : Nat) : R :=
  if mode = 0 then wStartStopDaqListEnd cfg s list
  else if mode = 1 then wStartStopDaqListEnd cfg s list
  else if mode = 2 then
    wStartStopDaqListEnd cfg { s with daq := { s.daq with mode := s.daq.mode ||| MODE_SELECTED } } list
  else .ok (errorResp cfg s ERR_OUT_OF_RANGE)

/-- `Xcp_StartStopDaqList_Res`, src/xcp.c:1671-1699. -/
def wStartStopDaqListRes (cfg : Cfg) (s : St) (p : Pdu) : R := do
  let mode ← p.byte 1
  let list ← p.word cfg.motorola 2
  assertPgmIdle cfg s <| assertUnlocked cfg s RES_DAQ <|
    if s.daq.listCount ≤ list % cfg.width.mod then
      wStartStopDaqListBody cfg (errorResp cfg s ERR_OUT_OF_RANGE) mode (list % cfg.width.mod)
    else wStartStopDaqListBody cfg s mode (list % cfg.width.mod)

/-- `Xcp_GetDaqListInfo_Res`, src/xcp.c:1760-1790. -/
def wGetDaqListInfoRes (cfg : Cfg) (s : St) (p : Pdu) : R := do
  let list ← p.word cfg.motorola 2
  assertPgmIdle cfg s <| assertUnlocked cfg s RES_DAQ <|
    if s.daq.listCount ≤ list % cfg.width.mod then
      getDaqListInfoBody cfg (errorResp cfg s ERR_OUT_OF_RANGE) (list % cfg.width.mod)
    else getDaqListInfoBody cfg s (list % cfg.width.mod)

/-- `Xcp_AllocDaq_Res`, src/xcp.c:1807-1815. -/
def wAllocDaqRes (cfg : Cfg) (s : St) (p : Pdu) : R :=
  assertPgmIdle cfg s <| assertUnlocked cfg s RES_DAQ do
    let n ← p.word cfg.motorola 2
    let r := wAllocDaq cfg s.daq (n % cfg.width.mod)
    return sendResult cfg { s with daq := r.1 } r.2

/-- `Xcp_AllocOdt_Res`, src/xcp.c:1821-1831. -/
def wAllocOdtRes (cfg : Cfg) (s : St) (p : Pdu) : R :=
  assertPgmIdle cfg s <| assertUnlocked cfg s RES_DAQ do
    let list ← p.word cfg.motorola 2
    let n ← p.byte 4
    let r ← wAllocOdt cfg s.daq (list % cfg.width.mod) n.toNat
    return sendResult cfg { s with daq := r.1 } r.2

/-- `Xcp_AllocOdtEntry_Res`, src/xcp.c:1837-1849. -/
def wAllocOdtEntryRes (cfg : Cfg) (s : St) (p : Pdu) : R :=
  assertPgmIdle cfg s <| assertUnlocked cfg s RES_DAQ do
    let list ← p.word cfg.motorola 2
    let odt ← p.byte 4
    let n ← p.byte 5
    let r ← wAllocOdtEntry cfg s.daq (list % cfg.width.mod) odt.toNat n.toNat
    return sendResult cfg { s with daq := r.1 } r.2

/-- The handler functions, src/xcp.c:456-630: those that touch no list, ODT or entry number are the same for
every width. -/
def wHandler (cfg : Cfg) (env : Env) (s : St) (p : Pdu) : Cmd → R
  | .setDaqPtr => wSetDaqPtrRes cfg s p
  | .writeDaq => wWriteDaqRes cfg s p
  | .writeDaqMultiple => wWriteDaqMultipleRes cfg s p
  | .setDaqListMode => wSetDaqListModeRes cfg s p
  | .startStopDaqList => wStartStopDaqListRes cfg s p
  | .getDaqListInfo => wGetDaqListInfoRes cfg s p
  | .allocDaq => wAllocDaqRes cfg s p
  | .allocOdt => wAllocOdtRes cfg s p
  | .allocOdtEntry => wAllocOdtEntryRes cfg s p
  | c => handler cfg env s p c

/-- `Xcp_DispatchCommand`, src/xcp.c:945-973. -/
def wDispatch (cfg : Cfg) (env : Env) (s : St) (p : Pdu) : R := do
  let cmd ← p.byte 0
  if s.connected then
    if s.busy then return busyResponse cfg s
    else
      match cmdTable[0xFF - cmd.toNat]? with
      | some c => if cfg.supports c then wHandler cfg env (bumpReceived cfg s) p c else notImplemented cfg (bumpReceived cfg s)
      | none => throw .dispatchOob
  else if cmd = 0xFF then connectRes cfg (bumpReceived cfg s)
  else return bumpReceived cfg s

/-- One operation. -/
def wStep (cfg : Cfg) (env : Env) (s : St) : Op → R
  | .cmd p => wDispatch cfg env s p
  | .trigger ev => if cfg.daq then wTriggerEvent cfg env s ev.toNat else .ok s
  | op => step cfg env s op

/-- A history. -/
def wRun (cfg : Cfg) : St → List (Env × Op) → R
  | s, [] => .ok s
  | s, (env, op) :: rest => do
    let s1 ← wStep cfg env s op
    wRun cfg s1 rest

end Xcp
