import Verif.Model.DaqCmd
/-
Command dispatch and the operations of the slave.
-/
set_option autoImplicit false
namespace Xcp

/-- The handler functions. -/
def handler (cfg : Cfg) (env : Env) (s : St) (p : Pdu) : Cmd → R
  | .connect => connectRes cfg s
  | .disconnect => disconnectRes cfg s
  | .getStatus => getStatusRes cfg s
  | .synch => synchRes cfg s
  | .getCommModeInfo => getCommModeInfoRes cfg s
  | .getId => getIdRes cfg env s p
  | .getSeed => getSeedRes cfg env s p
  | .unlock => unlockRes cfg env s p
  | .setMta => setMtaRes cfg s p
  | .upload => uploadRes cfg env s p
  | .shortUpload => shortUploadRes cfg env s p
  | .buildChecksum => buildChecksumRes cfg env s p
  | .transportLayerCmd => transportLayerCmdRes cfg s p
  | .userCmd => userCmdRes cfg s
  | .download => downloadRes cfg env s p
  | .downloadNext => downloadNextRes cfg env s p
  | .downloadMax => downloadMaxRes cfg env s p
  | .shortDownload => shortDownloadRes cfg env s p
  | .modifyBits => modifyBitsRes cfg env s p
  | .clearDaqList => clearDaqListRes cfg s p
  | .setDaqPtr => setDaqPtrRes cfg s p
  | .writeDaq => writeDaqRes cfg s p
  | .setDaqListMode => setDaqListModeRes cfg s p
  | .getDaqListMode => getDaqListModeRes cfg s
  | .startStopDaqList => startStopDaqListRes cfg s p
  | .startStopSynch => startStopSynchRes cfg s p
  | .getDaqClock => getDaqClockRes cfg env s
  | .getDaqProcessorInfo => getDaqProcessorInfoRes cfg s
  | .getDaqResolutionInfo => getDaqResolutionInfoRes cfg s
  | .getDaqListInfo => getDaqListInfoRes cfg s p
  | .getDaqEventInfo => getDaqEventInfoRes cfg s p
  | .freeDaq => freeDaqRes cfg s
  | .allocDaq => allocDaqRes cfg s p
  | .allocOdt => allocOdtRes cfg s p
  | .allocOdtEntry => allocOdtEntryRes cfg s p
  | .programStart => programStartRes cfg s
  | .programClear => programClearRes cfg s p
  | .program => programRes cfg env s p
  | .programReset => programResetRes cfg s
  | .getPgmProcessorInfo => getPgmProcessorInfoRes cfg s
  | .getSectorInfo => getSectorInfoRes cfg s p
  | .programPrepare => programPrepareRes cfg s p
  | .programFormat => programFormatRes cfg s p
  | .programNext | .programMax | .programVerify => programStubRes cfg s
  | .writeDaqMultiple => writeDaqMultipleRes cfg s p
  -- named by the table but defined nowhere in the repository: a build enabling them does not link
  | .setRequest | .readDaq | .setCalPage | .getCalPage | .getPagProcessorInfo | .getSegmentInfo
  | .getPageInfo | .setSegmentMode | .getSegmentMode | .copyCalPage => notImplemented cfg s

/-- One entry of the jump table, src/xcp.c:383-635. -/
def tableEntry (cfg : Cfg) (env : Env) (s : St) (p : Pdu) (c : Cmd) : R :=
  if cfg.supports c then handler cfg env s p c else notImplemented cfg s

/-- `statistics.ctosReceived++` -/
def bumpReceived (cfg : Cfg) (s : St) : St :=
  if cfg.statistics then
    { s with stats := { s.stats with ctosReceived := (s.stats.ctosReceived + 1) % 2 ^ 32 } }
  else s

/-- `Xcp_BusyResponse`, src/xcp.c:2253-2258. -/
def busyResponse (cfg : Cfg) (s : St) : St :=
  errorResp cfg
    (if cfg.statistics then
      { s with stats := { s.stats with crosBusy := (s.stats.crosBusy + 1) % 2 ^ 32 } } else s)
    ERR_CMD_BUSY

/-- `Xcp_DispatchCommand`, src/xcp.c:945-973. -/
def dispatch (cfg : Cfg) (env : Env) (s : St) (p : Pdu) : R := do
  let cmd ← p.byte 0
  if s.connected then
    if s.busy then return busyResponse cfg s
    else
      match cmdTable[0xFF - cmd.toNat]? with
      | some c => tableEntry cfg env (bumpReceived cfg s) p c
      | none => throw .dispatchOob
  else if cmd = 0xFF then connectRes cfg (bumpReceived cfg s)
  else return bumpReceived cfg s

/-- What the environment can make the slave do.  Each operation runs to completion. -/
inductive Op where
  /-- a command packet arrives -/
  | cmd (p : Pdu)
  /-- the application calls `Xcp_MainFunction` -/
  | main
  /-- the application calls `XcpDaq_TriggerEvent` -/
  | trigger (ev : UInt8)
  /-- the application calls `Xcp_SendEventPacket` -/
  | eventPkt (code : UInt8) (data : List UInt8)
  /-- the application calls `Xcp_SendServiceRequestPacket` -/
  | servPkt (code : UInt8) (data : List UInt8)
  /-- the application changes its own memory -/
  | appWrite (addr : UInt32) (b : UInt8)
  /-- the application or the transport layer calls `Xcp_Disconnect` -/
  | apiDisconnect
deriving DecidableEq, Repr

/-- One operation. -/
def step (cfg : Cfg) (env : Env) (s : St) : Op → R
  | .cmd p => dispatch cfg env s p
  | .main => mainFunction cfg env s
  | .trigger ev => if cfg.daq then triggerEvent cfg env s ev.toNat else .ok s
  | .eventPkt code data => sendSpecial cfg s 0xFD code data
  | .servPkt code data => sendSpecial cfg s 0xFC code data
  | .appWrite a b => .ok { s with mem := s.mem.write a [b] }
  | .apiDisconnect => .ok (apiDisconnect cfg s)

/-- A history: operations with the hook answers given during each.  Stops at the first
fault. -/
def run (cfg : Cfg) : St → List (Env × Op) → R
  | s, [] => .ok s
  | s, (env, op) :: rest => do
    let s1 ← step cfg env s op
    run cfg s1 rest

end Xcp
