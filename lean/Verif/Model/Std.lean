import Verif.Model.Daq
import Verif.Model.Checksum
/-
Standard commands, src/xcp.c:679-718, 858-937, 995-1357, and src/xcp_checksum.c:328-388.
-/
set_option autoImplicit false
namespace Xcp

/-- `Xcp_DefaultResourceProtection`, src/xcp.c:679-696. -/
def defaultProt (cfg : Cfg) : UInt8 :=
  (if cfg.protCal || cfg.protPag then RES_CAL_PAG else 0) |||
  (if cfg.protDaq then RES_DAQ else 0) |||
  (if cfg.protStim then RES_STIM else 0) |||
  (if cfg.protPgm then RES_PGM else 0)

/-- `Xcp_DefaultResourceProtection`, src/xcp.c:679-696. -/
def defaultResourceProtection (cfg : Cfg) (s : St) : St :=
  if cfg.resourceProtection then { s with resProt := defaultProt cfg, seedReq := 0 } else s

/-- `Xcp_Disconnect`, src/xcp.c:698-704.  (`XcpTl_ReleaseConnection` concerns the
transport layer.) -/
def apiDisconnect (cfg : Cfg) (s : St) : St :=
  let s := defaultResourceProtection cfg s
  if cfg.daq then { s with daq := daqInit s.daq } else s

/-- The state after `Xcp_Init`, src/xcp.c:640-677, at program start. -/
def St.init (cfg : Cfg) (mem : Mem) : St :=
  { connected := false
    busy := false
    daq := daqInit
      { running := false, ptr := ⟨0, 0, 0⟩, allocState := .idle, entities := fun _ => Entity.zero
        entityCount := 0, listCount := 0, odtCount := 0, mode := 0, listForEvent := fun _ => 0
        queue := queueInit }
    pgm := .uninit
    counter := 0
    resProt := if cfg.resourceProtection then defaultProt cfg else 0
    seedReq := 0
    mta := ⟨0, 0⟩
    slaveBlk := ⟨false, 0⟩
    masterBlk := ⟨false, 0⟩
    stats := ⟨0, 0, 0⟩
    ck := ⟨.idle, 0, 0, 0⟩
    ctoOut := List.replicate cfg.maxCto 0
    mem := mem
    tx := [] }

/-- `Xcp_CommandNotImplemented_Res`, src/xcp.c:995-998. -/
def notImplemented (cfg : Cfg) (s : St) : R := .ok (errorResp cfg s ERR_CMD_UNKNOWN)

/-- The resource byte of the CONNECT response, src/xcp.c:1011-1022. -/
def connectResource (cfg : Cfg) : UInt8 :=
  (if cfg.pgm then RES_PGM else 0) ||| (if cfg.daq then RES_DAQ else 0) |||
  (if cfg.cal || cfg.pag then RES_CAL_PAG else 0) ||| (if cfg.stim then RES_STIM else 0)

/-- COMM_MODE_BASIC, src/xcp.c:1024-1031. -/
def commModeBasic (cfg : Cfg) : UInt8 :=
  (if cfg.motorola then 1 else 0) ||| cfg.granularity |||
  (if cfg.slaveBlock then 0x40 else 0) ||| (if cfg.on .getCommModeInfo then 0x80 else 0)

/-- `Xcp_Connect_Res`, src/xcp.c:1000-1042. -/
def connectRes (cfg : Cfg) (s : St) : R :=
  .ok (send8 cfg { s with connected := true }
    ([0xFF, connectResource cfg, commModeBasic cfg, UInt8.ofNat cfg.maxCto] ++
      leBytes 2 cfg.maxDto ++ [1, 1]))

/-- `Xcp_Disconnect_Res`, src/xcp.c:1044-1050. -/
def disconnectRes (cfg : Cfg) (s : St) : R :=
  assertPgmIdle cfg s (.ok (apiDisconnect cfg (positive cfg s)))

/-- `Xcp_GetStatus_Res`, src/xcp.c:1052-1067. -/
def getStatusRes (cfg : Cfg) (s : St) : R :=
  .ok (send8 cfg s [0xFF, 0, if cfg.resourceProtection then s.resProt else 0, 0, 0, 0])

/-- `Xcp_Synch_Res`, src/xcp.c:1069-1072. -/
def synchRes (cfg : Cfg) (s : St) : R := .ok (errorResp cfg s ERR_CMD_SYNCH)

/-- `Xcp_GetCommModeInfo_Res`, src/xcp.c:1076-1094 (interleaved mode off; driver version
10, src/xcp.c:38). -/
def getCommModeInfoRes (cfg : Cfg) (s : St) : R :=
  .ok (send8 cfg s [0xFF, 0, if cfg.masterBlock then 1 else 0, 0, UInt8.ofNat cfg.maxBs, cfg.minSt,
    cfg.queueSizeInfo, 10])

/-- `Xcp_GetId_Res`, src/xcp.c:1100-1135.  `none` means not available. -/
def getIdLookup (cfg : Cfg) (env : Env) (ty : UInt8) : Option (UInt32 × Nat) :=
  if ty = 0 then some cfg.id0
  else if ty = 1 then some cfg.id1
  else if cfg.getIdHook then env.getId ty
  else none

/-- `Xcp_GetId_Res`, src/xcp.c:1100-1135. -/
def getIdRes (cfg : Cfg) (env : Env) (s : St) (p : Pdu) : R := do
  let ty ← p.byte 1
  match getIdLookup cfg env ty with
  | some (a, n) => return send8 cfg { s with mta := ⟨0, a⟩ } ([0xFF, 0, 0, 0] ++ leBytes 4 n)
  | none => return send8 cfg s ([0xFF, 0, 0, 0] ++ leBytes 4 0)

/-- The `switch` of `Xcp_GetSeed_Res`, src/xcp.c:1150-1182: resources a seed can be
requested for. -/
def seedResourceOk (cfg : Cfg) (r : UInt8) : Bool :=
  (r == RES_PGM && cfg.pgm) || (r == RES_STIM && cfg.stim) || (r == RES_DAQ && cfg.daq) ||
  (r == RES_CAL_PAG && (cfg.cal || cfg.pag))

/-- `Xcp_GetSeed_Res`, src/xcp.c:1140-1202.  The mode byte is read and ignored.  The hook
fills a length byte, so `seed.length` is taken modulo 256. -/
def getSeedRes (cfg : Cfg) (env : Env) (s : St) (p : Pdu) : R := do
  let _mode ← p.byte 1
  let resource ← p.byte 2
  assertPgmIdle cfg s <|
    if ¬ seedResourceOk cfg resource then .ok (errorResp cfg s ERR_OUT_OF_RANGE)
    else if isProtected cfg s resource then
      let seed := env.seed resource
      let length := min (cfg.maxCto - 2) (seed.length % 256)
      copyGuard cfg length <|
        sendBytes cfg { s with seedReq := s.seedReq ||| resource }
          (0xFF :: UInt8.ofNat length :: seed.take length)
    else
      sendBytes cfg { s with seedReq := s.seedReq ||| resource } [0xFF, 0]

/-- `Xcp_Unlock_Res`, src/xcp.c:1206-1233. -/
def unlockRes (cfg : Cfg) (env : Env) (s : St) (p : Pdu) : R := do
  let length ← p.byte 1
  assertPgmIdle cfg s <|
    if s.seedReq = 0 then .ok (errorResp cfg s ERR_SEQUENCE)
    else if env.unlock s.seedReq (p.buf.drop 2) length.toNat then
      let s1 := { s with resProt := s.resProt &&& ~~~s.seedReq }
      .ok { send8 cfg s1 [0xFF, s1.resProt] with seedReq := 0 }
    else
      .ok { apiDisconnect cfg (errorResp cfg s ERR_ACCESS_LOCKED) with seedReq := 0 }

/-- `Xcp_SlaveBlockTransferSetActive`, src/xcp.c:863-869. -/
def setSlaveActive (s : St) (b : Bool) : St :=
  { s with busy := b, slaveBlk := { s.slaveBlk with active := b } }

/-- The end of `Xcp_UploadSingleBlock`, src/xcp.c:901-909: `length` bytes are sent and the
transfer ends when nothing remains. -/
def uploadFrame (cfg : Cfg) (env : Env) (s : St) (length : Nat) : R :=
  copyGuard cfg length do
    let s1 ← sendBytes cfg
      { s with
        mta := s.mta.advance length
        slaveBlk := { s.slaveBlk with remaining := s.slaveBlk.remaining - length } }
      (0xFF :: s.mem.read (mapped cfg env s.mta) length)
    if s1.slaveBlk.remaining = 0 then return setSlaveActive s1 false else return s1

/-- `Xcp_UploadSingleBlock`, src/xcp.c:871-911. -/
def uploadSingleBlock (cfg : Cfg) (env : Env) (s : St) : R :=
  if ¬ s.slaveBlk.active then .ok s
  else if s.slaveBlk.remaining ≤ cfg.maxCto - 1 then uploadFrame cfg env s s.slaveBlk.remaining
  else uploadFrame cfg env s (cfg.maxCto - 1)

/-- `Xcp_Upload`, src/xcp.c:914-937. -/
def upload (cfg : Cfg) (env : Env) (s : St) (len : Nat) : R :=
  if cfg.slaveBlock then
    uploadSingleBlock cfg env
      (setSlaveActive { s with slaveBlk := { s.slaveBlk with remaining := len } } true)
  else
    copyGuard cfg len <|
      sendBytes cfg { s with mta := s.mta.advance len }
        (0xFF :: s.mem.read (mapped cfg env s.mta) len)

/-- `Xcp_Upload_Res`, src/xcp.c:1238-1255. -/
def uploadRes (cfg : Cfg) (env : Env) (s : St) (p : Pdu) : R := do
  let len ← p.byte 1
  assertPgmIdle cfg s <|
    checkMem cfg env s s.mta len.toNat .read false <|
      if ¬ cfg.slaveBlock ∧ cfg.maxCto - 1 < len.toNat then .ok (errorResp cfg s ERR_OUT_OF_RANGE)
      else upload cfg env s len.toNat

/-- `Xcp_ShortUpload_Res`, src/xcp.c:1261-1276.  The access check uses the MTA before it
is set from the packet, as in the code. -/
def shortUploadRes (cfg : Cfg) (env : Env) (s : St) (p : Pdu) : R := do
  let len ← p.byte 1
  assertPgmIdle cfg s <|
    checkMem cfg env s s.mta len.toNat .read false <|
      if cfg.maxCto - 1 < len.toNat then .ok (errorResp cfg s ERR_OUT_OF_RANGE)
      else do
        let ext ← p.byte 3
        let addr ← p.dword cfg.motorola cfg.wrapv 4
        upload cfg env { s with mta := ⟨ext, addr⟩ } len.toNat

/-- `Xcp_SetMta_Res`, src/xcp.c:1282-1289. -/
def setMtaRes (cfg : Cfg) (s : St) (p : Pdu) : R := do
  let ext ← p.byte 3
  let addr ← p.dword cfg.motorola cfg.wrapv 4
  return positive cfg { s with mta := ⟨ext, addr⟩ }

/-- `Xcp_SendChecksumPositiveResponse`, src/xcp.c:1295-1301. -/
def checksumResponse (cfg : Cfg) (s : St) (c : Nat) : St :=
  send8 cfg s ([0xFF, cfg.ckMethod.code, 0, 0] ++ leBytes 4 c)

/-- `Xcp_StartChecksumCalculation`, src/xcp_checksum.c:338-350. -/
def startChecksum (s : St) (addr : UInt32) (size : Nat) : R :=
  if s.ck.state ≠ .idle ∨ s.busy then .ok s
  else .ok { s with busy := true, ck := { s.ck with state := .initial, addr := addr, size := size } }

/-- `Xcp_BuildChecksum_Res`, src/xcp.c:1311-1342.  The block is read at the raw MTA address
(no address mapper), and the MTA is not changed. -/
def buildChecksumRes (cfg : Cfg) (env : Env) (s : St) (p : Pdu) : R := do
  let blockSize ← p.dword cfg.motorola cfg.wrapv 4
  assertPgmIdle cfg s <|
    checkMem cfg env s s.mta blockSize.toNat .read false <|
      if 0 < cfg.maxBlock ∧ cfg.maxBlock < blockSize.toNat then
        .ok (send8 cfg s ([0xFE, ERR_OUT_OF_RANGE, 0, 0] ++ leBytes 4 cfg.maxBlock))
      else if cfg.chunked ∧ cfg.chunkSize < blockSize.toNat then
        startChecksum s s.mta.addr blockSize.toNat
      else
        .ok (checksumResponse cfg s
          (calcChecksum cfg.ckMethod (s.mem.read s.mta.addr blockSize.toNat) 0 true))

/-- `uint32_t` subtraction. -/
def sub32 (a b : Nat) : Nat := (a + 2 ^ 32 - b % 2 ^ 32) % 2 ^ 32

/-- One chunk of the background job, src/xcp_checksum.c:361-366, 369-377: continue with
checksum `c` in state `st`. -/
def checksumChunk (cfg : Cfg) (s : St) (st : CkState) (c : Nat) : St :=
  { s with ck :=
    { state := st
      interim := c
      size := sub32 s.ck.size cfg.chunkSize
      addr := s.ck.addr + UInt32.ofNat cfg.chunkSize } }

/-- End of the background job with checksum `c`, src/xcp_checksum.c:379-384. -/
def checksumFinish (cfg : Cfg) (s : St) (c : Nat) : St :=
  { checksumResponse cfg { s with busy := false } c with
    ck := { s.ck with state := .idle, interim := c } }

/-- `Xcp_ChecksumMainFunction`, src/xcp_checksum.c:356-388. -/
def checksumMain (cfg : Cfg) (s : St) : St :=
  match s.ck.state with
  | .idle => s
  | .initial =>
    checksumChunk cfg s .remaining
      (calcChecksum cfg.ckMethod (s.mem.read s.ck.addr cfg.chunkSize) 0 true)
  | .remaining =>
    checksumChunk cfg s (if sub32 s.ck.size cfg.chunkSize ≤ cfg.chunkSize then .final else .remaining)
      (calcChecksum cfg.ckMethod (s.mem.read s.ck.addr cfg.chunkSize) s.ck.interim false)
  | .final =>
    checksumFinish cfg s
      (calcChecksum cfg.ckMethod (s.mem.read s.ck.addr s.ck.size) s.ck.interim false)

/-- First part of `Xcp_MainFunction`, src/xcp.c:707-711. (The `if` tests the address of a
function and is always true; `Xcp_UploadSingleBlock` tests the flag itself.) -/
def mainUpload (cfg : Cfg) (env : Env) (s : St) : R :=
  if cfg.slaveBlock then uploadSingleBlock cfg env s else .ok s

/-- Second part of `Xcp_MainFunction`, src/xcp.c:713-717. -/
def mainChecksum (cfg : Cfg) (s : St) : St :=
  if cfg.on .buildChecksum && cfg.chunked then checksumMain cfg s else s

/-- `Xcp_MainFunction`, src/xcp.c:706-718. -/
def mainFunction (cfg : Cfg) (env : Env) (s : St) : R := do
  let s1 ← mainUpload cfg env s
  return mainChecksum cfg s1

/-- `XcpTl_GetSlaveId_Res`, src/tl/can/arduino_can.cpp:230-250. -/
def getSlaveIdRes (cfg : Cfg) (s : St) (p : Pdu) : R := do
  let _ ← p.byte 2
  let mode ← p.byte 5
  let mask : UInt8 := if mode = 1 then 0xFF else 0
  return send8 cfg s ([0xFF, 0x58 ^^^ mask, 0x43 ^^^ mask, 0x50 ^^^ mask] ++ leBytes 4 cfg.canOutId)

/-- `XcpTl_GetDaqId_Res`, src/tl/can/arduino_can.cpp:254-266. -/
def getDaqIdRes (cfg : Cfg) (s : St) (p : Pdu) : R := do
  let id ← p.byte 2
  match cfg.canDaqIds[id.toNat]? with
  | none => return errorResp cfg s ERR_OUT_OF_RANGE
  | some v => return send8 cfg s ([0xFF, 1, 0, 0] ++ leBytes 4 v)

/-- `Xcp_TransportLayerCmd_Res`, src/xcp.c:1347-1350, with the CAN transport layer of
src/tl/can/arduino_can.cpp:274-296 (the only one in the repository that implements
transport layer commands; SET_DAQ_ID has an empty body there). -/
def transportLayerCmdRes (cfg : Cfg) (s : St) (p : Pdu) : R :=
  assertPgmIdle cfg s do
    let sub ← p.byte 1
    if cfg.canGetSlaveId ∧ sub = 0xFF then getSlaveIdRes cfg s p
    else if cfg.canGetDaqId ∧ sub = 0xFE then getDaqIdRes cfg s p
    else if cfg.canSetDaqId ∧ sub = 0xFD then return s
    else return errorResp cfg s ERR_CMD_UNKNOWN

/-- `Xcp_UserCmd_Res`, src/xcp.c:1354-1356: nothing is sent. -/
def userCmdRes (cfg : Cfg) (s : St) : R := assertPgmIdle cfg s (.ok s)

end Xcp
