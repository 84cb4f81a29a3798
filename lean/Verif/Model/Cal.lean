import Verif.Model.Std
/-
Calibration commands, src/xcp.c:1364-1489, and programming commands, 1937-2099.
-/
set_option autoImplicit false
namespace Xcp

/-- The `n` bytes of the received packet from offset `off` on, as read by a copy from
`pdu->data + off`.  The code does not compare with the received length. -/
def Pdu.slice (p : Pdu) (off n : Nat) : Except Fault (List UInt8) :=
  if off + n ≤ p.buf.length then .ok ((p.buf.drop off).take n) else .error .rxOob

/-- `Xcp_CopyMemory` into application memory, src/xcp.c:2121-2148, with the assertions of
`XcpUtl_MemCopy` (src/xcp_util.c:32-43) on destination and length. -/
def copyIn (cfg : Cfg) (env : Env) (s : St) (m : Mta) (data : List UInt8) : R :=
  if cfg.asserts && (mapped cfg env m == 0 || data.length == 0) then .error .assertFail
  else .ok { s with mem := s.mem.write (mapped cfg env m) data }

/-- `Xcp_Download_Copy`, src/xcp.c:2317-2324. -/
def downloadCopy (cfg : Cfg) (env : Env) (s : St) (p : Pdu) (off n : Nat) : R := do
  let data ← p.slice off n
  let s1 ← copyIn cfg env s s.mta data
  return { s1 with mta := s1.mta.advance n }

/-- `XCP_DOWNLOAD_PAYLOAD_LENGTH`, inc/xcp.h:272. -/
def Cfg.dlPayload (cfg : Cfg) : Nat := cfg.maxCto - 2

/-- `Xcp_Download_Res`, src/xcp.c:1366-1396.  `LIMIT` is a `uint16_t`. -/
def downloadRes (cfg : Cfg) (env : Env) (s : St) (p : Pdu) : R := do
  let len ← p.byte 1
  assertPgmIdle cfg s <|
    checkMem cfg env s s.mta len.toNat .write false <|
      if cfg.masterBlock then
        let s0 := { s with masterBlk := { s.masterBlk with active := false } }
        if cfg.maxBs * cfg.dlPayload % 65536 < len.toNat then
          .ok (errorResp cfg s0 ERR_OUT_OF_RANGE)
        else if cfg.dlPayload < len.toNat then
          downloadCopy cfg env { s0 with masterBlk := ⟨true, len.toNat - cfg.dlPayload⟩ } p 2
            cfg.dlPayload
        else do
          let s1 ← downloadCopy cfg env s0 p 2 len.toNat
          return positive cfg s1
      else if cfg.dlPayload < len.toNat then .ok (errorResp cfg s ERR_OUT_OF_RANGE)
      else do
        let s1 ← downloadCopy cfg env s p 2 len.toNat
        return positive cfg s1

/-- `Xcp_DownloadNext_Res`, src/xcp.c:1400-1420.  `remaining` is a `uint8_t`. -/
def downloadNextRes (cfg : Cfg) (env : Env) (s : St) (p : Pdu) : R := do
  let remaining ← p.byte 1
  assertPgmIdle cfg s <|
    if ¬ s.masterBlk.active then .ok (errorResp cfg s ERR_SEQUENCE)
    else do
      let len := min remaining.toNat cfg.dlPayload
      let s1 ← downloadCopy cfg env s p 2 len
      let rem := (s.masterBlk.remaining + 256 - len) % 256
      if rem = 0 then return positive cfg { s1 with masterBlk := ⟨false, 0⟩ }
      else return { s1 with masterBlk := ⟨s.masterBlk.active, rem⟩ }

/-- `Xcp_DownloadMax_Res`, src/xcp.c:1426-1434. -/
def downloadMaxRes (cfg : Cfg) (env : Env) (s : St) (p : Pdu) : R :=
  assertPgmIdle cfg s do
    let s1 ← downloadCopy cfg env s p 1 (cfg.dlPayload + 1)
    return positive cfg s1

/-- `Xcp_ShortDownload_Res`, src/xcp.c:1440-1465.  The data goes to the address in the
packet, and the old MTA is advanced. -/
def shortDownloadRes (cfg : Cfg) (env : Env) (s : St) (p : Pdu) : R := do
  let len ← p.byte 1
  let ext ← p.byte 3
  let addr ← p.dword cfg.motorola cfg.wrapv 4
  assertPgmIdle cfg s <|
    checkMem cfg env s ⟨ext, addr⟩ len.toNat .write false <|
      if cfg.maxCto - 8 < len.toNat then .ok (errorResp cfg s ERR_OUT_OF_RANGE)
      else do
        let data ← p.slice 8 len.toNat
        let s1 ← copyIn cfg env s ⟨ext, addr⟩ data
        return positive cfg { s1 with mta := s1.mta.advance len.toNat }

/-- A 32-bit little-endian load. -/
def Mem.load32 (m : Mem) (a : UInt32) : UInt32 :=
  (m a).toUInt32 + (m (a + 1)).toUInt32 * 0x100 + (m (a + 2)).toUInt32 * 0x10000 +
    (m (a + 3)).toUInt32 * 0x1000000

/-- A 32-bit little-endian store. -/
def Mem.store32 (m : Mem) (a v : UInt32) : Mem := m.write a (leBytes 4 v.toNat)

/-- `x << n` for a `uint16_t x` promoted to a 32-bit `int`, converted to `uint32_t`. -/
def shlInt (wrapv : Bool) (x n : Nat) : Except Fault UInt32 :=
  if 32 ≤ n then .error .shiftOob
  else if wrapv = false ∧ 2 ^ 31 ≤ x * 2 ^ n then .error .intOverflow
  else .ok (UInt32.ofNat (x * 2 ^ n))

/-- `Xcp_ModifyBits_Res`, src/xcp.c:1471-1487.  There is no PGM check, the address is used
unmapped, and the expression is the one of the code. -/
def modifyBitsRes (cfg : Cfg) (env : Env) (s : St) (p : Pdu) : R := do
  let shift ← p.byte 1
  let andMask ← p.word cfg.motorola 2
  let xorMask ← p.word cfg.motorola 4
  checkMem cfg env s s.mta 2 .write false do
    let a ← shlInt cfg.wrapv (65535 - andMask) shift.toNat
    let x ← shlInt cfg.wrapv xorMask shift.toNat
    let v := s.mem.load32 s.mta.addr
    return positive cfg { s with mem := s.mem.store32 s.mta.addr (v &&& (~~~a ^^^ x)) }

/-! ### Programming -/

/-- `Xcp_ProgramStart_Res`, src/xcp.c:1939-1954. -/
def programStartRes (cfg : Cfg) (s : St) : R :=
  assertUnlocked cfg s RES_PGM <| assertDaqStopped cfg s <|
    .ok (send8 cfg { s with pgm := .active }
      [0xFF, 0, 0, UInt8.ofNat cfg.maxCto, cfg.maxBsPgm, cfg.minStPgm, 0])

/-- `Xcp_ProgramClear_Res`, src/xcp.c:1956-1964: nothing is cleared. -/
def programClearRes (cfg : Cfg) (s : St) (p : Pdu) : R := do
  let _ ← p.byte 1
  let _ ← p.dword cfg.motorola cfg.wrapv 4
  assertPgmActive cfg s (.ok (positive cfg s))

/-- `Xcp_Program_Res`, src/xcp.c:1966-1981: the copy is commented out in the code. -/
def programRes (cfg : Cfg) (env : Env) (s : St) (p : Pdu) : R := do
  let len ← p.byte 1
  assertPgmActive cfg s <| checkMem cfg env s s.mta len.toNat .write true <|
    .ok (positive cfg { s with mta := s.mta.advance len.toNat })

/-- `Xcp_ProgramReset_Res`, src/xcp.c:1983-1989. -/
def programResetRes (cfg : Cfg) (s : St) : R :=
  assertPgmActive cfg s (.ok (positive cfg { s with pgm := .idle }))

/-- `Xcp_GetPgmProcessorInfo_Res`, src/xcp.c:1993-2002. -/
def getPgmProcessorInfoRes (cfg : Cfg) (s : St) : R :=
  .ok (send8 cfg s [0xFF, cfg.pgmProps, UInt8.ofNat cfg.maxSectorPgm])

/-- `Xcp_GetSectorInfo_Res`, src/xcp.c:2008-2037. -/
def getSectorInfoRes (cfg : Cfg) (s : St) (p : Pdu) : R := do
  let mode ← p.byte 1
  let sector ← p.byte 2
  if cfg.maxSectorPgm ≤ sector.toNat then return sendResult cfg s ERR_SEGMENT_NOT_VALID
  else if mode ≠ 0 ∧ mode ≠ 1 then return sendResult cfg s ERR_MODE_NOT_VALID
  else return send8 cfg s [0xFF, sector * 2, sector * 2 + 1, 0, 0, 0, 0, 0]

/-- `Xcp_ProgramPrepare_Res`, src/xcp.c:2043-2050. -/
def programPrepareRes (cfg : Cfg) (s : St) (p : Pdu) : R := do
  let _ ← p.word cfg.motorola 2
  assertPgmActive cfg s (.ok (positive cfg s))

/-- `Xcp_ProgramFormat_Res`, src/xcp.c:2055-2069. -/
def programFormatRes (cfg : Cfg) (s : St) (p : Pdu) : R := do
  let _ ← p.byte 1
  let _ ← p.byte 2
  let _ ← p.byte 3
  let _ ← p.byte 4
  assertPgmActive cfg s (.ok (positive cfg s))

/-- `Xcp_ProgramNext_Res`, `Xcp_ProgramMax_Res`, `Xcp_ProgramVerify_Res`,
src/xcp.c:2073-2097: all three have the same body. -/
def programStubRes (cfg : Cfg) (s : St) : R :=
  assertPgmActive cfg s (.ok (positive cfg s))

end Xcp
