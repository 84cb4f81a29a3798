import Verif.Model.State
/-
Sending of packets, src/xcp.c:732-856 and 2104-2110, 2243-2298.
-/
set_option autoImplicit false
namespace Xcp

/-- Length and counter fields, src/xcp.c:737-751. -/
def header (cfg : Cfg) (len counter : Nat) : List UInt8 :=
  leBytes cfg.lenSize len ++ leBytes cfg.ctrSize counter

/-- Counter update of `Xcp_SendCto`/`Xcp_SendDto`, src/xcp.c:744-751: a `uint16_t`
increment whenever there is a counter field. -/
def bumpCounter (cfg : Cfg) (c : Nat) : Nat :=
  if cfg.ctrSize = 0 then c else (c + 1) % 65536

/-- Statistics update, src/xcp.c:753-755: `uint32_t` increment. -/
def bumpSend (cfg : Cfg) (st : Stats) : Stats :=
  if cfg.statistics then { st with crosSend := (st.crosSend + 1) % 2 ^ 32 } else st

/-- `Xcp_SendCto` / `Xcp_SendDto`, src/xcp.c:732-788, with the payload given. -/
def emit (cfg : Cfg) (s : St) (k : Kind) (payload : List UInt8) : St :=
  { s with
    tx := s.tx ++ [⟨k, header cfg payload.length s.counter ++ payload⟩]
    counter := bumpCounter cfg s.counter
    stats := bumpSend cfg s.stats }

/-- Store bytes at the front of a buffer, the rest keeps its contents. -/
def overlay (buf data : List UInt8) : List UInt8 := data ++ buf.drop data.length

/-- `Xcp_Send8`, src/xcp.c:808-856.  The calls pass zeros behind the `bs.length` bytes
that count.  With `XCP_ON_CAN_MAX_DLC_REQUIRED` the length is `XCP_MAX_CTO`; the
`switch` stores bytes only for lengths 1 to 8, so for a larger length the old
buffer contents are sent. -/
def send8 (cfg : Cfg) (s : St) (bs : List UInt8) : St :=
  let len := if cfg.maxDlc then cfg.maxCto else bs.length
  let out := if len ≤ 8 then overlay s.ctoOut ((bs ++ List.replicate 8 0).take len) else s.ctoOut
  emit cfg { s with ctoOut := out } .cto (out.take len)

/-- The pattern "fill `dataOut`, set the length (or `XCP_MAX_CTO`), `Xcp_SendCto`" of
src/xcp.c:914-929, 1193-1201, 2262-2283, for data that fits the buffer. -/
def sendRaw (cfg : Cfg) (s : St) (data : List UInt8) : St :=
  let out := overlay s.ctoOut data
  emit cfg { s with ctoOut := out } .cto (out.take (if cfg.maxDlc then cfg.maxCto else data.length))

/-- The same with the buffer limit: writing more than `XCP_MAX_CTO` bytes leaves the
buffer. -/
def sendBytes (cfg : Cfg) (s : St) (data : List UInt8) : R :=
  if cfg.maxCto < data.length then .error .txOob else .ok (sendRaw cfg s data)

/-- `Xcp_PositiveResponse`, src/xcp.c:2243-2245. -/
def positive (cfg : Cfg) (s : St) : St := send8 cfg s [0xFF]

/-- `Xcp_ErrorResponse`, src/xcp.c:2247-2251. -/
def errorResp (cfg : Cfg) (s : St) (code : UInt8) : St := send8 cfg s [0xFE, code]

/-- `ERR_*`, inc/xcp.h:672-703. -/
def ERR_CMD_SYNCH : UInt8 := 0x00
def ERR_CMD_BUSY : UInt8 := 0x10
def ERR_DAQ_ACTIVE : UInt8 := 0x11
def ERR_PGM_ACTIVE : UInt8 := 0x12
def ERR_CMD_UNKNOWN : UInt8 := 0x20
def ERR_CMD_SYNTAX : UInt8 := 0x21
def ERR_OUT_OF_RANGE : UInt8 := 0x22
def ERR_ACCESS_DENIED : UInt8 := 0x24
def ERR_ACCESS_LOCKED : UInt8 := 0x25
def ERR_MODE_NOT_VALID : UInt8 := 0x27
def ERR_SEGMENT_NOT_VALID : UInt8 := 0x28
def ERR_SEQUENCE : UInt8 := 0x29
def ERR_MEMORY_OVERFLOW : UInt8 := 0x30
def ERR_SUCCESS : UInt8 := 0xFF

/-- `Xcp_SendResult`, src/xcp.c:2104-2110. -/
def sendResult (cfg : Cfg) (s : St) (code : UInt8) : St :=
  if code = ERR_SUCCESS then positive cfg s else errorResp cfg s code

/-- `Xcp_SendSpecialPacket`, src/xcp.c:2262-2283 (`Xcp_SendEventPacket`,
`Xcp_SendServiceRequestPacket`, 2289-2298).  `data` has at most 255 bytes (the
length parameter is a `uint8_t`); the copy loop is `take`. -/
def sendSpecial (cfg : Cfg) (s : St) (ty code : UInt8) (data : List UInt8) : R :=
  sendBytes cfg s (ty :: code :: data.take (min (cfg.maxCto - 2) data.length))

/-- `XCP_ASSERT_PGM_IDLE`, src/xcp.c:90-99, as a guard before the rest `k`. -/
def assertPgmIdle (cfg : Cfg) (s : St) (k : R) : R :=
  if s.pgm = .active then .ok (sendResult cfg s ERR_PGM_ACTIVE) else k

/-- `XCP_ASSERT_PGM_ACTIVE`, src/xcp.c:101-107. -/
def assertPgmActive (cfg : Cfg) (s : St) (k : R) : R :=
  if s.pgm ≠ .active then .ok (sendResult cfg s ERR_SEQUENCE) else k

/-- `XCP_ASSERT_DAQ_STOPPED`, src/xcp.c:79-88. -/
def assertDaqStopped (cfg : Cfg) (s : St) (k : R) : R :=
  if s.daq.running then .ok (sendResult cfg s ERR_DAQ_ACTIVE) else k

/-- `Xcp_IsProtected`, src/xcp.c:2211-2221. -/
def isProtected (cfg : Cfg) (s : St) (r : UInt8) : Bool :=
  cfg.resourceProtection && (s.resProt &&& r == r)

/-- `XCP_ASSERT_UNLOCKED`, src/xcp.c:109-115. -/
def assertUnlocked (cfg : Cfg) (s : St) (r : UInt8) (k : R) : R :=
  if isProtected cfg s r then .ok (sendResult cfg s ERR_ACCESS_LOCKED) else k

/-- `XCP_CHECK_MEMORY_ACCESS`, src/xcp.c:117-127. -/
def checkMem (cfg : Cfg) (env : Env) (s : St) (m : Mta) (len : Nat) (a : Access) (pgm : Bool)
    (k : R) : R :=
  if cfg.memCheck && !env.memCheck m len a pgm then .ok (sendResult cfg s ERR_ACCESS_DENIED) else k

/-- Resource bits, inc/xcp.h:285-288. -/
def RES_CAL_PAG : UInt8 := 0x01
def RES_DAQ : UInt8 := 0x04
def RES_STIM : UInt8 := 0x08
def RES_PGM : UInt8 := 0x10

/-- The precondition `len != 0` of `XcpUtl_MemCopy` (src/xcp_util.c:32-43): an assertion, or
nothing with `NDEBUG`. -/
def copyGuard (cfg : Cfg) (n : Nat) (k : R) : R :=
  if cfg.asserts && n == 0 then .error .assertFail else k

/-- Address used by `Xcp_CopyMemory` for an application address, src/xcp.c:2121-2148.  The
mapper's result code is ignored as in the code.  Simplification: the mapper is
assumed to leave addresses of the slave's own buffers alone. -/
def mapped (cfg : Cfg) (env : Env) (m : Mta) : UInt32 :=
  if cfg.mapper then env.mapAddr m else m.addr

end Xcp
