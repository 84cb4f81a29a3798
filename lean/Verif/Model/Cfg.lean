import Verif.Model.Base
/-
The compile-time configuration, one field per switch that changes behaviour.
-/
set_option autoImplicit false
namespace Xcp

/-- The commands in the order of the jump table, src/xcp.c:383-635. -/
inductive Cmd where
  | connect | disconnect | getStatus | synch | getCommModeInfo | getId | setRequest
  | getSeed | unlock | setMta | upload | shortUpload | buildChecksum
  | transportLayerCmd | userCmd
  | download | downloadNext | downloadMax | shortDownload | modifyBits
  | setCalPage | getCalPage | getPagProcessorInfo | getSegmentInfo | getPageInfo
  | setSegmentMode | getSegmentMode | copyCalPage
  | clearDaqList | setDaqPtr | writeDaq | setDaqListMode | getDaqListMode
  | startStopDaqList | startStopSynch | getDaqClock | readDaq | getDaqProcessorInfo
  | getDaqResolutionInfo | getDaqListInfo | getDaqEventInfo | freeDaq | allocDaq
  | allocOdt | allocOdtEntry
  | programStart | programClear | program | programReset | getPgmProcessorInfo
  | getSectorInfo | programPrepare | programFormat | programNext | programMax
  | programVerify
  | writeDaqMultiple
deriving DecidableEq, Repr

/-- `Xcp_ServerCommands`, src/xcp.c:383-635: entry `i` serves command code `0xFF - i`. -/
def cmdTable : List Cmd :=
  [.connect, .disconnect, .getStatus, .synch, .getCommModeInfo, .getId, .setRequest,
   .getSeed, .unlock, .setMta, .upload, .shortUpload, .buildChecksum,
   .transportLayerCmd, .userCmd,
   .download, .downloadNext, .downloadMax, .shortDownload, .modifyBits,
   .setCalPage, .getCalPage, .getPagProcessorInfo, .getSegmentInfo, .getPageInfo,
   .setSegmentMode, .getSegmentMode, .copyCalPage,
   .clearDaqList, .setDaqPtr, .writeDaq, .setDaqListMode, .getDaqListMode,
   .startStopDaqList, .startStopSynch, .getDaqClock, .readDaq, .getDaqProcessorInfo,
   .getDaqResolutionInfo, .getDaqListInfo, .getDaqEventInfo, .freeDaq, .allocDaq,
   .allocOdt, .allocOdtEntry,
   .programStart, .programClear, .program, .programReset, .getPgmProcessorInfo,
   .getSectorInfo, .programPrepare, .programFormat, .programNext, .programMax,
   .programVerify,
   .writeDaqMultiple]

/-- Command groups of the jump table. -/
inductive Group where
  | std | cal | pag | daq | pgm
deriving DecidableEq, Repr

/-- The `#if` block of src/xcp.c:383-635 in which a command's entry stands. -/
def Cmd.group : Cmd → Group
  | .connect | .disconnect | .getStatus | .synch | .getCommModeInfo | .getId | .setRequest
  | .getSeed | .unlock | .setMta | .upload | .shortUpload | .buildChecksum
  | .transportLayerCmd | .userCmd => .std
  | .download | .downloadNext | .downloadMax | .shortDownload | .modifyBits => .cal
  | .setCalPage | .getCalPage | .getPagProcessorInfo | .getSegmentInfo | .getPageInfo
  | .setSegmentMode | .getSegmentMode | .copyCalPage => .pag
  | .clearDaqList | .setDaqPtr | .writeDaq | .setDaqListMode | .getDaqListMode
  | .startStopDaqList | .startStopSynch | .getDaqClock | .readDaq | .getDaqProcessorInfo
  | .getDaqResolutionInfo | .getDaqListInfo | .getDaqEventInfo | .freeDaq | .allocDaq
  | .allocOdt | .allocOdtEntry | .writeDaqMultiple => .daq
  | .programStart | .programClear | .program | .programReset | .getPgmProcessorInfo
  | .getSectorInfo | .programPrepare | .programFormat | .programNext | .programMax
  | .programVerify => .pgm

/-- Commands without an own `#if` inside their group (src/xcp.c:383-635). -/
def Cmd.mandatory : Cmd → Bool
  | .connect | .disconnect | .getStatus | .synch => true
  | .download => true
  | .setCalPage | .getCalPage => true
  | .clearDaqList | .setDaqPtr | .writeDaq | .setDaqListMode | .getDaqListMode
  | .startStopDaqList | .startStopSynch => true
  | .programStart | .programClear | .program | .programReset => true
  | _ => false

/-- `XCP_CHECKSUM_METHOD`, inc/xcp.h:1091-1099. -/
inductive CkMethod where
  | add11 | add12 | add14 | add22 | add24 | add44 | crc16 | crc16citt | crc32
deriving DecidableEq, Repr

/-- The number reported in the BUILD_CHECKSUM response, inc/xcp.h:1091-1099. -/
def CkMethod.code : CkMethod → UInt8
  | .add11 => 1 | .add12 => 2 | .add14 => 3 | .add22 => 4 | .add24 => 5 | .add44 => 6
  | .crc16 => 7 | .crc16citt => 8 | .crc32 => 9

/-- An event channel, `XcpDaq_EventType` (inc/xcp.h:889-897). `name` is the address of
the name if there is one. -/
structure EventCfg where
  name : Option UInt32
  nameLen : UInt8
  properties : UInt8
  timeunit : UInt8
  cycle : UInt8

/-- Compile-time configuration. -/
structure Cfg where
  /-- `XCP_MAX_CTO`, `XCP_MAX_DTO` -/
  maxCto : Nat
  maxDto : Nat
  /-- `XCP_TRANSPORT_LAYER_LENGTH_SIZE`, `XCP_TRANSPORT_LAYER_COUNTER_SIZE` -/
  lenSize : Nat
  ctrSize : Nat
  /-- `XCP_ON_CAN_MAX_DLC_REQUIRED` -/
  maxDlc : Bool
  /-- `XCP_BYTE_ORDER == XCP_BYTE_ORDER_MOTOROLA` -/
  motorola : Bool
  /-- `XCP_ADDRESS_GRANULARITY` -/
  granularity : UInt8
  slaveBlock : Bool
  masterBlock : Bool
  maxBs : Nat
  minSt : UInt8
  queueSizeInfo : UInt8
  statistics : Bool
  /-- command groups and single commands -/
  cal : Bool
  pag : Bool
  daq : Bool
  stim : Bool
  pgm : Bool
  on : Cmd → Bool
  /-- `XCP_PROTECT_*` -/
  protCal : Bool
  protPag : Bool
  protDaq : Bool
  protStim : Bool
  protPgm : Bool
  /-- `XCP_ENABLE_CHECK_MEMORY_ACCESS`, `XCP_ENABLE_ADDRESS_MAPPER` -/
  memCheck : Bool
  mapper : Bool
  /-- checksum -/
  ckMethod : CkMethod
  chunked : Bool
  chunkSize : Nat
  maxBlock : Nat
  /-- identification: address and length of ids 0 and 1, `XCP_ENABLE_GET_ID_HOOK` -/
  id0 : UInt32 × Nat
  id1 : UInt32 × Nat
  getIdHook : Bool
  /-- DAQ: pool size, event channels, timestamps, reset on sequence error -/
  maxEnt : Nat
  numEvents : Nat
  events : Nat → EventCfg
  timestamping : Bool
  tsSize : Nat
  resetOnSeqErr : Bool
  prescalerProp : Bool
  /-- programming -/
  maxSectorPgm : Nat
  pgmProps : UInt8
  maxBsPgm : UInt8
  minStPgm : UInt8
  /-- transport-layer commands on CAN (src/tl/can/arduino_can.cpp:228-297) -/
  canGetSlaveId : Bool
  canGetDaqId : Bool
  canSetDaqId : Bool
  canOutId : Nat
  canDaqIds : List Nat
  /-- signed arithmetic wraps (`-fwrapv`) -/
  wrapv : Bool
  /-- assertions are compiled in (no `NDEBUG`) -/
  asserts : Bool

/-- A command's slot holds its handler rather than `Xcp_CommandNotImplemented_Res`
(src/xcp.c:383-635). -/
def Cfg.supports (cfg : Cfg) (c : Cmd) : Bool :=
  (match c.group with
    | .std => true
    | .cal => cfg.cal
    | .pag => cfg.pag
    | .daq => cfg.daq
    | .pgm => cfg.pgm) && (c.mandatory || cfg.on c)

/-- `XCP_ENABLE_RESOURCE_PROTECTION`, inc/xcp.h:150-159. -/
def Cfg.resourceProtection (cfg : Cfg) : Bool := cfg.on .getSeed && cfg.on .unlock

/-- Configurations that pass the preprocessor checks (inc/xcp.h:95-211) and link, within
the scope of the model. -/
structure Cfg.Ok (cfg : Cfg) : Prop where
  cto_lo : 8 ≤ cfg.maxCto
  cto_hi : cfg.maxCto ≤ 255
  dto_lo : 8 ≤ cfg.maxDto
  dto_hi : cfg.maxDto ≤ 65535
  len_le : cfg.lenSize ≤ 2
  ctr_le : cfg.ctrSize ≤ 2
  ent_pos : 0 < cfg.maxEnt
  ent_lt : cfg.maxEnt < 256
  ev_pos : 0 < cfg.numEvents
  ev_lt : cfg.numEvents < 256
  ts : cfg.tsSize = 1 ∨ cfg.tsSize = 2 ∨ cfg.tsSize = 4
  chunk_pos : 0 < cfg.chunkSize
  chunk_lt : cfg.chunkSize < 2 ^ 31
  maxBlock_lt : cfg.maxBlock < 2 ^ 32
  seedUnlock : cfg.on .getSeed = cfg.on .unlock
  multi : cfg.on .writeDaqMultiple = true → 10 ≤ cfg.maxCto
  noPag : cfg.pag = false
  noStim : cfg.stim = false
  noSetRequest : cfg.on .setRequest = false
  noReadDaq : cfg.on .readDaq = false
  next : cfg.on .downloadNext = cfg.masterBlock

end Xcp
