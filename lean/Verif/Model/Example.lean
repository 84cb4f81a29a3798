import Verif.Model.Dispatch
/-
Concrete configurations and inputs, used in the examples and in the counterexamples.
-/
set_option autoImplicit false
namespace Xcp.Ex
open Xcp

/-- Optional commands switched on in examples/xcpsim/xcp_config.h:107-156. -/
def simOn : Cmd → Bool
  | .getCommModeInfo | .getId | .setMta | .upload | .shortUpload | .buildChecksum
  | .downloadMax | .shortDownload
  | .getDaqClock | .getDaqProcessorInfo | .getDaqResolutionInfo | .getDaqListInfo | .getDaqEventInfo
  | .freeDaq | .allocDaq | .allocOdt | .allocOdtEntry
  | .getPgmProcessorInfo | .getSectorInfo | .programPrepare => true
  | _ => false

/-- examples/xcpsim/xcp_config.h with Ethernet transport; the event table of
examples/xcpsim/app_config.c has three events (names are left out here). -/
def sim : Cfg :=
  { maxCto := 64, maxDto := 64, lenSize := 2, ctrSize := 2, maxDlc := false
    motorola := false, granularity := 0
    slaveBlock := false, masterBlock := false, maxBs := 8, minSt := 0, queueSizeInfo := 0
    statistics := true
    cal := true, pag := false, daq := true, stim := false, pgm := true
    on := simOn
    protCal := false, protPag := true, protDaq := false, protStim := true, protPgm := false
    memCheck := false, mapper := false
    ckMethod := .crc16citt, chunked := true, chunkSize := 64, maxBlock := 0
    id0 := (0x1000, 33), id1 := (0x2000, 15), getIdHook := false
    maxEnt := 100, numEvents := 3
    events := fun i => ⟨if i = 0 then some 0x3000 else none, if i = 0 then 6 else 0, 0x44, 6, 1⟩
    timestamping := false, tsSize := 4, resetOnSeqErr := true, prescalerProp := false
    maxSectorPgm := 32, pgmProps := 1, maxBsPgm := 0, minStPgm := 0
    canGetSlaveId := false, canGetDaqId := false, canSetDaqId := false, canOutId := 0x101, canDaqIds := []
    wrapv := false, asserts := true }

/-- tests/xcp_config.h on CAN. -/
def can : Cfg :=
  { sim with
    maxCto := 8, maxDto := 8, lenSize := 0, ctrSize := 0
    slaveBlock := true, maxBs := 255, maxEnt := 16
    on := fun c => simOn c || c == .modifyBits || c == .transportLayerCmd
    canGetSlaveId := true, canGetDaqId := true, canOutId := 0x301, canDaqIds := [0x300, 0x302] }

/-- Everything that the repository implements switched on, with all protections, on a
transport with a header. -/
def sec : Cfg :=
  { sim with
    masterBlock := true
    on := fun c => !(c == .setRequest || c == .readDaq)
    protCal := true, protDaq := true, protPgm := true
    memCheck := true, timestamping := true }

/-- Hooks: everything allowed; a four byte seed; the key is the seed. -/
def env : Env :=
  { memCheck := fun _ _ _ _ => true
    seed := fun _ => [1, 2, 3, 4]
    unlock := fun _ k n => n == 4 && k.take 4 == [1, 2, 3, 4]
    getId := fun _ => none
    timer := 0x12345678
    mapAddr := fun m => m.addr }

/-- Memory whose byte at address `a` is the low byte of `a`. -/
def mem : Mem := fun a => a.toUInt8

/-- A received packet in a zero-filled receive buffer of 64 bytes. -/
def pkt (bs : List UInt8) : Pdu := ⟨bs.length, bs ++ List.replicate (64 - bs.length) 0⟩

/-- A command with the default hooks. -/
def c (bs : List UInt8) : Env × Op := (env, .cmd (pkt bs))

/-- Frames sent by a history from start-up, `none` if it faults. -/
def frames (cfg : Cfg) (h : List (Env × Op)) : Option (List (List UInt8)) :=
  match run cfg (St.init cfg mem) h with
  | .ok s => some (s.tx.map Frame.bytes)
  | .error _ => none

/-- The fault a history ends in, if any. -/
def faultOf (cfg : Cfg) (h : List (Env × Op)) : Option Fault :=
  match run cfg (St.init cfg mem) h with
  | .ok _ => none
  | .error f => some f

/-- A value of the final state of a history. -/
def obs {α : Type} (cfg : Cfg) (h : List (Env × Op)) (f : St → α) : Option α :=
  match run cfg (St.init cfg mem) h with
  | .ok s => some (f s)
  | .error _ => none

theorem sim_ok : sim.Ok := by constructor <;> decide
theorem can_ok : can.Ok := by constructor <;> decide
theorem sec_ok : sec.Ok := by constructor <;> decide

end Xcp.Ex
