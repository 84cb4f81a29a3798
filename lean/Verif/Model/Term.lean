import Verif.Model.Daq
import Verif.Model.Fls
/-
The terminal of the example application: keys and what they display.  src/hw/terminal.c.
-/
set_option autoImplicit false
namespace Xcp

/-- What is displayed, by the arguments of `printf`.  Simplification: the text around them and headings are left
out, and so is `XcpTl_PrintConnectionInformation`. -/
inductive Shown where
  /-- `DisplayHelp`, src/hw/terminal.c:270-275 -/
  | help
  /-- first line of a list, src/hw/terminal.c:324-352 -/
  | list (idx firstPid : Nat) (stim selected started alternating pidOff timestamp : Bool)
  /-- src/hw/terminal.c:355 -/
  | odt (idx : Nat)
  /-- src/hw/terminal.c:358 -/
  | entry (idx : Nat) (addr : UInt32) (len : Nat)
  /-- src/hw/terminal.c:363 -/
  | total (n : Nat)
  /-- sizes and block modes, src/hw/terminal.c:224-226 -/
  | limits (maxCto maxDto : Nat) (slaveBlock masterBlock : Bool)
  /-- a command group and whether it is protected, src/hw/terminal.c:228-253 -/
  | calGroup (prot : Option Bool)
  | pagGroup (prot : Option Bool)
  | daqGroup (prot : Option (Bool × Bool))
  | pgmGroup (prot : Option Bool)
  /-- `XcpDaq_Info`, src/hw/terminal.c:369-402 -/
  | processor (running : Bool)
  | entities (used max : Nat)
  /-- src/hw/terminal.c:259-265 -/
  | statistics (received busy sent : Nat)
  /-- a segment of the flash emulation, src/hw/terminal.c:287-293: its address in the tool's view, where it is mapped to, size and
  page size in units of 1024 bytes, number of pages (the name is left out) -/
  | segment (base ptr : UInt64) (size pageSize pages : Nat)
deriving DecidableEq, Repr

/-- The entries of one ODT, src/hw/terminal.c:356-360: what is displayed and the number of bytes. -/
def shownEntries (cfg : Cfg) (d : Daq) (list odt num : Nat) : Except Fault (List Shown × Nat) :=
  (List.range num).foldlM (fun acc k => do
    let i ← getOdtEntryIdx cfg d list odt k
    let e ← d.ent cfg i
    return (acc.1 ++ [.entry k e.addr e.len], acc.2 + e.len)) ([], 0)

/-- The ODT loop, src/hw/terminal.c:353-361, from ODT `odt`; `num` is `listConf->numOdts`, which every round sets
to the number of ODTs of the list (`XcpDaq_GetOdt` calls `XcpDaq_GetListConfiguration`).  It has eight bits, so
`fuel` 256 is enough. -/
def shownOdts (cfg : Cfg) (d : Daq) (list : Nat) : Nat → Nat → Nat → Except Fault (List Shown × Nat)
  | 0, _, _ => .ok ([], 0)
  | fuel + 1, odt, num =>
    if odt < num then do
      let o ← getOdt cfg d list odt
      let (es, n) ← shownEntries cfg d list odt o.num
      let l ← d.ent cfg list
      let (rest, m) ← shownOdts cfg d list fuel (odt + 1) l.num
      return (.odt odt :: es ++ rest, n + m)
    else .ok ([], 0)

/-- One round of the list loop, src/hw/terminal.c:319-363.  `listConf` points to `XcpDaq_ListConfiguration`, which
`XcpDaq_GetFirstPid` (line 323) overwrites with each of the lists before this one, so that the ODT loop begins with
the number of ODTs of the list before. -/
def shownList (cfg : Cfg) (d : Daq) (list : Nat) : Except Fault (List Shown) := do
  let l ← d.ent cfg list
  let (_, pid) ← getFirstPid cfg d list
  let num ← if list = 0 then pure l.num else do
    let before ← d.ent cfg (list - 1)
    pure before.num
  let (os, n) ← shownOdts cfg d list 256 0 num
  return .list list pid (d.mode &&& 0x02 != 0) (d.mode &&& MODE_SELECTED != 0) (d.mode &&& MODE_STARTED != 0)
    (d.mode &&& 0x01 != 0) (d.mode &&& 0x20 != 0) (d.mode &&& MODE_TIMESTAMP != 0) :: os ++ [.total n]

/-- `XcpDaq_PrintDAQDetails`, src/hw/terminal.c:304-367. -/
def shownDaq (cfg : Cfg) (d : Daq) : Except Fault (List Shown) :=
  (List.range d.listCount).foldlM (fun acc i => do
    let r ← shownList cfg d i
    return acc ++ r) []

/-- `XcpDaq_Info`, src/hw/terminal.c:369-402.  The processor state is never one of the other three. -/
def shownInfo (cfg : Cfg) (d : Daq) : List Shown := [.processor d.running, .entities d.entityCount cfg.maxEnt]

/-- One round of the loop of `FlsEmu_Info`, src/hw/terminal.c:284-294. -/
def shownSegment (f : Fls) (idx : Nat) : Except Fault Shown := do
  let p ← f.basePointer idx
  match f.segs[idx]?, p with
  | some s, some p => do
    let n ← f.numPages idx
    return .segment s.base p (s.memSize.toNat / 1024) (s.pageSize.toNat / 1024) n
  | _, _ => throw .nullDeref

/-- `FlsEmu_Info`, src/hw/terminal.c:277-296, called only if the flash emulation is initialised (lines 256-258). -/
def shownFlash (f : Fls) : Except Fault (List Shown) :=
  if f.init then (List.range f.segs.length).mapM (shownSegment f) else .ok []

/-- `SystemInformation`, src/hw/terminal.c:216-268.  `XcpDaq_Info` exists only with DAQ, so that builds without DAQ
do not link. -/
def shownSystem (cfg : Cfg) (f : Fls) (s : St) : Except Fault (List Shown) := do
  let flash ← shownFlash f
  return [.limits cfg.maxCto cfg.maxDto cfg.slaveBlock cfg.masterBlock,
   .calGroup (if cfg.cal then some cfg.protCal else none),
   .pagGroup (if cfg.pag then some cfg.protPag else none),
   .daqGroup (if cfg.daq then some (cfg.protDaq, cfg.protStim) else none),
   .pgmGroup (if cfg.pgm then some cfg.protPgm else none)] ++ shownInfo cfg s.daq ++ flash ++
    (if cfg.statistics then [.statistics s.stats.ctosReceived s.stats.crosBusy s.stats.crosSend] else [])

/-- What a key does. -/
inductive KeyAct where
  | help | system | daq | quit
deriving DecidableEq, Repr

/-- `tolower` in the C locale. -/
def lower (b : UInt8) : UInt8 := if 0x41 ≤ b ∧ b ≤ 0x5A then b + 0x20 else b

/-- The `switch` of `XcpTerm_Thread`, src/hw/terminal.c:197-210. -/
def keyAct (b : UInt8) : Option KeyAct :=
  match (lower b).toNat with
  | 0x1B => some .quit
  | 0x71 => some .quit
  | 0x68 => some .help
  | 0x69 => some .system
  | 0x64 => some .daq
  | _ => none

/-- `getch`, src/hw/terminal.c:171-186: the bytes `read` returned, `none` for an error.  Only a single byte is a key. -/
def getch : Option (List UInt8) → Option UInt8
  | some [b] => some b
  | _ => none

/-- Carrying out an action. -/
def KeyAct.show (cfg : Cfg) (f : Fls) (s : St) : KeyAct → Except Fault (List Shown)
  | .help => .ok [.help]
  | .system => shownSystem cfg f s
  | .daq => shownDaq cfg s.daq
  | .quit => .ok []

/-- `XcpTerm_Thread` on POSIX systems, src/hw/terminal.c:188-213: for each `read` its result and the state of the
slave then.  Result: what is displayed, and whether the thread has ended (`XcpThrd_Exit`).  Simplifications: the
state does not change while something is displayed; nothing closes the flash emulation, and its pointers do not move. -/
def termThread (cfg : Cfg) (f : Fls) : List (Option (List UInt8) × St) → Except Fault (List Shown × Bool)
  | [] => .ok ([], false)
  | (r, s) :: rest =>
    match (getch r).bind keyAct with
    | none => termThread cfg f rest
    | some .quit => .ok ([], true)
    | some a => do
      let x ← a.show cfg f s
      let (y, e) ← termThread cfg f rest
      return (x ++ y, e)

/-- `INPUT_RECORD`: a key event or something else. -/
structure InputRec where
  isKey  : Bool
  down   : Bool
  escape : Bool
  char   : UInt8

/-- The `switch` on Windows, src/hw/terminal.c:99-128.  Simplification: characters from 0x80 on (negative arguments
of `tolower`) are taken as having no action. -/
def InputRec.act (r : InputRec) : Option KeyAct :=
  if ¬ r.isKey ∨ ¬ r.down then none
  else if r.escape then some .quit
  else
    match (lower r.char).toNat with
    | 0x71 => some .quit
    | 0x68 => some .help
    | 0x69 => some .system
    | 0x64 => some .daq
    | _ => none

/-- `XcpTerm_Thread` on Windows, src/hw/terminal.c:68-133: all records of all reads. -/
def winTermThread (cfg : Cfg) (f : Fls) : List (InputRec × St) → Except Fault (List Shown × Bool)
  | [] => .ok ([], false)
  | (r, s) :: rest =>
    match r.act with
    | none => winTermThread cfg f rest
    | some .quit => .ok ([], true)
    | some a => do
      let x ← a.show cfg f s
      let (y, e) ← winTermThread cfg f rest
      return (x ++ y, e)

end Xcp
