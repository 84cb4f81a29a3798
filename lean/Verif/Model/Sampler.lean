import Verif.Model.Daq
/-
An event while other threads run: `XcpDaq_TriggerEvent` and what it calls, one access to a shared variable at a
time.  src/xcp_daq.c:309-352, 487-554, 617-632, 660-676.  None of this is inside of a critical section.
-/
set_option autoImplicit false
namespace Xcp

/-- `XcpDaq_ListConfiguration`, src/xcp_daq.c:132: one variable for all lists and all threads. -/
structure ListConf where
  first : Nat
  num   : Nat
deriving DecidableEq, Repr

/-- What the other threads do: the memory and the DAQ configuration at the time of each access of the sampling
thread, and what they do to `XcpDaq_ListConfiguration` before it.  (Memory and configuration are only read by the
sampling thread.) -/
structure Others where
  mem  : Nat → Mem
  daq  : Nat → Daq
  conf : Nat → ListConf → ListConf

/-- The sampling thread: its state is the number of accesses made and the contents of `XcpDaq_ListConfiguration`.
Simplification: every access is atomic and takes effect in program order; members of the pool that share storage
(the union of src/xcp_daq.c) are read as in `Entity`. -/
abbrev Sampling (α : Type) := StateT (Nat × ListConf) (Except Fault) α

/-- A read of the DAQ configuration. -/
def Others.look {α : Type} (o : Others) (f : Daq → Except Fault α) : Sampling α := fun x =>
  match f (o.daq x.1) with
  | .error e => .error e
  | .ok a => .ok (a, x.1 + 1, o.conf x.1 x.2)

/-- A read of a byte of memory. -/
def Others.byte (o : Others) (a : UInt32) : Sampling UInt8 := fun x => .ok (o.mem x.1 a, x.1 + 1, o.conf x.1 x.2)

/-- A read of `XcpDaq_ListConfiguration`. -/
def Others.getConf (o : Others) (f : ListConf → Nat) : Sampling Nat := fun x =>
  .ok (f (o.conf x.1 x.2), x.1 + 1, o.conf x.1 x.2)

/-- A write to a member of `XcpDaq_ListConfiguration`. -/
def Others.setConf (o : Others) (f : ListConf → ListConf) : Sampling Unit := fun x => .ok ((), x.1 + 1, f (o.conf x.1 x.2))

/-- A read of a member of `XcpDaq_Entities[i]`. -/
def Others.ent {α : Type} (o : Others) (cfg : Cfg) (i : Nat) (f : Entity → α) : Sampling α := o.look fun d => (d.ent cfg i).map f

/-- `XcpDaq_GetListConfiguration`, src/xcp_daq.c:331-352. -/
def Others.listConf (o : Others) (cfg : Cfg) (l : Nat) : Sampling Unit := do
  let first ← o.ent cfg l Entity.first
  o.setConf fun c => { c with first := first }
  let num ← o.ent cfg l Entity.num
  o.setConf fun c => { c with num := num }

/-- `XcpDaq_GetOdt`, src/xcp_daq.c:617-632: the index of the ODT. -/
def Others.odtAt (o : Others) (cfg : Cfg) (l j : Nat) : Sampling Nat := do
  o.listConf cfg l
  let first ← o.getConf (·.first)
  return (first % 256 + j) % 256

/-- `XcpDaq_GetOdtEntry`, src/xcp_daq.c:309-329: the index of the entry. -/
def Others.entryAt (o : Others) (cfg : Cfg) (l j e : Nat) : Sampling Nat := do
  let p ← o.odtAt cfg l j
  let first ← o.ent cfg p Entity.first
  return (first + e) % 256

/-- The loop of `XcpDaq_GetFirstPid`, src/xcp_daq.c:669-672: lists `i` to `i + n - 1`. -/
def Others.pidLoop (o : Others) (cfg : Cfg) : Nat → Nat → Nat → Sampling Nat
  | 0, _, tmp => pure tmp
  | n + 1, i, tmp => do
    o.listConf cfg i
    let num ← o.getConf (·.num)
    o.pidLoop cfg n (i + 1) ((tmp + num) % 256)

/-- `XcpDaq_GetFirstPid`, src/xcp_daq.c:660-676; `none`: no such list. -/
def Others.firstPid (o : Others) (cfg : Cfg) (l : Nat) : Sampling (Option Nat) := do
  let n ← o.look fun d => .ok d.listCount
  if n ≤ l then return none
  else
    let pid ← o.pidLoop cfg l 0 0
    return some pid

/-- `data` and `offset` of `XcpDaq_TriggerEvent`. -/
structure Pack where
  data : List UInt8
  off  : Nat
deriving DecidableEq, Repr

/-- `XcpUtl_MemCopy` to `data[k]`, src/xcp_util.c:41-43. -/
def Others.copyIn (o : Others) (cfg : Cfg) : Nat → UInt32 → Nat → List UInt8 → Sampling (List UInt8)
  | 0, _, _, d => pure d
  | n + 1, a, k, d => do
    let b ← o.byte a
    if cfg.maxDto ≤ k then throw .dtoOob
    else o.copyIn cfg n (a + 1) (k + 1) (d.set k b)

/-- `XCP_MAX_DTO - offset` as an `unsigned int`, src/xcp_daq.c:545. -/
def room (cfg : Cfg) (off : Nat) : Nat := (cfg.maxDto + 4294967296 - off) % 4294967296

/-- The body of the entry loop, src/xcp_daq.c:540-547: the length of the entry is read for the assertion, for the
copy and for the new offset. -/
def Others.takeEntry (o : Others) (cfg : Cfg) (l j : Nat) (x : Pack) (e : Nat) : Sampling Pack := do
  let i ← o.entryAt cfg l j e
  let len ← o.ent cfg i Entity.len
  if cfg.asserts = true ∧ room cfg x.off < len then throw .assertFail
  else
    let a ← o.ent cfg i Entity.addr
    let n ← o.ent cfg i Entity.len
    if cfg.asserts = true ∧ n = 0 then throw .assertFail
    else
      let d ← o.copyIn cfg n a x.off x.data
      let m ← o.ent cfg i Entity.len
      return ⟨d, (x.off + m) % 65536⟩

/-- The entry loop, src/xcp_daq.c:539-548, from entry `e`; `p` is the index of the ODT.  `numOdtEntries` is read in
each round; it has eight bits, so `fuel` 256 is enough. -/
def Others.entryLoop (o : Others) (cfg : Cfg) (l j p : Nat) : Nat → Nat → Pack → Sampling Pack
  | 0, _, x => pure x
  | fuel + 1, e, x => do
    let num ← o.ent cfg p Entity.num
    if e < num then do
      let x' ← o.takeEntry cfg l j x e
      o.entryLoop cfg l j p fuel (e + 1) x'
    else pure x

/-- The beginning of a packet, src/xcp_daq.c:531-538. -/
def startPack (cfg : Cfg) (timer pid : Nat) (stamp : Bool) (data : List UInt8) : Pack :=
  let ts := if stamp then leBytes cfg.tsSize timer else []
  let b := UInt8.ofNat pid :: ts
  ⟨b ++ data.drop b.length, b.length⟩

/-- The ODT loop, src/xcp_daq.c:527-552, from ODT `j`.  `numOdts` is read in each round; it has eight bits, so
`fuel` 256 is enough.  Simplification: the other threads do not touch the queue. -/
def Others.odtLoop (o : Others) (cfg : Cfg) (timer l : Nat) (stamp : Bool) : Nat → Nat → Nat → List UInt8 → Queue → Sampling Queue
  | 0, _, _, _, q => pure q
  | fuel + 1, j, pid, data, q => do
    let num ← o.getConf (·.num)
    if j < num % 256 then do
      let p ← o.odtAt cfg l j
      let x ← o.entryLoop cfg l j p 256 0 (startPack cfg timer pid (stamp && j == 0) data)
      let q' ← StateT.lift (q.enqueue cfg (x.data.take x.off ++ List.replicate (x.off - x.data.length) 0))
      o.odtLoop cfg timer l stamp fuel (j + 1) ((pid + 1) % 256) x.data q'
    else pure q

/-- `XcpDaq_TriggerEvent` up to `XcpDaq_TransmitDtos`, src/xcp_daq.c:487-552: the queue, if the event was
processed. -/
def Others.sample (o : Others) (cfg : Cfg) (env : Env) (ev : Nat) (q : Queue) : Sampling (Option Queue) := do
  let running ← o.look fun d => .ok d.running
  if ¬ running then return none
  else if cfg.numEvents % 256 ≤ ev then return none
  else
    let l ← o.look fun d => .ok (d.listForEvent ev)
    let r ← o.firstPid cfg l
    match r with
    | none => return none
    | some pid =>
      o.listConf cfg l
      let mode ← o.look fun d => .ok d.mode
      let q ← o.odtLoop cfg env.timer.toNat l (cfg.timestamping && (mode &&& MODE_TIMESTAMP == MODE_TIMESTAMP)) 256 0 pid
        (List.replicate cfg.maxDto 0) q
      return some q

/-- `XcpDaq_TriggerEvent`, src/xcp_daq.c:487-554, while other threads run: the number of accesses, and the state at
the end.  Simplification: the other threads send nothing meanwhile (see Model/Conc.lean for that); memory and
configuration at the end are those after the last access. -/
def triggerDuring (cfg : Cfg) (env : Env) (o : Others) (c : ListConf) (s : St) (ev : Nat) : Except Fault (Nat × St) :=
  match o.sample cfg env ev s.daq.queue (0, c) with
  | .error e => .error e
  | .ok (none, t, _) => .ok (t, { s with mem := o.mem t, daq := { o.daq t with queue := s.daq.queue } })
  | .ok (some q, t, _) =>
    match transmit cfg (queueSize + 1) { s with mem := o.mem t, daq := { o.daq t with queue := q } } with
    | .error e => .error e
    | .ok s' => .ok (t, s')

end Xcp
