import Verif.Model.Send
/-
src/xcp_daq.c: dynamic DAQ lists, the packet queue, and event processing.
-/
set_option autoImplicit false
namespace Xcp

/-- `XCP_DAQ_QUEUE_SIZE`, src/xcp_daq.c:44. -/
def queueSize : Nat := 4

/-- `XcpDaq_AllocTransitionTable`, src/xcp_daq.c:111-122, and
`XcpDaq_AllocValidateTransition`, 263-270. -/
def allocOk : AllocState → AllocCall → Bool
  | .idle, .free => true
  | .idle, .allocDaq => false
  | .idle, .allocOdt => false
  | .idle, .allocOdtEntry => false
  | .afterFree, .free => true
  | .afterFree, .allocDaq => true
  | .afterFree, .allocOdt => false
  | .afterFree, .allocOdtEntry => false
  | .afterAllocDaq, .free => true
  | .afterAllocDaq, .allocDaq => true
  | .afterAllocDaq, .allocOdt => true
  | .afterAllocDaq, .allocOdtEntry => false
  | .afterAllocOdt, .free => true
  | .afterAllocOdt, .allocDaq => false
  | .afterAllocOdt, .allocOdt => true
  | .afterAllocOdt, .allocOdtEntry => true
  | .afterAllocOdtEntry, .free => true
  | .afterAllocOdtEntry, .allocDaq => false
  | .afterAllocOdtEntry, .allocOdt => false
  | .afterAllocOdtEntry, .allocOdtEntry => true

/-- `XcpDaq_Entities[i]` (read). -/
def Daq.ent (cfg : Cfg) (d : Daq) (i : Nat) : Except Fault Entity :=
  if i < cfg.maxEnt then .ok (d.entities i) else .error .entityOob

/-- `XcpDaq_Entities[i] = e`, where the caller checked `i`. -/
def Daq.setEnt (d : Daq) (i : Nat) (e : Entity) : Daq :=
  { d with entities := fun j => if j = i then e else d.entities j }

/-- The initialisation loops of the allocation functions (src/xcp_daq.c:195-198, 220-222,
249-251): entities `from .. from+n-1` are changed by `f`. -/
def Daq.mapRange (d : Daq) (lo n : Nat) (f : Entity → Entity) : Daq :=
  { d with entities := fun j => if lo ≤ j ∧ j < lo + n then f (d.entities j) else d.entities j }

/-- `XcpDaq_Free`, src/xcp_daq.c:161-181.  Always succeeds (`free` is legal in every
state, see `allocOk`). -/
def daqFree (d : Daq) : Daq :=
  let d := { d with entityCount := 0, listCount := 0, odtCount := 0, listForEvent := fun _ => 0 }
  if allocOk d.allocState .free then
    { d with entities := fun _ => Entity.zero, allocState := .afterFree }
  else d

/-- The result code of `XcpDaq_Free`. -/
def daqFreeResult (d : Daq) : UInt8 :=
  if allocOk d.allocState .free then ERR_SUCCESS else ERR_SEQUENCE

/-- List modes, inc/xcp.h:341-346. -/
def MODE_ALTERNATING : UInt8 := 0x01
def MODE_DIRECTION : UInt8 := 0x02
def MODE_TIMESTAMP : UInt8 := 0x10
def MODE_PID_OFF : UInt8 := 0x20
def MODE_SELECTED : UInt8 := 0x40
def MODE_STARTED : UInt8 := 0x80

/-- Body of the loop of `XcpDaq_StartStopLists`, src/xcp_daq.c:639-656. -/
def startStopBody (start : Bool) (mode : UInt8) : UInt8 :=
  if mode &&& MODE_SELECTED = MODE_SELECTED then
    (if start then mode ||| MODE_STARTED else mode &&& ~~~MODE_STARTED) &&& ~~~MODE_SELECTED
  else mode

/-- `XcpDaq_StartStopLists`, src/xcp_daq.c:634-658: the loop runs over all lists but each
iteration gets the same shared list state. -/
def startStopLists (start : Bool) (d : Daq) : Daq :=
  { d with mode := Nat.repeat (startStopBody start) d.listCount d.mode }

/-- `XcpDaq_QueueInit`, src/xcp_daq.c:710-718.  (It zeroes the first `sizeof(Xcp_PduType)` bytes of
each slot, assumed not to be more than the slot has, see C110; the model zeroes the slot.  Slot
contents are not read before they are written.) -/
def queueInit : Queue := ⟨0, 0, false, fun _ => ⟨0, []⟩⟩

/-- `XcpDaq_Init`, src/xcp_daq.c:281-307. -/
def daqInit (d : Daq) : Daq :=
  let d := startStopLists false d
  let d := { d with running := false, ptr := ⟨0, 0, 0⟩, allocState := .idle }
  { daqFree d with queue := queueInit }

/-- `XcpDaq_Alloc`, src/xcp_daq.c:183-206. -/
def allocDaq (cfg : Cfg) (d : Daq) (n : Nat) : Daq × UInt8 :=
  if ¬ allocOk d.allocState .allocDaq then
    (if cfg.resetOnSeqErr then daqInit d else d, ERR_SEQUENCE)
  else if d.entityCount + n ≤ cfg.maxEnt then
    let d1 := d.mapRange d.entityCount n (fun e => { e with kind := 1 }.setNum 0)
    ({ d1 with
        allocState := .afterAllocDaq
        listCount := (d.listCount + n) % 256
        entityCount := (d.entityCount + n) % 256 }, ERR_SUCCESS)
  else (d, ERR_MEMORY_OVERFLOW)

/-- `XcpDaq_AllocOdt`, src/xcp_daq.c:208-232.  The list number is not checked. -/
def allocOdt (cfg : Cfg) (d : Daq) (list n : Nat) : Except Fault (Daq × UInt8) :=
  if ¬ allocOk d.allocState .allocOdt then
    .ok (if cfg.resetOnSeqErr then daqInit d else d, ERR_SEQUENCE)
  else if d.entityCount + n ≤ cfg.maxEnt then do
    let d1 := d.mapRange d.entityCount n (fun e => { e with kind := 2 })
    let l ← d1.ent cfg list
    let d2 := d1.setEnt list ((l.setNum (l.num + n)).setFirst d.entityCount)
    return ({ d2 with
        allocState := .afterAllocOdt
        odtCount := (d.odtCount + n) % 256
        entityCount := (d.entityCount + n) % 256 }, ERR_SUCCESS)
  else .ok (d, ERR_MEMORY_OVERFLOW)

/-- `XcpDaq_AllocOdtEntry`, src/xcp_daq.c:234-261.  List and ODT numbers are not checked. -/
def allocOdtEntry (cfg : Cfg) (d : Daq) (list odtNo n : Nat) : Except Fault (Daq × UInt8) :=
  if ¬ allocOk d.allocState .allocOdtEntry then
    .ok (if cfg.resetOnSeqErr then daqInit d else d, ERR_SEQUENCE)
  else if d.entityCount + n ≤ cfg.maxEnt then do
    let d1 := d.mapRange d.entityCount n (fun e => { e with kind := 3 })
    let l ← d1.ent cfg list
    let odt := (l.first + odtNo) % 256
    let o ← d1.ent cfg odt
    let d2 := d1.setEnt odt ((o.setFirst d.entityCount).setNum n)
    return ({ d2 with
        allocState := .afterAllocOdtEntry
        entityCount := (d.entityCount + n) % 256 }, ERR_SUCCESS)
  else .ok (d, ERR_MEMORY_OVERFLOW)

/-- `XcpDaq_GetOdt`, src/xcp_daq.c:617-632. -/
def getOdt (cfg : Cfg) (d : Daq) (list odtNo : Nat) : Except Fault Entity := do
  let l ← d.ent cfg list
  d.ent cfg ((l.first % 256 + odtNo) % 256)

/-- Index computed by `XcpDaq_GetOdtEntry`, src/xcp_daq.c:309-329. -/
def getOdtEntryIdx (cfg : Cfg) (d : Daq) (list odtNo entry : Nat) : Except Fault Nat := do
  let o ← getOdt cfg d list odtNo
  return (o.first + entry) % 256

/-- `XcpDaq_ValidateOdtEntry`, src/xcp_daq.c:447-468.  The comparisons `x > count - 1`
are done in `int`, so they mean `count <= x`. -/
def validateOdtEntry (cfg : Cfg) (d : Daq) (list odtNo entry : Nat) : Except Fault Bool :=
  if d.listCount ≤ list then .ok false
  else do
    let l ← d.ent cfg list
    if l.num ≤ odtNo then return false
    else
      let o ← getOdt cfg d list odtNo
      return decide (entry < o.num)

/-- `XcpDaq_GetFirstPid`, src/xcp_daq.c:660-676: found flag and first PID (`uint8_t`). -/
def getFirstPid (cfg : Cfg) (d : Daq) (list : Nat) : Except Fault (Bool × Nat) :=
  if d.listCount ≤ list then .ok (false, 0)
  else do
    let pid ← (List.range list).foldlM (fun acc i => do
      let l ← d.ent cfg i
      return (acc + l.num) % 256) 0
    return (true, pid)

/-- `XcpDaq_GetProperties`, src/xcp_daq.c:566-581 (dynamic configuration; the bit set is
`XCP_DAQ_CONFIG_TYPE_NONE` = 3). -/
def daqProperties (cfg : Cfg) : UInt8 :=
  (if cfg.prescalerProp then 0x02 else 0) ||| (if cfg.timestamping then 0x10 else 0) ||| 0x03

/-- `XcpDaq_AddEventChannel`, src/xcp_daq.c:477-481.  The event number is not checked. -/
def addEventChannel (cfg : Cfg) (d : Daq) (list ev : Nat) : Except Fault Daq :=
  if ev < cfg.numEvents then
    .ok { d with listForEvent := fun j => if j = ev then list else d.listForEvent j }
  else .error .eventOob

/-- `Xcp_WriteDaqEntry`, src/xcp.c:2341-2362 (bit offset and address extension switched
off): store size and address in the entry the DAQ pointer designates, advance the
pointer (`uint8_t`). -/
def writeDaqEntry (cfg : Cfg) (d : Daq) (size : UInt8) (addr : UInt32) : Except Fault Daq := do
  let i ← getOdtEntryIdx cfg d d.ptr.list d.ptr.odt d.ptr.entry
  let e ← d.ent cfg i
  let d1 := d.setEnt i ({ e with len := size.toNat }.setAddr addr)
  return { d1 with ptr := { d.ptr with entry := (d.ptr.entry + 1) % 256 } }

/-! ### Queue -/

/-- `XcpDaq_QueueFull`, src/xcp_daq.c:720-722. -/
def Queue.full (q : Queue) : Bool := (q.head + 1) % (queueSize + 1) == q.tail

/-- `XcpDaq_QueueEmpty`, src/xcp_daq.c:724-726. -/
def Queue.empty (q : Queue) : Bool := q.head == q.tail

/-- `XcpDaq_QueueEnqueue`, src/xcp_daq.c:728-740.  The slot array has `queueSize`
elements while the indices run from 0 to `queueSize`. -/
def Queue.enqueue (cfg : Cfg) (q : Queue) (data : List UInt8) : Except Fault Queue :=
  if q.full then .ok { q with overload := true }
  else if queueSize ≤ q.head then .error .queueOob
  else if cfg.maxDto < data.length then .error (if cfg.asserts then .assertFail else .queueOob)
  else if cfg.asserts && data.length == 0 then .error .assertFail
  else .ok { q with
    slots := fun j => if j = q.head then ⟨data.length % 256, data⟩ else q.slots j
    head := (q.head + 1) % (queueSize + 1) }

/-- `XcpDaq_QueueDequeue`, src/xcp_daq.c:742-754, on a non-empty queue. -/
def Queue.dequeue (cfg : Cfg) (q : Queue) : Except Fault (Queue × List UInt8) :=
  if queueSize ≤ q.tail then .error .queueOob
  else
    let sl := q.slots q.tail
    if cfg.maxDto < sl.len then .error (if cfg.asserts then .assertFail else .dtoOob)
    else if cfg.asserts && sl.len == 0 then .error .assertFail
    else .ok ({ q with tail := (q.tail + 1) % (queueSize + 1) }, sl.data.take sl.len)

/-- `XcpDaq_TransmitDtos`, src/xcp_daq.c:604-612.  The loop ends after at most
`queueSize` rounds, see `transmit_empties`; `fuel` bounds the recursion. -/
def transmit (cfg : Cfg) : Nat → St → R
  | 0, s => .ok s
  | fuel + 1, s =>
    if s.daq.queue.empty then .ok s
    else do
      let (q, data) ← s.daq.queue.dequeue cfg
      transmit cfg fuel (emit cfg { s with daq := { s.daq with queue := q } } .dto data)

/-! ### Events -/

/-- Body of the entry loop of `XcpDaq_TriggerEvent`, src/xcp_daq.c:539-548: append the
entry's memory to the packet built so far. -/
def sampleEntry (cfg : Cfg) (s : St) (list odtIdx : Nat) (acc : List UInt8) (e : Nat) :
    Except Fault (List UInt8) := do
  let i ← getOdtEntryIdx cfg s.daq list odtIdx e
  let en ← s.daq.ent cfg i
  if cfg.maxDto - acc.length < en.len then throw (if cfg.asserts then .assertFail else .dtoOob)
  if cfg.asserts && en.len == 0 then throw .assertFail
  return acc ++ s.mem.read en.addr en.len

/-- Packet of one ODT, src/xcp_daq.c:528-548. -/
def sampleOdt (cfg : Cfg) (env : Env) (s : St) (list pid odtIdx : Nat) : Except Fault (List UInt8) := do
  let o ← getOdt cfg s.daq list odtIdx
  let ts := cfg.timestamping && (s.daq.mode &&& MODE_TIMESTAMP == MODE_TIMESTAMP)
  let start := UInt8.ofNat pid ::
    (if odtIdx = 0 ∧ ts = true then leBytes cfg.tsSize env.timer.toNat else [])
  (List.range o.num).foldlM (sampleEntry cfg s list odtIdx) start

/-- The ODT loop of `XcpDaq_TriggerEvent`, src/xcp_daq.c:527-552: state is the PID
(`uint8_t`) and the queue. -/
def sampleList (cfg : Cfg) (env : Env) (s : St) (list : Nat) (st : Nat × Queue) (odtIdx : Nat) :
    Except Fault (Nat × Queue) := do
  let data ← sampleOdt cfg env s list st.1 odtIdx
  let q ← st.2.enqueue cfg data
  return ((st.1 + 1) % 256, q)

/-- `XcpDaq_TriggerEvent`, src/xcp_daq.c:487-554. -/
def triggerEvent (cfg : Cfg) (env : Env) (s : St) (ev : Nat) : R :=
  if ¬ s.daq.running then .ok s
  else if cfg.numEvents % 256 ≤ ev then .ok s
  else do
    let list := s.daq.listForEvent ev
    let (found, pid) ← getFirstPid cfg s.daq list
    if ¬ found then return s
    else
      let l ← s.daq.ent cfg list
      let (_, q) ← (List.range l.num).foldlM (sampleList cfg env s list) (pid, s.daq.queue)
      transmit cfg (queueSize + 1) { s with daq := { s.daq with queue := q } }

end Xcp
