import Verif.Spec.Daq
import Verif.Spec.Transfer
/-
What a measurement tool wants: elements of memory, packed in packets, sampled at events.  The commands that set
such a measurement up, and the packets it should produce.
-/
set_option autoImplicit false
namespace Xcp.Spec

/-- A measurement: for each DAQ list, for each of its packets (ODTs), size and address of the elements; for
each list the event channel; and whether timestamps are wanted. -/
structure Plan where
  lists  : List (List (List (UInt8 × UInt32)))
  events : List Nat
  stamps : Bool

/-- The number of elements of each ODT. -/
def Plan.conf (p : Plan) : Conf := p.lists.map fun odts => odts.map List.length

/-- The ODTs: list, number in the list, elements. -/
def Plan.cells (p : Plan) : List (Nat × Nat × List (UInt8 × UInt32)) :=
  p.lists.zipIdx.flatMap fun x => x.1.zipIdx.map fun y => (x.2, y.2, y.1)

/-- FREE_DAQ, ALLOC_DAQ, ALLOC_ODT for each list, ALLOC_ODT_ENTRY for each ODT. -/
def Plan.reserve (motorola : Bool) (p : Plan) : List (List UInt8) :=
  [[0xD6], [0xD5, 0] ++ enc motorola 2 p.lists.length] ++
  (p.lists.zipIdx.map fun x => [0xD4, 0] ++ enc motorola 2 x.2 ++ [UInt8.ofNat x.1.length]) ++
  p.cells.map fun x => [0xD3, 0] ++ enc motorola 2 x.1 ++ [UInt8.ofNat x.2.1, UInt8.ofNat x.2.2.length]

/-- SET_DAQ_PTR to the first entry of each ODT, then WRITE_DAQ for each of its elements. -/
def Plan.fill (motorola : Bool) (p : Plan) : List (List UInt8) :=
  p.cells.flatMap fun x =>
    ([0xE2, 0] ++ enc motorola 2 x.1 ++ [UInt8.ofNat x.2.1, 0]) ::
      x.2.2.map fun e => [0xE1, 0xFF, e.1, 0] ++ enc motorola 4 e.2.toNat

/-- SET_DAQ_LIST_MODE for each list. -/
def Plan.assign (motorola : Bool) (p : Plan) : List (List UInt8) :=
  p.events.zipIdx.map fun x =>
    [0xE0, if p.stamps then 0x10 else 0] ++ enc motorola 2 x.2 ++ enc motorola 2 x.1 ++ [1, 0]

/-- START_STOP_DAQ_LIST: select each list. -/
def Plan.select (motorola : Bool) (p : Plan) : List (List UInt8) :=
  (List.range p.lists.length).map fun l => [0xDE, 2] ++ enc motorola 2 l

/-- All commands of the measurement; the last one, START_STOP_SYNCH, starts it. -/
def Plan.setup (motorola : Bool) (p : Plan) : List (List UInt8) :=
  p.reserve motorola ++ p.fill motorola ++ p.assign motorola ++ p.select motorola ++ [[0xDD, 1]]

/-- The answers: positive, and with the number of the first packet of the list for START_STOP_DAQ_LIST. -/
def Plan.answers (p : Plan) : List (List UInt8) :=
  List.replicate (2 + p.lists.length + p.cells.length) [0xFF] ++
  List.replicate (p.cells.map fun x => 1 + x.2.2.length).sum [0xFF] ++
  List.replicate p.events.length [0xFF] ++
  ((List.range p.lists.length).map fun l => [0xFF, UInt8.ofNat (p.conf.firstPid l), 0, 0, 0, 0, 0, 0]) ++
  [[0xFF]]

/-- The packets of list `l` at an event: the numbers of the packets continue from list to list; a timestamp of
`ts` bytes (0: none) in the first packet of the list; the current contents of the elements. -/
def Plan.packets (ts : Nat) (p : Plan) (mem : Mem) (timer l : Nat) : List (List UInt8) :=
  (p.lists[l]?.getD []).zipIdx.map fun y =>
    UInt8.ofNat (p.conf.firstPid l + y.2) :: (if p.stamps = true ∧ y.2 = 0 then enc false ts timer else []) ++
      y.1.flatMap fun e => bytesAt mem e.2 e.1.toNat

/-- What happens during the measurement: an event of a list, a write by the application. -/
inductive Moment where
  | event (l : Nat)
  | write (a : UInt32) (b : UInt8)
deriving DecidableEq, Repr

/-- The memory afterwards. -/
def Moment.mem (m : Mem) : Moment → Mem
  | .event _ => m
  | .write a b => fun x => if x = a then b else m x

/-- The packets that should be sent; each moment with the timer value at that time. -/
def Plan.samples (ts : Nat) (p : Plan) : Mem → List (Nat × Moment) → List (List UInt8)
  | _, [] => []
  | m, (t, .event l) :: hs => p.packets ts m t l ++ p.samples ts m hs
  | m, (_, .write a b) :: hs => p.samples ts (Moment.mem m (.write a b)) hs

/-- The number of packets of list `l`. -/
def Plan.odts (p : Plan) (l : Nat) : Nat := (p.lists[l]?.getD []).length

/-- The number of packets of a history. -/
def Plan.count (p : Plan) : List Moment → Nat
  | [] => 0
  | .event l :: hs => p.odts l + p.count hs
  | .write _ _ :: hs => p.count hs

end Xcp.Spec
