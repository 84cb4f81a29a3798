import Verif.Props.C34_Queue
import Verif.Model.Example
/-
C92: what the project's own DAQ tests say (tests/test_xcpdaq.py).

The file has 20 tests of the allocation functions and 5 of the packet queue, and two property
tests that are commented out.  The property tests are proved here for all numbers (`C92_alloc`,
`C92_allocs`), the second one also the way it was written, with list and ODT numbers that do not
exist (`C92_as_written`): the call succeeds and changes another list (`C92_fails_numbers`).
The concrete tests are examples below.

Of the queue tests one does not hold in C: the wrap-around test expects the indices to go from 4 to 0;
to do so, the fifth packet is stored behind the end of the array (`C92_fails_wraparound`).  C34 has
the general statements on the queue.
-/
set_option autoImplicit false
namespace Xcp
open Spec

/-- A call of one of the allocation functions by a test, tests/xcp_if.py:16-19. -/
inductive TestCall where
  | free
  | daq (n : Nat)
  | odt (list n : Nat)
  | entry (list odt n : Nat)
deriving DecidableEq, Repr

/-- The tests call the functions of src/xcp_daq.c:161-261 directly, not through commands. -/
def TestCall.exec (cfg : Cfg) (d : Daq) : TestCall → Except Fault (Daq × UInt8)
  | .free => .ok (daqFree d, daqFreeResult d)
  | .daq n => .ok (allocDaq cfg d n)
  | .odt l n => allocOdt cfg d l n
  | .entry l o n => allocOdtEntry cfg d l o n

/-- The calls of one test and their results, in order. -/
def testCalls (cfg : Cfg) (d : Daq) : List TestCall → Except Fault (Daq × List UInt8)
  | [] => .ok (d, [])
  | c :: cs => do
    let (d, r) ← c.exec cfg d
    let (d, rs) ← testCalls cfg d cs
    return (d, r :: rs)

/-- `get_daq_counts`, tests/xcp_if.py:53-58, and `XcpDaq_GetCounts`: entities, lists, ODTs. -/
def Daq.counts (d : Daq) : Nat × Nat × Nat := (d.entityCount, d.listCount, d.odtCount)

theorem daqInit_fresh (d : Daq) :
    (daqInit d).allocState = .afterFree ∧ (daqInit d).counts = (0, 0, 0) ∧
      (daqInit d).entities = fun _ => Entity.zero := by
  simp [daqInit, daqFree, allocOk, startStopLists, Daq.counts]

theorem allocDaq_fits {cfg : Cfg} {d : Daq} {n : Nat} (ha : allocOk d.allocState .allocDaq = true) (h : d.entityCount + n ≤ cfg.maxEnt)
    (hm : cfg.maxEnt ≤ 255) :
    ∃ d', allocDaq cfg d n = (d', ERR_SUCCESS) ∧ d'.allocState = .afterAllocDaq ∧
      d'.counts = (d.entityCount + n, (d.listCount + n) % 256, d.odtCount) ∧
      ∀ i, (d'.entities i).first = (d.entities i).first := by
  refine ⟨(allocDaq cfg d n).1, ?_, ?_, ?_, ?_⟩
  · simp [allocDaq, ha, h]
  · simp [allocDaq, ha, h]
  · simp [allocDaq, ha, h, Daq.counts, Daq.mapRange, Nat.mod_eq_of_lt (by omega : d.entityCount + n < 256)]
  · intro i
    simp only [allocDaq, ha, h, Daq.mapRange, not_true, if_true, if_false]
    split
    · simp only [Entity.setNum, Entity.first]; omega
    · rfl

theorem allocOdt_fits {cfg : Cfg} {d : Daq} {l n : Nat} (ha : allocOk d.allocState .allocOdt = true) (h : d.entityCount + n ≤ cfg.maxEnt)
    (hm : cfg.maxEnt ≤ 255) (hl : l < cfg.maxEnt) :
    ∃ d', allocOdt cfg d l n = .ok (d', ERR_SUCCESS) ∧ d'.allocState = .afterAllocOdt ∧
      d'.counts = (d.entityCount + n, d.listCount, (d.odtCount + n) % 256) ∧ (d'.entities l).first = d.entityCount ∧
      ∀ i, i ≠ l → (d'.entities i).first = (d.entities i).first := by
  have e : ∀ x : Daq, Daq.ent cfg x l = .ok (x.entities l) := fun x => by simp [Daq.ent, hl]
  let d1 := d.mapRange d.entityCount n (fun e => { e with kind := 2 })
  let le := d1.entities l
  have e2 : Daq.ent cfg d1 l = .ok le := e d1
  refine ⟨{ d1.setEnt l ((le.setNum (le.num + n)).setFirst d.entityCount) with
        allocState := .afterAllocOdt
        odtCount := (d.odtCount + n) % 256
        entityCount := (d.entityCount + n) % 256 }, ?_, rfl, ?_, ?_, ?_⟩
  · unfold allocOdt
    rw [if_neg (by simp [ha]), if_pos h]
    show (Daq.ent cfg d1 l >>= _) = _
    rw [e2]
    rfl
  · simp [d1, Daq.counts, Daq.mapRange, Daq.setEnt, Nat.mod_eq_of_lt (by omega : d.entityCount + n < 256)]
  · simp [Daq.setEnt, Entity.setFirst, Entity.first]; omega
  · intro i hi
    simp only [d1, Daq.setEnt, Daq.mapRange, hi, if_false]
    split <;> rfl

theorem allocOdtEntry_fits {cfg : Cfg} {d : Daq} {l o n : Nat} (ha : allocOk d.allocState .allocOdtEntry = true)
    (h : d.entityCount + n ≤ cfg.maxEnt)
    (hm : cfg.maxEnt ≤ 255) (hl : l < cfg.maxEnt) (hu : l < d.entityCount) (ho : ((d.entities l).first + o) % 256 < cfg.maxEnt) :
    ∃ d', allocOdtEntry cfg d l o n = .ok (d', ERR_SUCCESS) ∧
      d'.counts = (d.entityCount + n, d.listCount, d.odtCount) := by
  have e : ∀ (x : Daq) i, i < cfg.maxEnt → Daq.ent cfg x i = .ok (x.entities i) := fun x i hi => by simp [Daq.ent, hi]
  let d1 := d.mapRange d.entityCount n (fun e => { e with kind := 3 })
  have hk : d1.entities l = d.entities l := by
    simp only [d1, Daq.mapRange]
    rw [if_neg (by omega)]
  let k := ((d.entities l).first + o) % 256
  have e2 : Daq.ent cfg d1 l = .ok (d.entities l) := by rw [e d1 l hl, hk]
  have e3 : Daq.ent cfg d1 k = .ok (d1.entities k) := e d1 k ho
  refine ⟨{ d1.setEnt k (((d1.entities k).setFirst d.entityCount).setNum n) with
        allocState := .afterAllocOdtEntry
        entityCount := (d.entityCount + n) % 256 }, ?_, ?_⟩
  · unfold allocOdtEntry
    rw [if_neg (by simp [ha]), if_pos h]
    show (Daq.ent cfg d1 l >>= _) = _
    rw [e2]
    show (Daq.ent cfg d1 k >>= _) = _
    rw [e3]
    rfl
  · simp [d1, Daq.counts, Daq.mapRange, Daq.setEnt, Nat.mod_eq_of_lt (by omega : d.entityCount + n < 256)]

theorem alloc_full {cfg : Cfg} {d : Daq} {n : Nat} (h : cfg.maxEnt < d.entityCount + n) :
    (allocOk d.allocState .allocDaq = true → allocDaq cfg d n = (d, ERR_MEMORY_OVERFLOW)) ∧
    (allocOk d.allocState .allocOdt = true → ∀ l, allocOdt cfg d l n = .ok (d, ERR_MEMORY_OVERFLOW)) ∧
    (allocOk d.allocState .allocOdtEntry = true → ∀ l o, allocOdtEntry cfg d l o n = .ok (d, ERR_MEMORY_OVERFLOW)) := by
  have : ¬ d.entityCount + n ≤ cfg.maxEnt := by omega
  refine ⟨fun ha => ?_, fun ha l => ?_, fun ha l o => ?_⟩
  · simp [allocDaq, ha, this]
  · simp [allocOdt, ha, this]
  · simp [allocOdtEntry, ha, this]

/-- C92: the first property test, tests/test_xcpdaq.py:247-258, for all numbers and pools:
ALLOC_DAQ succeeds exactly if the pool suffices, the lists are counted, and on failure nothing is. -/
theorem C92_alloc (cfg : Cfg) (hm : cfg.maxEnt ≤ 255) (d0 : Daq) (n : Nat) :
    ∃ d r, testCalls cfg (daqInit d0) [.daq n] = .ok (d, [r]) ∧
      (n ≤ cfg.maxEnt → r = 0xFF ∧ d.counts = (n, n, 0)) ∧
      (cfg.maxEnt < n → r = 0x30 ∧ d.counts = (0, 0, 0)) := by
  obtain ⟨h1, h2, h3⟩ := daqInit_fresh d0
  generalize daqInit d0 = d at *
  simp only [Daq.counts, Prod.mk.injEq] at h2
  obtain ⟨e1, e2, e3⟩ := h2
  refine ⟨(allocDaq cfg d n).1, (allocDaq cfg d n).2, rfl, ?_, ?_⟩ <;> intro h
  · obtain ⟨d', g1, -, g2, -⟩ := allocDaq_fits (cfg := cfg) (d := d) (n := n) (by simp [h1, allocOk]) (by omega) hm
    rw [g1]
    refine ⟨rfl, ?_⟩
    rw [g2, e1, e2, e3]
    simp [Nat.mod_eq_of_lt (by omega : n < 256)]
  · rw [(alloc_full (by omega)).1 (by simp [h1, allocOk])]
    exact ⟨rfl, by simp [Daq.counts, e1, e2, e3]⟩

/-- The lists and the ODTs of the second property test. -/
theorem allocs_two {cfg : Cfg} (hm : cfg.maxEnt ≤ 255) (d0 : Daq) {n0 n1 l : Nat} (hl : l < n0) (h1 : n0 + n1 ≤ cfg.maxEnt) :
    ∃ d1 d2, allocDaq cfg (daqInit d0) n0 = (d1, ERR_SUCCESS) ∧ allocOdt cfg d1 l n1 = .ok (d2, ERR_SUCCESS) ∧
      d2.allocState = .afterAllocOdt ∧ d2.counts = (n0 + n1, n0, n1) ∧ (d2.entities l).first = n0 ∧
      ∀ i, i ≠ l → (d2.entities i).first = 0 := by
  obtain ⟨g1, g2, g3⟩ := daqInit_fresh d0
  generalize daqInit d0 = d at *
  simp only [Daq.counts, Prod.mk.injEq] at g2
  obtain ⟨e1, e2, e3⟩ := g2
  obtain ⟨d1, a1, a2, a3, a4⟩ := allocDaq_fits (cfg := cfg) (d := d) (n := n0) (by simp [g1, allocOk]) (by omega) hm
  simp only [Daq.counts, Prod.mk.injEq, e1, e2, e3] at a3
  obtain ⟨b1, b2, b3⟩ := a3
  obtain ⟨d2, c1, c2, c3, c4, c5⟩ := allocOdt_fits (cfg := cfg) (d := d1) (l := l) (n := n1) (by simp [a2, allocOk]) (by omega) hm (by omega)
  simp only [Daq.counts, Prod.mk.injEq] at c3
  refine ⟨d1, d2, a1, c1, c2, ?_, by omega, ?_⟩
  · simp only [Daq.counts, Prod.mk.injEq]; omega
  · intro i hi
    rw [c5 i hi, a4, g3]
    show Entity.zero.first = 0
    decide

theorem allocs_any {cfg : Cfg} (hm : cfg.maxEnt ≤ 255) (d0 : Daq) {n0 n1 l l2 o : Nat} (n2 : Nat) (hl : l < n0) (hl2 : l2 < n0 + n1)
    (ho : o ≤ n1) (hol : l2 = l → o < n1) (h1 : n0 + n1 ≤ cfg.maxEnt) :
    ∃ d r, testCalls cfg (daqInit d0) [.daq n0, .odt l n1, .entry l2 o n2] = .ok (d, [0xFF, 0xFF, r]) ∧
      (n0 + n1 + n2 ≤ cfg.maxEnt → r = 0xFF ∧ d.counts = (n0 + n1 + n2, n0, n1)) ∧
      (cfg.maxEnt < n0 + n1 + n2 → r = 0x30 ∧ d.counts = (n0 + n1, n0, n1)) := by
  obtain ⟨d1, d2, a1, a2, a3, a4, a5, a6⟩ := allocs_two (cfg := cfg) hm d0 hl h1
  have a4' := a4
  simp only [Daq.counts, Prod.mk.injEq] at a4'
  obtain ⟨b1, b2, b3⟩ := a4'
  have key : ∀ d r, allocOdtEntry cfg d2 l2 o n2 = .ok (d, r) →
      testCalls cfg (daqInit d0) [.daq n0, .odt l n1, .entry l2 o n2] = .ok (d, [0xFF, 0xFF, r]) := by
    intro d r h
    simp only [testCalls, TestCall.exec, ok_bind, a1, a2, h]
    rfl
  by_cases h : n0 + n1 + n2 ≤ cfg.maxEnt
  · have hk : ((d2.entities l2).first + o) % 256 < cfg.maxEnt := by
      by_cases h2 : l2 = l
      · subst h2; have := hol rfl; rw [a5]; omega
      · rw [a6 _ h2]; omega
    obtain ⟨d, c1, c2⟩ := allocOdtEntry_fits (cfg := cfg) (d := d2) (l := l2) (o := o) (n := n2) (by simp [a3, allocOk])
      (by omega) hm (by omega) (by omega) hk
    refine ⟨d, _, key _ _ c1, fun _ => ⟨rfl, ?_⟩, fun h3 => by omega⟩
    rw [c2, b1, b2, b3]
  · exact ⟨d2, _, key _ _ ((alloc_full (by omega)).2.2 (by simp [a3, allocOk]) l2 o), fun h3 => absurd h3 h, fun _ => ⟨rfl, a4⟩⟩

/-- C92: the second property test, tests/test_xcpdaq.py:260-289, as meant: lists, then ODTs for one list, then entries for one ODT
that exists.  Each request succeeds exactly if the pool suffices, and everything is counted. -/
theorem C92_allocs {cfg : Cfg} (hm : cfg.maxEnt ≤ 255) (d0 : Daq) {n0 n1 l o : Nat} (n2 : Nat) (hl : l < n0) (ho : o < n1)
    (h1 : n0 + n1 ≤ cfg.maxEnt) :
    ∃ d r, testCalls cfg (daqInit d0) [.daq n0, .odt l n1, .entry l o n2] = .ok (d, [0xFF, 0xFF, r]) ∧
      (n0 + n1 + n2 ≤ cfg.maxEnt → r = 0xFF ∧ d.counts = (n0 + n1 + n2, n0, n1)) ∧
      (cfg.maxEnt < n0 + n1 + n2 → r = 0x30 ∧ d.counts = (n0 + n1, n0, n1)) :=
  allocs_any hm d0 n2 hl (by omega) (by omega) (fun _ => ho) h1

/-- C92: the ODTs of this test do not fit. -/
theorem C92_odts_full {cfg : Cfg} (hm : cfg.maxEnt ≤ 255) (d0 : Daq) {n0 n1 : Nat} (l : Nat) (h0 : n0 ≤ cfg.maxEnt)
    (h1 : cfg.maxEnt < n0 + n1) :
    ∃ d, testCalls cfg (daqInit d0) [.daq n0, .odt l n1] = .ok (d, [0xFF, 0x30]) ∧ d.counts = (n0, n0, 0) := by
  obtain ⟨g1, g2, -⟩ := daqInit_fresh d0
  generalize daqInit d0 = d at *
  simp only [Daq.counts, Prod.mk.injEq] at g2
  obtain ⟨e1, e2, e3⟩ := g2
  obtain ⟨d1, a1, a2, a3, -⟩ := allocDaq_fits (cfg := cfg) (d := d) (n := n0) (by simp [g1, allocOk]) (by omega) hm
  have a3' := a3
  simp only [Daq.counts, Prod.mk.injEq] at a3'
  refine ⟨d1, ?_, ?_⟩
  · simp only [testCalls, TestCall.exec, ok_bind, a1, (alloc_full (cfg := cfg) (d := d1) (n := n1) (by omega)).2.1 (by simp [a2, allocOk]) l]
    rfl
  · simp only [Daq.counts, Prod.mk.injEq]; omega

/-- C92: the second property test as written: the entries are requested for list `n0` and ODT `n1`.  Neither exists.  The answers
are the same. -/
theorem C92_as_written {cfg : Cfg} (hm : cfg.maxEnt ≤ 255) (d0 : Daq) {n0 n1 l : Nat} (n2 : Nat) (hl : l < n0) (ho : 0 < n1)
    (h1 : n0 + n1 ≤ cfg.maxEnt) :
    ∃ d r, testCalls cfg (daqInit d0) [.daq n0, .odt l n1, .entry n0 n1 n2] = .ok (d, [0xFF, 0xFF, r]) ∧
      (n0 + n1 + n2 ≤ cfg.maxEnt → r = 0xFF ∧ d.counts = (n0 + n1 + n2, n0, n1)) ∧
      (cfg.maxEnt < n0 + n1 + n2 → r = 0x30 ∧ d.counts = (n0 + n1, n0, n1)) :=
  allocs_any hm d0 n2 hl (by omega) (by omega) (fun h => by omega) h1

/-- The DAQ state before the first call of a test (zeroed statics). -/
def Ex.daq0 : Daq := (St.init Ex.sim (fun _ => 0)).daq

/-- Results and counts of the calls of a test after `XcpDaq_Init`, 100 entities. -/
def Ex.test (cs : List TestCall) : Option (List UInt8 × (Nat × Nat × Nat)) :=
  (testCalls Ex.sim (daqInit Ex.daq0) cs).toOption.map fun x => (x.2, x.1.counts)

/-- C92: three lists, one ODT for the first one, five entries for ODT 1 of list 3.  There is neither this list nor this ODT; the request
succeeds and list 1 has five ODTs. -/
theorem C92_fails_numbers :
    (testCalls Ex.sim (daqInit Ex.daq0) [.daq 3, .odt 0 1, .entry 3 1 5]).toOption.map
        (fun x => (x.2, (x.1.entities 0).num, (x.1.entities 1).num, (x.1.entities 3).num)) =
      some ([0xFF, 0xFF, 0xFF], 1, 5, 0) := by decide +kernel

/-- C92: the wrap-around test, tests/test_xcpdaq.py:203-220.  Four packets pass; the fifth is stored outside of the array. -/
theorem C92_fails_wraparound :
    let d : List UInt8 := [0x74, 0x65, 0x73, 0x74, 0x20, 0x64, 0x61, 0x74, 0x61]
    ((runQueue Ex.sim queueInit (List.replicate 4 [.put d, .get]).flatten).toOption.map fun x => (x.1.head, x.1.tail, x.2)) =
        some (4, 4, [d, d, d, d]) ∧
      runQueue Ex.sim queueInit ((List.replicate 4 [.put d, .get]).flatten ++ [.put d]) = .error .queueOob := by
  refine ⟨by decide +kernel, ?_⟩
  apply C34_fails
  · intro bs h
    have : bs = [0x74, 0x65, 0x73, 0x74, 0x20, 0x64, 0x61, 0x74, 0x61] := by simpa [List.replicate] using h
    subst this
    refine ⟨by decide, by decide, by decide⟩
  · decide
  · decide

/-! The tests of tests/test_xcpdaq.py:76-190. -/

/-- `test_alloc_seq_err`: without `XcpDaq_Init`, the allocation state is the initial one. -/
example : (allocDaq Ex.sim { Ex.daq0 with allocState := .idle } 1).2 = 0x29 := by decide +kernel
/-- `test_allocodt_seq_err` -/
example : Ex.test [.odt 0 2] = some ([0x29], 0, 0, 0) := by decide +kernel
/-- `test_allocodt_entry_seq_err` -/
example : Ex.test [.entry 0 1 2] = some ([0x29], 0, 0, 0) := by decide +kernel
/-- `test_alloc_ok` -/
example : (testCalls Ex.sim (daqInit Ex.daq0) [.daq 5]).toOption.map
    (fun x => (x.2, (List.range 100).map fun i => (x.1.entities i).kind)) =
    some ([0xFF], List.replicate 5 1 ++ List.replicate 95 0) := by decide +kernel
/-- `test_allocodt_ok` and `test_basic_alloc2` -/
example : Ex.test [.daq 1, .odt 0 2] = some ([0xFF, 0xFF], 3, 1, 2) := by decide +kernel
/-- `test_allocodt_entry_ok` -/
example : Ex.test [.daq 1, .odt 0 2, .entry 0 1 1] = some ([0xFF, 0xFF, 0xFF], 4, 1, 2) := by decide +kernel
/-- `test_free_ok1`, `test_free_ok2` -/
example : Ex.test [.daq 1, .free] = some ([0xFF, 0xFF], 0, 0, 0) := by decide +kernel
/-- `test_free_ok3` -/
example : Ex.test [.daq 1, .odt 0 1, .free] = some ([0xFF, 0xFF, 0xFF], 0, 0, 0) := by decide +kernel
/-- `test_free_ok4`: there is no ODT 1 -/
example : Ex.test [.daq 1, .odt 0 1, .entry 0 1 1, .free] = some ([0xFF, 0xFF, 0xFF, 0xFF], 0, 0, 0) := by decide +kernel
/-- `test_alloc_aftera_alloc` -/
example : Ex.test [.daq 1, .daq 2] = some ([0xFF, 0xFF], 3, 3, 0) := by decide +kernel
/-- `test_allocodt_after_allocodt` -/
example : Ex.test [.daq 2, .odt 0 2, .odt 1 3] = some ([0xFF, 0xFF, 0xFF], 7, 2, 5) := by decide +kernel
/-- `test_allocodt_entry_after_allocodt_entry` -/
example : Ex.test [.daq 1, .odt 0 2, .entry 0 0 1, .entry 0 1 2] = some ([0xFF, 0xFF, 0xFF, 0xFF], 6, 1, 2) := by decide +kernel
/-- `test_alloc_after_allocodt` -/
example : (Ex.test [.daq 2, .odt 0 2, .daq 3]).map (·.1) = some [0xFF, 0xFF, 0x29] := by decide +kernel
/-- `test_alloc_after_allocodt_entry` -/
example : (Ex.test [.daq 1, .odt 0 2, .entry 0 0 1, .daq 3]).map (·.1) = some [0xFF, 0xFF, 0xFF, 0x29] := by decide +kernel
/-- `test_allocodt_after_allocodt_entry` -/
example : (Ex.test [.daq 2, .odt 0 2, .entry 0 0 1, .odt 1 3]).map (·.1) = some [0xFF, 0xFF, 0xFF, 0x29] := by decide +kernel
/-- `test_alloc_out_of_mem` -/
example : Ex.test [.daq 101] = some ([0x30], 0, 0, 0) := by decide +kernel
/-- `test_allocodt_out_of_mem` -/
example : Ex.test [.daq 1, .odt 0 100] = some ([0xFF, 0x30], 1, 1, 0) := by decide +kernel
/-- `test_allocodt_entry_out_of_mem` -/
example : Ex.test [.daq 1, .odt 0 2, .entry 0 1 100] = some ([0xFF, 0xFF, 0x30], 3, 1, 2) := by decide +kernel
/-- `test_basic_alloc1` -/
example : Ex.test [.daq 1] = some ([0xFF], 1, 1, 0) := by decide +kernel
/-- `test_basic_alloc3` -/
example : Ex.test [.daq 2, .odt 0 2, .entry 0 0 2, .entry 0 1 3] = some ([0xFF, 0xFF, 0xFF, 0xFF], 9, 2, 2) := by decide +kernel

/-! The queue tests, tests/test_xcpdaq.py:195-240. -/

/-- `test_daq_queue_init` -/
example : (queueInit.head, queueInit.tail) = (0, 0) := rfl
/-- `test_daq_queue_empty` -/
example : queueInit.empty = true := rfl
/-- `test_daq_queue_full`: the fifth packet is refused -/
example : ((runQueue Ex.sim queueInit (List.replicate 4 (.put [1]))).toOption.map fun x => x.1.full) = some true ∧
    ((runQueue Ex.sim queueInit (List.replicate 3 (.put [1]))).toOption.map fun x => x.1.full) = some false := by decide +kernel
/-- `test_daq_queue_push_pop_seq` -/
example : (runQueue Ex.sim queueInit ([.put [0x30, 0x30], .put [0x31, 0x31], .put [0x32, 0x32], .put [0x33, 0x33]] ++
      List.replicate 4 .get)).toOption.map (·.2) =
    some [[0x30, 0x30], [0x31, 0x31], [0x32, 0x32], [0x33, 0x33]] := by decide +kernel

end Xcp
