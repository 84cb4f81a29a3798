import Verif.Proofs.Layout
/-
C29: the configuration is what was allocated.

The first half is true.  The second half is false: ALLOC_ODT and ALLOC_ODT_ENTRY do not check the
list and ODT numbers, so requests for things that do not exist are accepted and overwrite the
storage of others (`C29_fails_odt`, `C29_fails_entry`), or leave the pool (`C29_fails_oob`); a second
ALLOC_ODT for a list loses the ODTs of the first (`C29_fails_repeat`).
-/
set_option autoImplicit false
namespace Xcp
open Spec

/-- C29: after any history in which each accepted request named a list or ODT that existed and had
not been given its ODTs or entries before, the pool holds exactly the configuration requested: as
many lists, ODTs and entries, each in a slot of its own. -/
theorem C29_layout_partial {cfg : Cfg} (hc : cfg.Ok) (hs : ShortOk cfg) (ha : AllocOn cfg) {s s' : St} (h0 : Empty s.daq)
    {t : List (AllocReq × UInt8)} (h : AllocTrace cfg s t s') (hsm : ∀ x ∈ t, small x.1)
    (had : Each (fun t1 r a => a = 0xFF → (confAfter cfg.resetOnSeqErr t1).admits r) t) :
    Rep cfg s'.daq (confAfter cfg.resetOnSeqErr t) :=
  (trace_held hc hs ha h0 h hsm had).rep

/-- C29: and the lookup functions of the slave lead to these slots. -/
theorem C29_lookup {cfg : Cfg} (hc : cfg.Ok) {d : Daq} {c : Conf} (h : Rep cfg d c) {i j k : Nat} :
    (c.has (.odt i j) → getOdt cfg d i j = .ok (d.entities (slot d (.odt i j)))) ∧
    (c.has (.entry i j k) → getOdtEntryIdx cfg d i j k = .ok (slot d (.entry i j k))) :=
  ⟨h.getOdt hc, h.getEntry hc⟩

/-- Two lists, the second one with two ODTs of one and three entries. -/
def Ex.alloc : List (Env × Op) :=
  [Ex.c [0xFF], Ex.c [0xD6], Ex.c [0xD5, 0, 2, 0], Ex.c [0xD4, 0, 1, 0, 2], Ex.c [0xD3, 0, 1, 0, 0, 1], Ex.c [0xD3, 0, 1, 0, 1, 3]]

/-- Slot and size of everything in it. -/
example : Ex.obs Ex.sim Ex.alloc (fun s =>
    [(s.daq.entities 0).num, (s.daq.entities 1).num, slot s.daq (.odt 1 0), slot s.daq (.odt 1 1),
     (s.daq.entities 2).num, (s.daq.entities 3).num, slot s.daq (.entry 1 0 0), slot s.daq (.entry 1 1 0),
     slot s.daq (.entry 1 1 2), s.daq.entityCount]) =
    some [0, 2, 2, 3, 1, 3, 4, 5, 7, 8] := by decide +kernel

example : confAfter true [(.free, 0xFF), (.daq 2, 0xFF), (.odt 1 2, 0xFF), (.entry 1 0 1, 0xFF), (.entry 1 1 3, 0xFF),
    (.daq 1, 0x30)] = [[], [1, 3]] := by decide

/-- C29 is false for ALLOC_ODT with a list that does not exist: with one list allocated, a request
for list 1 is accepted, and writes into the first of its own new ODTs. -/
theorem C29_fails_odt :
    let h := [Ex.c [0xFF], Ex.c [0xD6], Ex.c [0xD5, 0, 1, 0]]
    Ex.obs Ex.sim h (fun s => s.daq.listCount) = some 1 ∧
    Ex.obs Ex.sim (h ++ [Ex.c [0xD4, 0, 1, 0, 2]]) (fun s => ((s.tx.map Frame.bytes).getLast?, (s.daq.entities 0).num,
      (s.daq.entities 1).num, s.daq.odtCount)) = some (some [1, 0, 3, 0, 0xFF], 0, 2, 2) := by
  refine ⟨?_, ?_⟩ <;> decide +kernel

/-- C29 is false for ALLOC_ODT_ENTRY with an ODT that does not exist: list 0 has one ODT, and a
request for its ODT 1 is accepted; it writes into the ODT of list 1, which now has 3 entries
although none were requested. -/
theorem C29_fails_entry :
    let h := [Ex.c [0xFF], Ex.c [0xD6], Ex.c [0xD5, 0, 2, 0], Ex.c [0xD4, 0, 0, 0, 1], Ex.c [0xD4, 0, 1, 0, 1]]
    Ex.obs Ex.sim h (fun s => (s.daq.entities (slot s.daq (.odt 1 0))).num) = some 0 ∧
    Ex.obs Ex.sim (h ++ [Ex.c [0xD3, 0, 0, 0, 1, 3]]) (fun s => ((s.tx.map Frame.bytes).getLast?,
      (s.daq.entities (slot s.daq (.odt 1 0))).num)) = some (some [1, 0, 5, 0, 0xFF], 3) := by
  refine ⟨?_, ?_⟩ <;> decide +kernel

/-- C29 is false: ALLOC_ODT for list 200 of a pool with 100 elements writes outside the pool. -/
theorem C29_fails_oob :
    Ex.faultOf Ex.sim [Ex.c [0xFF], Ex.c [0xD6], Ex.c [0xD5, 0, 1, 0], Ex.c [0xD4, 0, 200, 0, 1]] = some .entityOob := by
  decide +kernel

/-- A second ALLOC_ODT for the same list: the list then claims four ODTs starting with the two new
ones, so its third and fourth ODT are beyond what was allocated, and the first two are lost. -/
theorem C29_fails_repeat :
    Ex.obs Ex.sim [Ex.c [0xFF], Ex.c [0xD6], Ex.c [0xD5, 0, 1, 0], Ex.c [0xD4, 0, 0, 0, 2], Ex.c [0xD4, 0, 0, 0, 2]]
      (fun s => ((s.tx.map Frame.bytes).getLast?, (s.daq.entities 0).num, slot s.daq (.odt 0 0), slot s.daq (.odt 0 3),
        s.daq.entityCount)) = some (some [1, 0, 4, 0, 0xFF], 4, 3, 6, 5) := by decide +kernel

end Xcp
