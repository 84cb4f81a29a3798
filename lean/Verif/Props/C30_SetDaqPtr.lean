import Verif.Proofs.Layout
/-
C30: SET_DAQ_PTR accepts exactly the existing entries.

True for list numbers below 256; the 16-bit list number is cut to 8 bits, so SET_DAQ_PTR for list
256 is accepted whenever list 0 has the entry (`C30_fails`).
-/
set_option autoImplicit false
namespace Xcp
open Spec

/-- C30: with the configuration `c` in the pool and no acquisition running, SET_DAQ_PTR is accepted
and sets the pointer if the entry exists, and is refused with ERR_OUT_OF_RANGE otherwise. -/
theorem C30_set_daq_ptr_partial {cfg : Cfg} (hc : cfg.Ok) (hs : ShortOk cfg) (env : Env) {s : St} (hd : DaqReady cfg s)
    (hsup : cfg.supports .setDaqPtr = true) (hrun : s.daq.running = false) {c : Conf} (hr : Rep cfg s.daq c)
    {p : Pdu} {l : Nat} {o e : UInt8} (hp : code p = some 0xE2) (h2 : Param cfg.motorola p 2 2 l) (hl : l < 256)
    (h4 : p.buf[4]? = some o) (h5 : p.buf[5]? = some e) :
    ∃ s', step cfg env s (.cmd p) = .ok s' ∧
      (c.has (.entry l o.toNat e.toNat) → Answers cfg s s' [0xFF] ∧
        SameCore { s with daq := { s.daq with ptr := ⟨l, o.toNat, e.toNat⟩ } } s') ∧
      (¬ c.has (.entry l o.toNat e.toNat) → Refused cfg s s' 0x22) := by
  rw [hd.ready.stepc env .setDaqPtr hp hsup]
  have hb := hd.bump
  have hsame := bumpReceived_same cfg s
  have htx : (bumpReceived cfg s).tx = s.tx := bumpReceived_tx cfg s
  generalize bumpReceived cfg s = b at *
  obtain ⟨v, hv, hv'⟩ := hr.validate hc l o.toNat e.toNat
  simp only [handler, setDaqPtrRes, assertDaqStopped, assertPgmIdle, assertUnlocked, hsame.daq]
  rw [if_neg (by rw [hrun]; decide), if_neg hb.pgm, if_neg hb.notProtected]
  simp only [h2.word, byte_eq h4, byte_eq h5, ok_bind, Nat.mod_eq_of_lt hl, hv]
  cases v with
  | true =>
    refine ⟨_, rfl, fun _ => ⟨send8_answers hs (by simp) htx, ?_⟩, fun h => absurd (hv'.mp rfl) h⟩
    exact (hsame.withDaq _).trans (send8_same _ _ _)
  | false =>
    refine ⟨_, rfl, fun h => absurd (hv'.mpr h) (by decide), fun _ => ⟨send8_answers hs (by simp) htx, ?_⟩⟩
    exact hsame.trans (send8_same _ _ _)

/-- Two lists, the second one with two ODTs of one and three entries: which of the entries around
the existing ones can be selected. -/
def Ex.alloc2 : List (Env × Op) :=
  [Ex.c [0xFF], Ex.c [0xD6], Ex.c [0xD5, 0, 2, 0], Ex.c [0xD4, 0, 1, 0, 2], Ex.c [0xD3, 0, 1, 0, 0, 1], Ex.c [0xD3, 0, 1, 0, 1, 3]]

example : Ex.obs Ex.sim (Ex.alloc2 ++ [Ex.c [0xE2, 0, 0, 0, 0, 0], Ex.c [0xE2, 0, 1, 0, 0, 0], Ex.c [0xE2, 0, 1, 0, 0, 1],
    Ex.c [0xE2, 0, 1, 0, 1, 2], Ex.c [0xE2, 0, 1, 0, 1, 3], Ex.c [0xE2, 0, 1, 0, 2, 0], Ex.c [0xE2, 0, 2, 0, 0, 0]])
    (fun s => ((s.tx.map fun f => f.bytes.drop 4).drop 6, s.daq.ptr.list, s.daq.ptr.odt, s.daq.ptr.entry)) =
    some ([[0xFE, 0x22], [0xFF], [0xFE, 0x22], [0xFF], [0xFE, 0x22], [0xFE, 0x22], [0xFE, 0x22]], 1, 1, 2) := by
  decide +kernel

/-- C30 is false for list numbers from 256 on: there are two lists, but SET_DAQ_PTR for list 257 is
accepted, and designates an entry of list 1. -/
theorem C30_fails :
    Ex.obs Ex.sim (Ex.alloc2 ++ [Ex.c [0xE2, 0, 1, 1, 1, 2]])
      (fun s => (s.daq.listCount, (s.tx.map fun f => f.bytes.drop 4).getLast?, s.daq.ptr.list)) =
      some (2, some [0xFF], 1) := by decide +kernel

end Xcp
