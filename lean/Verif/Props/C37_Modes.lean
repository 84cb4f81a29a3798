import Verif.Props.C36_Unassigned
/-
C37: list modes are per list.

False: all lists share one mode byte.  Setting the mode of one list sets it for all
(`C37_fails`), and FREE_DAQ does not reset it (`C37_free_keeps`, `C37_fails_free`).  What holds: the mode that counts is the
one set last, so with one list it is the mode of this list.
-/
set_option autoImplicit false
namespace Xcp
open Spec

theorem setReset_bits {v f : UInt8} (h : v &&& f = f ∨ v &&& f = 0) (r : UInt8) :
    setResetBit8 r v f = (r &&& ~~~f) ||| (v &&& f) := by
  have h1 : r ||| f = (r &&& ~~~f) ||| f := by
    apply UInt8.toBitVec_inj.mp
    apply BitVec.eq_of_getLsbD_eq
    intro i hi
    simp only [UInt8.toBitVec_or, UInt8.toBitVec_and, UInt8.toBitVec_not, BitVec.getLsbD_or, BitVec.getLsbD_and, BitVec.getLsbD_not, hi,
      decide_true, Bool.true_and]
    generalize r.toBitVec.getLsbD i = a
    generalize f.toBitVec.getLsbD i = b
    revert a b
    decide
  unfold setResetBit8
  split
  · rename_i h2; rw [h2]; exact h1
  · rename_i h2
    rcases h with h | h
    · exact absurd h h2
    · rw [h]; simp

theorem newMode_bits (old m : UInt8) : newMode old m = (old &&& 0x0C) ||| (m &&& 0xF3) := by
  unfold newMode
  simp only [List.foldl]
  rw [setReset_bits (f := MODE_TIMESTAMP), setReset_bits (f := MODE_ALTERNATING), setReset_bits (f := MODE_DIRECTION), setReset_bits (f := MODE_PID_OFF),
    setReset_bits (f := MODE_SELECTED), setReset_bits (f := MODE_STARTED)]
  · apply UInt8.toBitVec_inj.mp
    apply BitVec.eq_of_getLsbD_eq
    intro i hi
    simp only [MODE_TIMESTAMP, MODE_ALTERNATING, MODE_DIRECTION, MODE_PID_OFF, MODE_SELECTED, MODE_STARTED,
      UInt8.toBitVec_or, UInt8.toBitVec_and, UInt8.toBitVec_not, BitVec.getLsbD_or, BitVec.getLsbD_and, BitVec.getLsbD_not]
    generalize old.toBitVec.getLsbD i = a
    generalize m.toBitVec.getLsbD i = b
    revert a b
    match i, hi with
    | 0, _ => decide
    | 1, _ => decide
    | 2, _ => decide
    | 3, _ => decide
    | 4, _ => decide
    | 5, _ => decide
    | 6, _ => decide
    | 7, _ => decide
  all_goals exact forall_u8 (P := fun m => m &&& _ = _ ∨ m &&& _ = 0) (by decide +kernel) m
/-- C37, partial: after an accepted SET_DAQ_LIST_MODE the timestamp, PID-off, selected and started
flags that the slave goes by (for every list) are those of the command. -/
theorem C37_mode_partial {cfg : Cfg} (hs : ShortOk cfg) (env : Env) {s : St} (hd : DaqReady cfg s)
    (hsup : cfg.supports .setDaqListMode = true) (hrun : s.daq.running = false) {p : Pdu} {m b6 b7 : UInt8} {l ev : Nat}
    (hp : code p = some 0xE0) (h1 : p.buf[1]? = some m) (hm : m &&& 3 = 0) (h2 : Param cfg.motorola p 2 2 l) (hl : l < 256)
    (h4 : Param cfg.motorola p 4 2 ev) (hev : ev < cfg.numEvents) (h6 : p.buf[6]? = some b6) (hb6 : b6.toNat ≤ 1)
    (h7 : p.buf[7]? = some b7) :
    ∃ s', step cfg env s (.cmd p) = .ok s' ∧ Answers cfg s s' [0xFF] ∧
      ∀ f ∈ [(0x10 : UInt8), 0x20, 0x40, 0x80], s'.daq.mode &&& f = m &&& f := by
  obtain ⟨s', e1, e2, e3, -⟩ := mode_step hs env hd hsup hrun hp h1 hm h2 hl h4 hev h6 hb6 h7
  refine ⟨s', e1, e2, ?_⟩
  rw [e3]
  show ∀ f ∈ [(0x10 : UInt8), 0x20, 0x40, 0x80], newMode s.daq.mode m &&& f = m &&& f
  rw [newMode_bits]
  intro f hf
  have h0 : 0x0C &&& f = 0 ∧ 0xF3 &&& f = f := by
    revert f; decide
  rw [UInt8.and_comm, u8_and_or, UInt8.and_comm f, UInt8.and_comm f, UInt8.and_assoc, UInt8.and_assoc, h0.1, h0.2]
  simp

/-- Packets of list 0 (one ODT, no entries, event 0) after the given commands. -/
def Ex.modes (h : List (Env × Op)) : Option (List (List UInt8)) :=
  Ex.obs { Ex.sim with timestamping := true }
    ([Ex.c [0xFF], Ex.c [0xD6], Ex.c [0xD5, 0, 2, 0], Ex.c [0xD4, 0, 0, 0, 1], Ex.c [0xD4, 0, 1, 0, 1]] ++ h ++
      [Ex.c [0xDD, 1], (Ex.env, .trigger 0)])
    (fun s => (s.tx.filter (·.kind == .dto)).map fun f => f.bytes.drop 4)

/-- List 0 without timestamps, and with. -/
example : Ex.modes [Ex.c [0xE0, 0, 0, 0, 0, 0, 1, 0]] = some [[0]] ∧
    Ex.modes [Ex.c [0xE0, 0x10, 0, 0, 0, 0, 1, 0]] = some [[0, 0x78, 0x56, 0x34, 0x12]] := by
  refine ⟨?_, ?_⟩ <;> decide +kernel

/-- C37 is false: setting the mode of list 1 afterwards changes the packets of list 0. -/
theorem C37_fails :
    Ex.modes [Ex.c [0xE0, 0, 0, 0, 0, 0, 1, 0], Ex.c [0xE0, 0x10, 1, 0, 1, 0, 1, 0]] = some [[0, 0x78, 0x56, 0x34, 0x12]] ∧
    Ex.modes [Ex.c [0xE0, 0x10, 0, 0, 0, 0, 1, 0], Ex.c [0xE0, 0, 1, 0, 1, 0, 1, 0]] = some [[0]] := by
  refine ⟨?_, ?_⟩ <;> decide +kernel

/-- C37 is false: FREE_DAQ does not forget the mode. -/
theorem C37_fails_free :
    Ex.modes [Ex.c [0xE0, 0x10, 0, 0, 0, 0, 1, 0], Ex.c [0xD6], Ex.c [0xD5, 0, 1, 0], Ex.c [0xD4, 0, 0, 0, 1]] =
      some [[0, 0x78, 0x56, 0x34, 0x12]] := by decide +kernel

/-- FREE_DAQ keeps the mode, whatever it is. -/
theorem C37_free_keeps (d : Daq) : (daqFree d).mode = d.mode := by
  unfold daqFree; dsimp only; split <;> rfl

end Xcp
