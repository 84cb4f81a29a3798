import Verif.Proofs.Refuse
import Verif.Model.Example
/-
C25: PROGRAM stores the data it acknowledges.

False: the copy is commented out in `Xcp_Program_Res`.  A PROGRAM packet is answered
positively, moves the MTA, and stores nothing.
-/
set_option autoImplicit false
namespace Xcp
open Spec

/-- C25 is false: an accepted PROGRAM leaves all of memory as it was. -/
theorem C25_fails {cfg : Cfg} (hs : ShortOk cfg) (env : Env) {s : St} (hpg : s.pgm = .active) {p : Pdu} {len : UInt8}
    (hx : executes cfg s p .program) (hl : p.buf[1]? = some len)
    (hok : cfg.memCheck = true → env.memCheck s.mta len.toNat .write true = true) :
    ∃ s', step cfg env s (.cmd p) = .ok s' ∧ Answers cfg s s' [0xFF] ∧ s'.mem = s.mem ∧
      s'.mta = ⟨s.mta.ext, s.mta.addr + UInt32.ofNat len.toNat⟩ := by
  obtain ⟨b, hb⟩ : ∃ b, b = bumpReceived cfg s := ⟨_, rfl⟩
  have e1 : b.pgm = s.pgm := by rw [hb]; simp
  have e2 : b.mta = s.mta := by rw [hb]; simp
  refine ⟨send8 cfg { b with mta := b.mta.advance len.toNat } [0xFF], ?_, ?_, ?_, ?_⟩
  · rw [executes_step env hx, ← hb]
    simp only [handler, programRes, byte_eq hl, ok_bind, assertPgmActive, checkMem]
    rw [if_neg (by simp [e1, hpg]), if_neg ?_]
    · rfl
    · rw [e2]
      cases hm : cfg.memCheck
      · simp
      · simp [hok hm]
  · exact send8_answers hs (by simp) (by simp [hb])
  · simp [hb]
  · simp [e2, Mta.advance]

/-- Concretely: PROGRAM of the byte 7 at 0x1000, where the memory holds 0. -/
theorem C25_fails_witness :
    Ex.obs Ex.sim [Ex.c [0xFF], Ex.c [0xF6, 0, 0, 0, 0, 0x10, 0, 0], Ex.c [0xD2], Ex.c [0xD0, 1, 7]]
      (fun s => ((s.tx.map Frame.bytes).getLast?, s.mem 0x1000, s.mta)) =
    some (some [1, 0, 3, 0, 0xFF], 0, ⟨0, 0x1001⟩) := by decide +kernel

end Xcp
