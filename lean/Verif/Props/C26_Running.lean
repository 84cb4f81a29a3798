import Verif.Props.C18_LockedDaq
/-
C26: a running acquisition cannot be reconfigured.

True for SET_DAQ_PTR, WRITE_DAQ, WRITE_DAQ_MULTIPLE and SET_DAQ_LIST_MODE.  False for
FREE_DAQ, ALLOC_DAQ, ALLOC_ODT and ALLOC_ODT_ENTRY, which do not look at the acquisition
state (`C26_fails`).
-/
set_option autoImplicit false
namespace Xcp
open Spec

/-- SET_DAQ_PTR, WRITE_DAQ, SET_DAQ_LIST_MODE. -/
def Spec.daqWriteCode (b : UInt8) : Prop := b = 0xE2 ∨ b = 0xE1 ∨ b = 0xE0

/-- C26 for the commands that write the configuration. -/
theorem C26_refused_partial {cfg : Cfg} (hs : ShortOk cfg) {env : Env} {s s' : St} (hrun : s.daq.running = true) {p : Pdu}
    {c : Cmd} (hx : executes cfg s p c) (hc : daqWriteCode (cmdCode c)) (h : step cfg env s (.cmd p) = .ok s') :
    Refused cfg s s' 0x11 := by
  revert s'
  apply executes_refused hx
  have hrun : (bumpReceived cfg s).daq.running = true := by simpa using hrun
  generalize bumpReceived cfg s = s at *
  unfold daqWriteCode at hc
  cases c <;> first | (exfalso; revert hc; decide) | skip
  all_goals unfold_handlers
  all_goals post
  all_goals first
    | (rename_i h; rw [hrun] at h; cases h; done)
    | exact absurd ‹s.daq.running = false› (by rw [hrun]; decide)
    | exact refused_send8 hs _ _

/-- C26 for WRITE_DAQ_MULTIPLE, which refuses an element count that does not fit in a packet
before it looks at the acquisition state. -/
theorem C26_multiple {cfg : Cfg} (hs : ShortOk cfg) {env : Env} {s s' : St} (hrun : s.daq.running = true) {p : Pdu}
    {n : UInt8} (hn : p.buf[1]? = some n) (hx : executes cfg s p .writeDaqMultiple)
    (h : step cfg env s (.cmd p) = .ok s') :
    Refused cfg s s' (if cfg.maxCto < n.toNat * 8 + 2 then 0x22 else 0x11) := by
  have hrun : (bumpReceived cfg s).daq.running = true := by simpa using hrun
  rw [executes_step env hx] at h
  apply Refused.of_bump
  generalize bumpReceived cfg s = s at *
  simp only [handler, writeDaqMultipleRes, byte_eq hn, ok_bind, assertDaqStopped, hrun] at h
  split at h
  · rename_i hlt
    cases h
    rw [if_pos hlt, sendResult_eq]
    exact refused_send8 hs _ _
  · rename_i hlt
    rw [if_pos trivial] at h
    cases h
    rw [if_neg hlt]
    exact refused_send8 hs _ _

/-- C26 is false in general: while an acquisition runs, FREE_DAQ and the three allocation
commands are accepted and change the configuration, and the acquisition goes on. -/
theorem C26_fails :
    let h := [Ex.c [0xFF], Ex.c [0xD6], Ex.c [0xD5, 0, 1, 0], Ex.c [0xD4, 0, 0, 0, 1], Ex.c [0xD3, 0, 0, 0, 0, 1],
      Ex.c [0xE2, 0, 0, 0, 0, 0], Ex.c [0xE1, 0xFF, 1, 0, 0, 0x10, 0, 0], Ex.c [0xDD, 1]]
    Ex.obs Ex.sim h (fun s => (s.daq.running, s.daq.listCount, s.daq.entityCount)) = some (true, 1, 3) ∧
    Ex.obs Ex.sim (h ++ [Ex.c [0xD6]]) (fun s => (s.daq.running, s.daq.listCount, s.daq.entityCount,
      (s.tx.map Frame.bytes).getLast?)) = some (true, 0, 0, some [1, 0, 8, 0, 0xFF]) ∧
    Ex.obs Ex.sim (h ++ [Ex.c [0xD6], Ex.c [0xD5, 0, 2, 0], Ex.c [0xD4, 0, 1, 0, 1], Ex.c [0xD3, 0, 1, 0, 0, 1]])
      (fun s => (s.daq.running, s.daq.listCount, s.daq.entityCount, (s.tx.map Frame.bytes).drop 9)) =
      some (true, 2, 4, [[1, 0, 9, 0, 0xFF], [1, 0, 10, 0, 0xFF], [1, 0, 11, 0, 0xFF]]) := by
  refine ⟨?_, ?_, ?_⟩ <;> decide +kernel

/-- While running, SET_DAQ_PTR is refused. -/
example : Ex.frames Ex.sim [Ex.c [0xFF], Ex.c [0xDD, 1], Ex.c [0xE2, 0, 0, 0, 0, 0], Ex.c [0xDD, 0], Ex.c [0xE2, 0, 0, 0, 0, 0]] =
    some [[8, 0, 0, 0, 0xFF, 0x15, 0x80, 64, 64, 0, 1, 1], [1, 0, 1, 0, 0xFF], [2, 0, 2, 0, 0xFE, 0x11], [1, 0, 3, 0, 0xFF],
      [2, 0, 4, 0, 0xFE, 0x22]] := by decide +kernel

end Xcp
