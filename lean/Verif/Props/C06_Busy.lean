import Verif.Proofs.Busy
import Verif.Model.Example
/-
C06: a busy slave answers ERR_CMD_BUSY and does nothing else.
-/
set_option autoImplicit false
namespace Xcp
open Spec

/-- The slave is in the middle of a block upload or of a background checksum. -/
def Spec.InProgress (s : St) : Prop := s.slaveBlk.active = true ∨ s.ck.state ≠ .idle

/-- The command step of C06, in terms of the busy flag. -/
theorem busy_refuses {cfg : Cfg} (hs : ShortOk cfg) (env : Env) {s : St} (hc : s.connected = true)
    (hb : s.busy = true) {p : Pdu} (hp : p.buf ≠ []) :
    ∃ s', step cfg env s (.cmd p) = .ok s' ∧ Refused cfg s s' 0x10 := by
  obtain ⟨b, hb'⟩ : ∃ b, code p = some b := by
    cases h : p.buf with
    | nil => exact absurd h hp
    | cons b _ => exact ⟨b, by simp [code, h]⟩
  refine ⟨busyResponse cfg s, ?_, ?_, busyState_same cfg s⟩
  · simp [step, dispatch, byte_of_code hb', hc, hb]
  · unfold busyResponse
    refine send8_answers hs (by simp) ?_
    split <;> rfl

/-- C06.  In every reachable state in which an operation is in progress, any packet is
refused with ERR_CMD_BUSY. -/
theorem C06_busy {cfg : Cfg} (hs : ShortOk cfg) {mem : Mem} {h : List (Env × Op)} {s : St}
    (hr : run cfg (St.init cfg mem) h = .ok s) (hp : InProgress s) (env : Env) {p : Pdu}
    (hb : p.buf ≠ []) :
    ∃ s', step cfg env s (.cmd p) = .ok s' ∧ Refused cfg s s' 0x10 := by
  have hI := run_busy hr
  have hbz := hI.iff.mpr hp
  exact busy_refuses hs env (hI.conn hbz) hbz hb

/-- Conversely the slave refuses commands as busy only while an operation is in progress:
otherwise a connected slave executes them. -/
theorem C06_not_busy {cfg : Cfg} {mem : Mem} {h : List (Env × Op)} {s : St}
    (hr : run cfg (St.init cfg mem) h = .ok s) (hp : ¬ InProgress s) : s.busy = false := by
  have hI := run_busy hr
  cases hb : s.busy with
  | false => rfl
  | true => exact absurd (hI.iff.mp hb) hp

/-- A block upload of 20 bytes on CAN: a GET_STATUS in the middle is refused as busy, and
the upload goes on afterwards. -/
example : Ex.frames Ex.can [Ex.c [0xFF], Ex.c [0xF6, 0, 0, 0, 0x40, 0, 0, 0], Ex.c [0xF5, 20], Ex.c [0xFD],
      (Ex.env, .main), (Ex.env, .main), Ex.c [0xFD]] =
    some [[0xFF, 0x15, 0xC0, 8, 8, 0, 1, 1], [0xFF], [0xFF, 0x40, 0x41, 0x42, 0x43, 0x44, 0x45, 0x46],
      [0xFE, 0x10], [0xFF, 0x47, 0x48, 0x49, 0x4A, 0x4B, 0x4C, 0x4D],
      [0xFF, 0x4E, 0x4F, 0x50, 0x51, 0x52, 0x53], [0xFF, 0, 0, 0, 0, 0]] := by decide +kernel

end Xcp
