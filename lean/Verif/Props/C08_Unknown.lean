import Verif.Proofs.Table
import Verif.Model.Example
/-
C08: unsupported commands get ERR_CMD_UNKNOWN.

It holds for codes 0xC7..0xFF (`C08_unknown_partial`) and fails for all lower codes
(`C08_fails_low_codes`): the jump table is indexed outside its bounds.
-/
set_option autoImplicit false
namespace Xcp
open Spec

/-- The commands that every slave offering their group has to offer: CONNECT, DISCONNECT,
GET_STATUS, SYNCH; DOWNLOAD; SET_CAL_PAGE, GET_CAL_PAGE; CLEAR_DAQ_LIST, SET_DAQ_PTR, WRITE_DAQ,
SET_DAQ_LIST_MODE, GET_DAQ_LIST_MODE, START_STOP_DAQ_LIST, START_STOP_SYNCH; PROGRAM_START,
PROGRAM_CLEAR, PROGRAM, PROGRAM_RESET. -/
def Spec.requiredCodes : List UInt8 :=
  [0xFF, 0xFE, 0xFD, 0xFC, 0xF0, 0xEB, 0xEA, 0xE3, 0xE2, 0xE1, 0xE0, 0xDF, 0xDE, 0xDD,
   0xD2, 0xD1, 0xD0, 0xCF]

/-- A command code is disabled by configuration: its group (calibration, paging, data
acquisition, programming, by range of codes) is switched off, or the command is optional and
switched off itself. -/
def Spec.Disabled (cfg : Cfg) (b : UInt8) : Prop :=
  (0xEC ≤ b ∧ b ≤ 0xF0 ∧ cfg.cal = false) ∨
  (0xE4 ≤ b ∧ b ≤ 0xEB ∧ cfg.pag = false) ∨
  ((0xD3 ≤ b ∧ b ≤ 0xE3 ∨ b = 0xC7) ∧ cfg.daq = false) ∨
  (0xC8 ≤ b ∧ b ≤ 0xD2 ∧ cfg.pgm = false) ∨
  (b ∉ requiredCodes ∧ ∃ c, b = cmdCode c ∧ cfg.on c = false)

theorem cmdCode_inj {c d : Cmd} (h : cmdCode c = cmdCode d) : c = d := by
  have hc := table_code c
  rw [h, table_code d] at hc
  exact (Option.some.inj hc).symm

/-- The commands a slave offers are exactly the ones that are not disabled. -/
theorem C08_offered (cfg : Cfg) (c : Cmd) : cfg.supports c = true ↔ ¬ Disabled cfg (cmdCode c) := by
  have he : (∃ d, cmdCode c = cmdCode d ∧ cfg.on d = false) ↔ cfg.on c = false :=
    ⟨fun ⟨d, h, hd⟩ => cmdCode_inj h ▸ hd, fun h => ⟨c, rfl, h⟩⟩
  unfold Disabled
  rw [he]
  cases c <;> simp [Cfg.supports, Cmd.group, Cmd.mandatory, cmdCode, requiredCodes] <;> decide

/-- C08 for the codes the standard assigns (0xC7..0xFF). -/
theorem C08_unknown_partial {cfg : Cfg} (hs : ShortOk cfg) {s : St} (hr : Ready s) (env : Env) {p : Pdu}
    {b : UInt8} (hp : code p = some b) (hb : 0xC7 ≤ b.toNat) (hun : Disabled cfg b) :
    ∃ s', step cfg env s (.cmd p) = .ok s' ∧ Refused cfg s s' 0x20 := by
  obtain ⟨c, hc, hbc⟩ := table_hi hb
  have hoff : cfg.supports c = false := by
    cases h : cfg.supports c with
    | false => rfl
    | true => exact absurd (hbc ▸ hun) ((C08_offered cfg c).mp h)
  refine ⟨send8 cfg (bumpReceived cfg s) [0xFE, ERR_CMD_UNKNOWN], ?_, send8_answers hs (by simp) (by simp),
    (bumpReceived_same cfg s).trans (send8_same ..)⟩
  rw [step_cmd env hr.conn hr.idle hp hc]
  simp [tableEntry, hoff, notImplemented]

/-- C08 fails for every packet with a code below 0xC7 sent to a connected, idle slave. -/
theorem C08_fails_low_codes {cfg : Cfg} {s : St} (hr : Ready s) (env : Env) {p : Pdu} {b : UInt8}
    (hp : code p = some b) (hb : b.toNat < 0xC7) : step cfg env s (.cmd p) = .error .dispatchOob := by
  simp only [step, dispatch, byte_of_code hp, hr.conn, hr.idle, ok_bind, table_lo hb]
  rfl

/-- GET_SEED is off and PROGRAM_NEXT is off in the simulator. -/
example : Ex.frames Ex.sim [Ex.c [0xFF], Ex.c [0xF8, 0, 1], Ex.c [0xCA]] =
    some [[8, 0, 0, 0, 0xFF, 0x15, 0x80, 64, 64, 0, 1, 1], [2, 0, 1, 0, 0xFE, 0x20], [2, 0, 2, 0, 0xFE, 0x20]] := by
  decide +kernel

/-- The reserved code 0xC0 (and the command DTO_CTR_PROPERTIES 0xC5 of newer standards). -/
example : Ex.faultOf Ex.sim [Ex.c [0xFF], Ex.c [0xC0]] = some .dispatchOob := by decide +kernel

end Xcp
