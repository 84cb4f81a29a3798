import Verif.Proofs.Answer
import Verif.Model.Example
/-
C04: the CONNECT response describes the configuration.
-/
set_option autoImplicit false
namespace Xcp
open Spec

/-- C04.  `res` is the resource byte, `mode` is COMM_MODE_BASIC.  MAX_DTO is little-endian,
whatever the announced byte order (see C05). -/
theorem C04_connect {cfg : Cfg} (hs : ShortOk cfg)
    (hg : cfg.granularity = 0 ∨ cfg.granularity = 2 ∨ cfg.granularity = 4 ∨ cfg.granularity = 6)
    (env : Env) {s : St} (hb : s.busy = false) {p : Pdu} (hp : code p = some 0xFF) :
    ∃ (s' : St) (res mode maxCto d0 d1 : UInt8),
      step cfg env s (.cmd p) = .ok s' ∧
      Answers cfg s s' [0xFF, res, mode, maxCto, d0, d1, 1, 1] ∧
      -- resources: bit 0 CAL/PAG, bit 2 DAQ, bit 3 STIM, bit 4 PGM, nothing else
      (∀ i < 8, res.toNat.testBit i =
        ((i == 0 && (cfg.cal || cfg.pag)) || (i == 2 && cfg.daq) || (i == 3 && cfg.stim) ||
          (i == 4 && cfg.pgm))) ∧
      -- COMM_MODE_BASIC: bit 0 Motorola, bits 1-2 granularity, bit 6 slave block mode, bit 7 optional
      mode &&& 1 = (if cfg.motorola then 1 else 0) ∧
      mode &&& 6 = cfg.granularity ∧
      mode &&& 0x40 = (if cfg.slaveBlock then 0x40 else 0) ∧
      mode &&& 0x80 = (if cfg.on .getCommModeInfo then 0x80 else 0) ∧
      mode &&& 0x38 = 0 ∧
      maxCto.toNat = cfg.maxCto % 256 ∧
      d0.toNat + 256 * d1.toNat = cfg.maxDto % 65536 ∧
      -- connected afterwards, everything else as before
      s'.connected = true ∧ SameCore { s with connected := true } s' := by
  have hstep : step cfg env s (.cmd p) = connectRes cfg (bumpReceived cfg s) := by
    by_cases hc : s.connected
    · rw [step_cmd env hc hb hp (c := .connect) rfl]; rfl
    · simp [step, dispatch, byte_of_code hp, hc]
  refine ⟨_, connectResource cfg, commModeBasic cfg, UInt8.ofNat cfg.maxCto, UInt8.ofNat cfg.maxDto,
    UInt8.ofNat (cfg.maxDto / 256), hstep, ?_, ?_, ?_, ?_, ?_, ?_, ?_, ?_, ?_, ?_, ?_⟩
  · rw [leBytes_two]
    exact send8_answers hs (Nat.le_refl 8) (by simp)
  · intro i hi
    unfold connectResource
    have : i = 0 ∨ i = 1 ∨ i = 2 ∨ i = 3 ∨ i = 4 ∨ i = 5 ∨ i = 6 ∨ i = 7 := by omega
    cases cfg.cal <;> cases cfg.pag <;> cases cfg.daq <;> cases cfg.stim <;> cases cfg.pgm <;>
      rcases this with h | h | h | h | h | h | h | h <;> subst h <;> decide
  iterate 5
    unfold commModeBasic
    rcases hg with h | h | h | h <;> rw [h] <;> cases cfg.motorola <;> cases cfg.slaveBlock <;>
      cases cfg.on .getCommModeInfo <;> decide
  · simp
  · simp; omega
  · rfl
  · constructor <;> first | rfl | simp

/-- Hypotheses are met and the bytes are those of the simulator and of the CAN build. -/
example : ShortOk Ex.sim ∧ Ex.frames Ex.sim [Ex.c [0xFF], Ex.c [0xFF, 1]] =
    some [[8, 0, 0, 0, 0xFF, 0x15, 0x80, 64, 64, 0, 1, 1], [8, 0, 1, 0, 0xFF, 0x15, 0x80, 64, 64, 0, 1, 1]] :=
  ⟨Or.inl rfl, by decide +kernel⟩

/-- With MAX_DLC padding on a bus with larger frames the response is not sent at all: the
packet holds the old contents of the transmit buffer (here the initial zeros). -/
theorem C04_fails_with_max_dlc :
    Ex.frames { Ex.can with maxCto := 64, maxDlc := true } [Ex.c [0xFF]] =
      some [List.replicate 64 0] := by decide +kernel

end Xcp
