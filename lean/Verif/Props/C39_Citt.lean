import Verif.Proofs.Ck
import Verif.Model.Example
/-
C39: CRC_16_CITT is the polynomial CRC.
-/
set_option autoImplicit false
namespace Xcp
open Spec

/-- C39, the function `Xcp_CalculateChecksum`: for every block, the remainder of long
division by x^16 + x^12 + x^5 + 1. -/
theorem C39_value (block : List UInt8) (start : Nat) : calcChecksum .crc16citt block start true = crcCitt block :=
  calc_citt block start

/-- C39, the command: BUILD_CHECKSUM of `n` bytes, not done in the background, answers the
CRC of the `n` bytes from the MTA on and changes nothing. -/
theorem C39_command {cfg : Cfg} (hs : ShortOk cfg) (hm : cfg.ckMethod = .crc16citt)
    (hsup : cfg.supports .buildChecksum = true) (env : Env) {s : St} (hr : Ready s) (hpg : s.pgm ≠ .active)
    {p : Pdu} {n : Nat} (hp : ChecksumOk cfg env s.mta p n) (hd : cfg.chunked = false ∨ n ≤ cfg.chunkSize) :
    ∃ s', step cfg env s (.cmd p) = .ok s' ∧
      Answers cfg s s' ([0xFF, 8, 0, 0] ++ enc false 4 (crcCitt (bytesAt s.mem s.mta.addr n))) ∧ SameCore s s' := by
  have := buildChecksum_direct hs hsup env hr hpg hp hd (v := crcCitt (bytesAt s.mem s.mta.addr n))
    (by rw [hm]; exact C39_value ..)
  rwa [hm] at this

/-- The simulator: checksum of the nine bytes 0x31 to 0x39 is the published check value
0x29B1. -/
example : Ex.frames Ex.sim [Ex.c [0xFF], Ex.c [0xF6, 0, 0, 0, 0x31, 0, 0, 0], Ex.c [0xF3, 0, 0, 0, 9, 0, 0, 0]] =
    some [[8, 0, 0, 0, 0xFF, 0x15, 0x80, 64, 64, 0, 1, 1], [1, 0, 1, 0, 0xFF],
      [8, 0, 2, 0, 0xFF, 8, 0, 0, 0xB1, 0x29, 0, 0]] := by decide +kernel

example (m : Mta) : ChecksumOk Ex.sim Ex.env m (Ex.pkt [0xF3, 0, 0, 0, 9, 0, 0, 0]) 9 := by
  refine ⟨rfl, ⟨by decide, by decide⟩, Or.inr (by decide), ?_, ?_⟩
  · decide
  · intro h; cases h

end Xcp
