import Verif.Proofs.Ck
import Verif.Model.Example
/-
C40: CRC_16 is the polynomial CRC.
-/
set_option autoImplicit false
namespace Xcp
open Spec

/-- C40, the function `Xcp_CalculateChecksum`: for every block, the reflected remainder of
long division by x^16 + x^15 + x^2 + 1. -/
theorem C40_value (block : List UInt8) (start : Nat) : calcChecksum .crc16 block start true = crcArc block :=
  calc_arc block start

/-- C40, the command. -/
theorem C40_command {cfg : Cfg} (hs : ShortOk cfg) (hm : cfg.ckMethod = .crc16)
    (hsup : cfg.supports .buildChecksum = true) (env : Env) {s : St} (hr : Ready s) (hpg : s.pgm ≠ .active)
    {p : Pdu} {n : Nat} (hp : ChecksumOk cfg env s.mta p n) (hd : cfg.chunked = false ∨ n ≤ cfg.chunkSize) :
    ∃ s', step cfg env s (.cmd p) = .ok s' ∧
      Answers cfg s s' ([0xFF, 7, 0, 0] ++ enc false 4 (crcArc (bytesAt s.mem s.mta.addr n))) ∧ SameCore s s' := by
  have := buildChecksum_direct hs hsup env hr hpg hp hd (v := crcArc (bytesAt s.mem s.mta.addr n))
    (by rw [hm]; exact C40_value ..)
  rwa [hm] at this

/-- A simulator built with CRC_16: the nine bytes 0x31 to 0x39 give the check value
0xBB3D. -/
example : Ex.frames { Ex.sim with ckMethod := .crc16 }
      [Ex.c [0xFF], Ex.c [0xF6, 0, 0, 0, 0x31, 0, 0, 0], Ex.c [0xF3, 0, 0, 0, 9, 0, 0, 0]] =
    some [[8, 0, 0, 0, 0xFF, 0x15, 0x80, 64, 64, 0, 1, 1], [1, 0, 1, 0, 0xFF],
      [8, 0, 2, 0, 0xFF, 7, 0, 0, 0x3D, 0xBB, 0, 0]] := by decide +kernel

end Xcp
