import Verif.Proofs.Ck
import Verif.Model.Example
/-
C41: CRC_32 is the polynomial CRC.

It is not (`C41_fails_witness`, `C41_fails_single_byte`).  The table `CRC_TAB` is the one for
the algorithm that shifts right, but the loop shifts left, and the loop cuts the register to
16 bits before combining it with the table entry.  The table itself is right
(`C41_table_partial`), and so is the checksum of an empty block (`C41_empty_partial`).
-/
set_option autoImplicit false
namespace Xcp
open Spec

/-- C41 fails for the nine bytes "123456789": the check value is 0xCBF43926. -/
theorem C41_fails_witness :
    calcChecksum .crc32 checkMsg 0 true = 0x213B7F27 ∧ crc32 checkMsg = 0xCBF43926 := by decide +kernel

/-- C41 fails for every block of one byte. -/
theorem C41_fails_single_byte : ∀ b : UInt8, calcChecksum .crc32 [b] 0 true ≠ crc32 [b] :=
  forall_u8 (by decide +kernel)

/-- The register after one byte depends on a quarter of its upper half only: registers that
agree in the top and the bottom byte are confused, whatever their middle bytes. -/
theorem C41_fails_middle_ignored (r r' : UInt32) (b : UInt8) (h1 : r >>> 24 = r' >>> 24)
    (h2 : (r <<< 8).toUInt16 = (r' <<< 8).toUInt16) : crcStep32 r b = crcStep32 r' b := by
  unfold crcStep32
  rw [h1, h2]

/-- Two registers that a correct CRC-32 step keeps apart. -/
example : crcStep32 0x12345678 0xAA = crcStep32 0x12FFFF78 0xAA := by decide +kernel

/-- C41 for the table: entry `i` is the reflected remainder of the byte `i`. -/
theorem C41_table_partial (i : UInt8) :
    (crc32Tab.getD i.toNat 0).toNat = crc 32 0x04C11DB7 0 true 0 [i] := by
  revert i; exact forall_u8 (by decide +kernel)

/-- C41 for the empty block. -/
theorem C41_empty_partial (st : Nat) : calcChecksum .crc32 [] st true = crc32 [] := by
  have h : crc32 [] = 0 := by decide +kernel
  rw [h]
  simp only [calcChecksum, if_true, List.foldl_nil]
  decide +kernel

/-- The command on a simulator built with CRC_32. -/
theorem C41_fails_command :
    Ex.frames { Ex.sim with ckMethod := .crc32 }
      [Ex.c [0xFF], Ex.c [0xF6, 0, 0, 0, 0x31, 0, 0, 0], Ex.c [0xF3, 0, 0, 0, 9, 0, 0, 0]] =
    some [[8, 0, 0, 0, 0xFF, 0x15, 0x80, 64, 64, 0, 1, 1], [1, 0, 1, 0, 0xFF],
      [8, 0, 2, 0, 0xFF, 9, 0, 0, 0x27, 0x7F, 0x3B, 0x21]] := by decide +kernel

end Xcp
