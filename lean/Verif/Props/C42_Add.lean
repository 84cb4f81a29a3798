import Verif.Proofs.Ck
import Verif.Model.Example
/-
C42: ADD checksums are modular sums.
-/
set_option autoImplicit false
namespace Xcp
open Spec

/-- C42, the function `Xcp_CalculateChecksum`: with method ADD_kj (k bytes per summand, j
bytes of sum) the checksum of every block is the sum of its k-byte little-endian numbers
modulo 256^j. -/
theorem C42_value {m : CkMethod} {k j : Nat} (h : addSizes m = some (k, j)) (block : List UInt8) :
    calcChecksum m block 0 true = (groups k block).sum % 256 ^ j := by
  rw [calc_add h block 0 true (Nat.pow_pos (by omega))]
  simp

/-- Blocks that are not a multiple of the summand size: the trailing bytes do not count. -/
theorem C42_trailing {m : CkMethod} {k j : Nat} (h : addSizes m = some (k, j)) (block rest : List UInt8)
    (hb : k ∣ block.length) (hr : rest.length < k) :
    calcChecksum m (block ++ rest) 0 true = calcChecksum m block 0 true := by
  rw [C42_value h, C42_value h, groups_append k (by omega) _ _ hb, groups_short k rest hr, List.append_nil]

/-- Every byte of a block whose size is a multiple of the summand size is in one group: put
together, the groups are the block. -/
theorem C42_groups_cover {k : Nat} (hk : 0 < k) (block : List UInt8) (hb : k ∣ block.length) :
    ((List.range (block.length / k)).map fun i => (block.drop (k * i)).take k).flatten = block := by
  obtain ⟨q, hq⟩ := hb
  rw [hq, Nat.mul_div_cancel_left _ hk]
  have : ∀ n, ((List.range n).map fun i => (block.drop (k * i)).take k).flatten = block.take (k * n) := by
    intro n
    induction n with
    | zero => simp
    | succ n ih => rw [List.range_succ, List.map_append, List.flatten_append, ih, Nat.mul_succ]; simp [List.take_add]
  rw [this, ← hq, List.take_length]

/-- C42, the command. -/
theorem C42_command {cfg : Cfg} (hs : ShortOk cfg) {k j : Nat} (hm : addSizes cfg.ckMethod = some (k, j))
    (hsup : cfg.supports .buildChecksum = true) (env : Env) {s : St} (hr : Ready s) (hpg : s.pgm ≠ .active)
    {p : Pdu} {n : Nat} (hp : ChecksumOk cfg env s.mta p n) (hd : cfg.chunked = false ∨ n ≤ cfg.chunkSize) :
    ∃ s', step cfg env s (.cmd p) = .ok s' ∧
      Answers cfg s s' ([0xFF, cfg.ckMethod.code, 0, 0] ++
        enc false 4 ((groups k (bytesAt s.mem s.mta.addr n)).sum % 256 ^ j)) ∧ SameCore s s' :=
  buildChecksum_direct hs hsup env hr hpg hp hd (C42_value hm _)

/-- Sum of the bytes 0xF0 to 0xFF in one byte, in two, and of the eight words 0xF1F0, 0xF3F2,
... in two. -/
example : calcChecksum .add11 (bytesAt Ex.mem 0xF0 16) 0 true = 0x78 ∧
    calcChecksum .add12 (bytesAt Ex.mem 0xF0 16) 0 true = 0x0F78 ∧
    calcChecksum .add22 (bytesAt Ex.mem 0xF0 16) 0 true = 0xC7B8 ∧
    groups 2 (bytesAt Ex.mem 0xF0 5) = [0xF1F0, 0xF3F2] := by decide +kernel

end Xcp
