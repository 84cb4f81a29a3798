import Verif.Proofs.Params
import Verif.Model.Example
/-
C45: request parameters are decoded in the configured byte order.

16-bit parameters are always decoded correctly (`C45_word`).  32-bit parameters are decoded
correctly below 2^31 (`C45_dword_partial`); from there on the multiplication in
`Xcp_GetDWord` overflows a signed `int`, which is undefined unless the compiler defines
wrap-around (`C45_fails_signed_overflow`).
-/
set_option autoImplicit false
namespace Xcp
open Spec

/-- C45 for 16-bit parameters: every value, offset and byte order. -/
theorem C45_word (motorola : Bool) (p : Pdu) (off v : Nat) (h : Param motorola p off 2 v) :
    p.word motorola off = .ok v := h.word

/-- C45 for 32-bit parameters: every value below 2^31, and every value at all when signed
arithmetic wraps. -/
theorem C45_dword_partial (motorola wrapv : Bool) (p : Pdu) (off v : Nat) (h : Param motorola p off 4 v)
    (hw : wrapv = true ∨ v < 2 ^ 31) : p.dword motorola wrapv off = .ok (UInt32.ofNat v) := h.dword hw

/-- C45 fails for all 32-bit parameters from 2^31 on with standard C arithmetic: undefined
behaviour. -/
theorem C45_fails_signed_overflow (motorola : Bool) (p : Pdu) (off v : Nat) (h : Param motorola p off 4 v)
    (hv : 2 ^ 31 ≤ v) : p.dword motorola false off = .error .intOverflow := h.dword_overflow hv

/-- A SET_MTA to address 0x80000000 is undefined behaviour. -/
theorem C45_fails_witness :
    Ex.faultOf Ex.sim [Ex.c [0xFF], Ex.c [0xF6, 0, 0, 0, 0, 0, 0, 0x80]] = some .intOverflow := by decide +kernel

/-- The storing functions `Xcp_SetWord` and `Xcp_SetDWord` use the same encoding. -/
theorem C45_set (motorola : Bool) (v : Nat) :
    wordBytes motorola v = enc motorola 2 v ∧ dwordBytes motorola v = enc motorola 4 v :=
  ⟨wordBytes_eq .., dwordBytes_eq ..⟩

/-- Storing and loading is the identity. -/
theorem C45_round_trip_partial (motorola wrapv : Bool) (pre post : List UInt8) (v : Nat) (hv : v < 2 ^ 32)
    (hw : wrapv = true ∨ v < 2 ^ 31) (n : Nat) :
    (Pdu.mk n (pre ++ dwordBytes motorola v ++ post)).dword motorola wrapv pre.length = .ok (UInt32.ofNat v) := by
  apply Spec.Param.dword _ hw
  refine ⟨by simpa using hv, ?_⟩
  have hl : (enc motorola 4 v).length = 4 := by rw [enc_four]; cases motorola <;> rfl
  rw [dwordBytes_eq, List.append_assoc, List.drop_left, List.take_append_of_le_length (by omega),
    List.take_of_length_le (by omega)]

example : Param false (Ex.pkt [0xF6, 0, 0, 0, 0x78, 0x56, 0x34, 0x12]) 4 4 0x12345678 ∧
    Param true (Ex.pkt [0xF6, 0, 0, 0, 0x12, 0x34, 0x56, 0x78]) 4 4 0x12345678 := by
  refine ⟨⟨by decide, by decide⟩, ⟨by decide, by decide⟩⟩

end Xcp
