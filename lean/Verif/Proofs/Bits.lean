/-
Facts about bytes.
-/
set_option autoImplicit false
namespace Xcp

/-- To prove something of every byte, check 256 cases. -/
theorem forall_u8 {P : UInt8 → Prop} (h : ∀ n : Fin 256, P (UInt8.ofFin n)) (x : UInt8) : P x := h x.toFin

theorem u8_and_or (a b c : UInt8) : a &&& (b ||| c) = (a &&& b) ||| (a &&& c) := by
  apply UInt8.toBitVec_inj.mp
  simp only [UInt8.toBitVec_and, UInt8.toBitVec_or]
  exact BitVec.and_or_distrib_left ..

end Xcp
