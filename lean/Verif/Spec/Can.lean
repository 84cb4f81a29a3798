import Verif.Model.Can
/-
CAN addressing.
-/
set_option autoImplicit false
namespace Xcp.Spec

/-- Identifiers on the bus have 11 or 29 bits. -/
def MsgOk (m : CanMsg) : Prop := m.id < (if m.ext then 2 ^ 29 else 2 ^ 11)

/-- A configured identifier: 11 bits, or 29 bits and bit 31 set. -/
def IdOk (i : UInt32) : Prop := i.toNat < 2 ^ 11 ∨ 2 ^ 31 ≤ i.toNat ∧ i.toNat < 2 ^ 31 + 2 ^ 29

/-- A data message with the configured identifier, standard or extended. -/
def Addressed (i : UInt32) (m : CanMsg) : Prop :=
  m.rtr = false ∧ m.id = i.toNat % 2 ^ 31 ∧ (m.ext = true ↔ 2 ^ 31 ≤ i.toNat)

instance (i : UInt32) (m : CanMsg) : Decidable (Addressed i m) := by unfold Addressed; infer_instance

end Xcp.Spec
