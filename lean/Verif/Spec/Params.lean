import Verif.Model.Base
/-
Encoding of numbers in packets.
-/
set_option autoImplicit false
namespace Xcp.Spec

/-- `v` in `n` bytes: least significant byte first (Intel), or last (Motorola). -/
def enc (motorola : Bool) (n v : Nat) : List UInt8 :=
  let le := (List.range n).map fun i => UInt8.ofNat (v / 256 ^ i)
  if motorola then le.reverse else le

/-- The packet contains, from offset `off` on, the `n`-byte number `v`. -/
def Param (motorola : Bool) (p : Pdu) (off n v : Nat) : Prop :=
  v < 256 ^ n ∧ (p.buf.drop off).take n = enc motorola n v

end Xcp.Spec
