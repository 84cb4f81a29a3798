import Verif.Model.Base
/-
Cyclic redundancy checks, defined by long division of polynomials over GF(2).  Nothing here
uses tables or shift registers.  A polynomial is the list of its coefficients, highest first.
-/
set_option autoImplicit false
namespace Xcp
namespace Spec

/-- Add the polynomial `m` to the leading coefficients of `l`. -/
def xorOnto : List Bool → List Bool → List Bool
  | a :: l, b :: m => (a ^^ b) :: xorOnto l m
  | l, _ => l

/-- One step of long division by `x^w + p`, where `p` has `w` coefficients: if the leading
coefficient is one, subtract the divisor; the leading coefficient is gone then. -/
def divStep (p : List Bool) : List Bool → List Bool
  | true :: t => xorOnto t p
  | false :: t => t
  | [] => []

/-- What is left after `n` steps of long division. -/
def polyRem (p : List Bool) : Nat → List Bool → List Bool
  | 0, l => l
  | n + 1, l => polyRem p n (divStep p l)

/-- The `w` binary digits of a number, highest first. -/
def digits (w n : Nat) : List Bool := (List.range w).map fun i => n.testBit (w - 1 - i)

/-- The number with the given binary digits, highest first. -/
def ofDigits (l : List Bool) : Nat := l.foldl (fun r b => 2 * r + b.toNat) 0

/-- A cyclic redundancy check: append `w` zeros to the message, add the initial value to its
leading bits, divide by the polynomial.  If `refl` then the bits of each byte are taken
lowest first and the remainder is read backwards. -/
def crc (w poly init : Nat) (refl : Bool) (xorOut : Nat) (msg : List UInt8) : Nat :=
  let bits := msg.flatMap fun b => if refl then (digits 8 b.toNat).reverse else digits 8 b.toNat
  let rem := polyRem (digits w poly) bits.length
    (xorOnto (bits ++ List.replicate w false) (digits w init))
  ofDigits (if refl then rem.reverse else rem) ^^^ xorOut

/-- CRC-16/CCITT with initial value 0xFFFF -/
def crcCitt : List UInt8 → Nat := crc 16 0x1021 0xFFFF false 0
/-- CRC-16 (also called ARC) -/
def crcArc : List UInt8 → Nat := crc 16 0x8005 0 true 0
/-- CRC-32 as in Ethernet -/
def crc32 : List UInt8 → Nat := crc 32 0x04C11DB7 0xFFFFFFFF true 0xFFFFFFFF

/-- "123456789" -/
def checkMsg : List UInt8 := [0x31, 0x32, 0x33, 0x34, 0x35, 0x36, 0x37, 0x38, 0x39]

/-- The check values published for these three algorithms (they are also the constants
`CHECK_VALUE` in src/xcp_checksum.c:76, 126, 176). -/
example : crcCitt checkMsg = 0x29B1 ∧ crcArc checkMsg = 0xBB3D ∧ crc32 checkMsg = 0xCBF43926 := by
  decide +kernel

end Spec
end Xcp
