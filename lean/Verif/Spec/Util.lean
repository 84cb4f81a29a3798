import Verif.Spec.Transfer
/-
Vocabulary for the utility functions.
-/
set_option autoImplicit false
namespace Xcp.Spec

/-- The addresses of the area of `n` bytes that starts at `a`. -/
def InArea (a : UInt32) (n : Nat) (x : UInt32) : Prop := ∃ i, i < n ∧ x = a + UInt32.ofNat i

/-- The two areas have no address in common. -/
def Disjoint (a b : UInt32) (n : Nat) : Prop := ∀ x, InArea a n x → ¬ InArea b n x

/-- What a C string reader sees from index `i` on. -/
def IsString (b : Nat → UInt8) (cs : List UInt8) : Prop :=
  (∀ i c, cs[i]? = some c → b i = c ∧ c ≠ 0) ∧ b cs.length = 0

/-- The value of a digit character, 0-9 and A-Z. -/
def digitVal (c : UInt8) : Option Nat :=
  if 48 ≤ c.toNat ∧ c.toNat ≤ 57 then some (c.toNat - 48)
  else if 65 ≤ c.toNat ∧ c.toNat ≤ 90 then some (c.toNat - 55)
  else none

/-- Append one digit character to the number read so far. -/
def parseStep (base : Nat) (acc : Option Nat) (c : UInt8) : Option Nat :=
  match acc, digitVal c with
  | some n, some d => if d < base then some (n * base + d) else none
  | _, _ => none

/-- The number that a string of digits denotes, most significant digit first. -/
def parse (base : Nat) (cs : List UInt8) : Option Nat := cs.foldl (parseStep base) (some 0)

/-- The same with an optional minus sign in front. -/
def parseInt (base : Nat) : List UInt8 → Option Int
  | [] => none
  | c :: cs => if c = 45 then (parse base cs).map fun n : Nat => -(n : Int) else (parse base (c :: cs)).map fun n : Nat => (n : Int)

/-- No leading zero, except for the number zero. -/
def Canonical (cs : List UInt8) : Prop := cs = [48] ∨ ∃ c rest, cs = c :: rest ∧ c ≠ 48

end Xcp.Spec
