import Verif.Spec.Session
/-
Vocabulary for memory transfers.
-/
set_option autoImplicit false
namespace Xcp.Spec

/-- The `n` bytes of memory from address `a` on. -/
def bytesAt (m : Mem) (a : UInt32) (n : Nat) : List UInt8 :=
  (List.range n).map fun i => m (a + UInt32.ofNat i)

/-- The `i`-th packet carries the `i`-th byte string, with a positive response code in
front. -/
def CarriesAll (cfg : Cfg) : List Frame → List (List UInt8) → Prop
  | [], [] => True
  | f :: fs, c :: cs => Carries cfg f (0xFF :: c) ∧ CarriesAll cfg fs cs
  | _, _ => False

/-- `m'` is `m` with `data` stored from address `a` on and no other byte changed. -/
structure StoredAt (m m' : Mem) (a : UInt32) (data : List UInt8) : Prop where
  stored : ∀ i b, data[i]? = some b → m' (a + UInt32.ofNat i) = b
  other : ∀ x, (∀ i, i < data.length → x ≠ a + UInt32.ofNat i) → m' x = m x

/-- The result of MODIFY_BITS the standard requires. -/
def stdModify (A : BitVec 32) (MA MX : BitVec 16) (S : Nat) : BitVec 32 :=
  (A &&& ~~~((~~~MA).zeroExtend 32 <<< S)) ^^^ (MX.zeroExtend 32 <<< S)

end Xcp.Spec
