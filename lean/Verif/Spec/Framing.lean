import Verif.Model.Base
/-
How packets are framed on serial lines and TCP: a 16-bit length and a 16-bit counter, least
significant byte first, then the payload.
-/
set_option autoImplicit false
namespace Xcp.Spec

/-- One packet with its header. -/
def framed (ctr : UInt16) (p : List UInt8) : List UInt8 :=
  [UInt8.ofNat p.length, UInt8.ofNat (p.length / 256), UInt8.ofNat ctr.toNat, UInt8.ofNat (ctr.toNat / 256)] ++ p

/-- A stream of packets. -/
def stream (ps : List (UInt16 × List UInt8)) : List UInt8 := (ps.map fun cp => framed cp.1 cp.2).flatten

/-- What a packet handed to the slave contains. -/
def delivered (p : Pdu) : List UInt8 := p.buf.take p.len

/-- `segs` are the bytes `bs` split into non-empty pieces. -/
def Segments (segs : List (List UInt8)) (bs : List UInt8) : Prop := (∀ s ∈ segs, s ≠ []) ∧ segs.flatten = bs

/-- No boundary between two pieces lies inside of the four header bytes of a packet. -/
def HeadersIntact (ps : List (UInt16 × List UInt8)) (segs : List (List UInt8)) : Prop :=
  ∀ pre suf a c b, segs = pre ++ suf → ps = a ++ c :: b →
    ¬ ((stream a).length < pre.flatten.length ∧ pre.flatten.length < (stream a).length + 4)

/-- The packets handed to the slave in a buffer that first contains `buf`. -/
def inBuffer (buf : List UInt8) : List (List UInt8) → List Pdu
  | [] => []
  | p :: ps => ⟨p.length, p ++ buf.drop p.length⟩ :: inBuffer (p ++ buf.drop p.length) ps

end Xcp.Spec
