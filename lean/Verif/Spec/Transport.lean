import Verif.Model.State
/-
What a frame on the wire has to look like (ASAM XCP transport layer header), stated
without the functions the model uses to build frames.
-/
set_option autoImplicit false
namespace Xcp.Spec

/-- Value of a little-endian byte string. -/
def leVal : List UInt8 → Nat
  | [] => 0
  | b :: bs => b.toNat + 256 * leVal bs

/-- The `k`-byte little-endian numbers a block consists of. -/
def groups (k : Nat) (l : List UInt8) : List Nat :=
  (List.range (l.length / k)).map fun i => leVal ((l.drop (k * i)).take k)

/-- The `i`-th frame sent since start-up is well-formed: a length field holding the payload
length, a counter field holding the number of frames sent before, then the payload,
which fits in the maximum packet size of its kind. -/
def FrameOk (cfg : Cfg) (i : Nat) (f : Frame) : Prop :=
  ∃ len ctr payload : List UInt8,
    f.bytes = len ++ ctr ++ payload ∧
    len.length = cfg.lenSize ∧ ctr.length = cfg.ctrSize ∧
    leVal len = payload.length % 256 ^ cfg.lenSize ∧
    leVal ctr = i % 256 ^ cfg.ctrSize ∧
    (f.kind = .cto → 0 < payload.length ∧ payload.length ≤ cfg.maxCto) ∧
    (f.kind = .dto → payload.length ≤ cfg.maxDto)

end Xcp.Spec
