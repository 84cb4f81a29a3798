import Verif.Spec.Remote
/-
The remote memory with block transfers: an UPLOAD of more bytes than fit in a packet is answered with several packets, one for
each call of the main function, and a DOWNLOAD may be spread over several packets with one answer at the end.
-/
set_option autoImplicit false
namespace Xcp.Spec

/-- The remote memory, the bytes of an UPLOAD that are still to be sent, and the bytes of a DOWNLOAD that are still to come. -/
structure Blocks where
  remote : Remote
  sending : Nat
  awaited : Nat

/-- Requests with block transfers. -/
inductive BReq where
  | plain (q : Req)
  /-- the first packet of a DOWNLOAD of `n` bytes -/
  | first (n : UInt8) (data : List UInt8)
  /-- a further packet, when `n` bytes are still to come -/
  | next (n : UInt8) (data : List UInt8)
deriving DecidableEq, Repr

def BReq.bytes : BReq → List UInt8
  | .plain q => q.bytes
  | .first n data => [0xF0, n] ++ data
  | .next n data => [0xEF, n] ++ data

/-- The bytes that may be downloaded in a block. -/
def About.downloadLimit (k : About) : Nat := k.commLimits.1.toNat * (k.maxCto - 2)

/-- The request is an UPLOAD of more than one packet, and the slave does that. -/
def Remote.long (k : About) (r : Remote) : Req → Bool
  | .upload n => k.offers .upload && k.slaveBlock && decide (k.maxCto ≤ n.toNat) && k.allows r.ext r.addr n.toNat false
  | _ => false

/-- The bytes asked for. -/
def Req.count : Req → Nat
  | .upload n => n.toNat
  | _ => 0

/-- The first `m` bytes are sent or stored. -/
def Remote.advance (r : Remote) (m : Nat) : Remote := { r with addr := r.addr + UInt32.ofNat m }

/-- The request begins a DOWNLOAD of one packet, which ends an open one. -/
def Remote.ends (k : About) (r : Remote) : Req → Bool
  | .download data => k.offers .download && k.masterBlock && k.allows r.ext r.addr data.length true
  | _ => false

/-- The packets sent at a request: none or one. -/
def Blocks.answer (k : About) (b : Blocks) (q : BReq) : List (List UInt8) :=
  if 0 < b.sending then [[0xFE, 0x10]]
  else match q with
    | .plain q =>
      if b.remote.long k q then [0xFF :: bytesAt b.remote.mem b.remote.addr (k.maxCto - 1)] else [b.remote.answer k q]
    | .first n _ =>
      if k.offers .download = false then [[0xFE, 0x20]]
      else if k.allows b.remote.ext b.remote.addr n.toNat true = false then [[0xFE, 0x24]]
      else if k.masterBlock = false ∨ k.downloadLimit < n.toNat then [[0xFE, 0x22]]
      else []
    | .next n _ =>
      if k.offers .downloadNext = false then [[0xFE, 0x20]]
      else if b.awaited = 0 then [[0xFE, 0x29]]
      else if n.toNat ≤ k.maxCto - 2 then [[0xFF]]
      else []

/-- The state after a request. -/
def Blocks.next (k : About) (b : Blocks) (q : BReq) : Blocks :=
  if 0 < b.sending then b
  else match q with
    | .plain q =>
      if b.remote.long k q then { b with remote := b.remote.advance (k.maxCto - 1), sending := q.count - (k.maxCto - 1) }
      else { b with remote := b.remote.next k q, awaited := if b.remote.ends k q then 0 else b.awaited }
    | .first n data =>
      if k.offers .download = false ∨ k.allows b.remote.ext b.remote.addr n.toNat true = false ∨ k.masterBlock = false then b
      else if k.downloadLimit < n.toNat then { b with awaited := 0 }
      else
        { b with
          remote := { b.remote with mem := stored b.remote.mem b.remote.addr data, addr := b.remote.addr + UInt32.ofNat data.length }
          awaited := n.toNat - data.length }
    | .next n data =>
      if k.offers .downloadNext = false ∨ b.awaited = 0 then b
      else
        { b with
          remote := { b.remote with mem := stored b.remote.mem b.remote.addr data, addr := b.remote.addr + UInt32.ofNat data.length }
          awaited := n.toNat - data.length }

/-- What happens. -/
inductive BHappening where
  | request (q : BReq)
  | write (a : UInt32) (b : UInt8)
  | main
  | event (ev : UInt8)
deriving DecidableEq, Repr

/-- The bytes sent in the next packet of an UPLOAD. -/
def Blocks.chunk (k : About) (b : Blocks) : Nat := min b.sending (k.maxCto - 1)

/-- The packets sent. -/
def Blocks.says (k : About) (b : Blocks) : BHappening → List (List UInt8)
  | .request q => b.answer k q
  | .main => if 0 < b.sending then [0xFF :: bytesAt b.remote.mem b.remote.addr (b.chunk k)] else []
  | .write _ _ | .event _ => []

/-- The state afterwards. -/
def Blocks.after (k : About) (b : Blocks) : BHappening → Blocks
  | .request q => b.next k q
  | .write a x => { b with remote := { b.remote with mem := stored b.remote.mem a [x] } }
  | .main => { b with remote := b.remote.advance (b.chunk k), sending := b.sending - b.chunk k }
  | .event _ => b

/-- The packets of a history. -/
def Blocks.saysAll (k : About) : Blocks → List BHappening → List (List UInt8)
  | _, [] => []
  | b, h :: hs => b.says k h ++ Blocks.saysAll k (b.after k h) hs

/-- The state after a history. -/
def Blocks.final (k : About) (b : Blocks) (hs : List BHappening) : Blocks := hs.foldl (Blocks.after k) b

end Xcp.Spec
