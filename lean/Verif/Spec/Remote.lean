import Verif.Model.Cfg
import Verif.Spec.Params
import Verif.Spec.Transfer
import Verif.Spec.Crc
import Verif.Spec.Commands
import Verif.Spec.Transport
/-
What a measurement and calibration tool sees: a remote memory with an address pointer.  This is the meaning of the
commands in the standard, stated without the slave's states, buffers and handlers.
-/
set_option autoImplicit false
namespace Xcp.Spec

/-- The memory and the memory transfer address.  After some requests the standard and the slave disagree on the address
(`known = false`); a tool has to set it again. -/
structure Remote where
  mem  : Mem
  ext  : UInt8
  addr : UInt32
  known : Bool

/-- Requests of a tool. -/
inductive Req where
  | connect (mode : UInt8)
  | getStatus
  | synch
  /-- type of identification: the short name (0) or the file name (1) -/
  | getId (fileName : Bool)
  | setMta (ext : UInt8) (addr : UInt32)
  | upload (n : UInt8)
  | shortUpload (n : UInt8) (ext : UInt8) (addr : UInt32)
  | download (data : List UInt8)
  | downloadMax (data : List UInt8)
  | getCommModeInfo
  | shortDownload (ext : UInt8) (addr : UInt32) (data : List UInt8)
  /-- shift, AND mask, XOR mask -/
  | modifyBits (shift : UInt8) (ma mx : BitVec 16)
  | buildChecksum (n : UInt32)
  /-- some other command, without parameters -/
  | other (c : Cmd)
deriving DecidableEq, Repr

/-- The command packet. -/
def Req.bytes : Req → List UInt8
  | .connect mode => [0xFF, mode]
  | .getStatus => [0xFD]
  | .synch => [0xFC]
  | .getId f => [0xFA, if f then 1 else 0]
  | .setMta ext addr => [0xF6, 0, 0, ext] ++ enc false 4 addr.toNat
  | .upload n => [0xF5, n]
  | .shortUpload n ext addr => [0xF4, n, 0, ext] ++ enc false 4 addr.toNat
  | .download data => [0xF0, UInt8.ofNat data.length] ++ data
  | .downloadMax data => 0xEE :: data
  | .getCommModeInfo => [0xFB]
  | .shortDownload ext addr data => [0xED, UInt8.ofNat data.length, 0, ext] ++ enc false 4 addr.toNat ++ data
  | .modifyBits s ma mx => [0xEC, s] ++ enc false 2 ma.toNat ++ enc false 2 mx.toNat
  | .buildChecksum n => [0xF3, 0, 0, 0] ++ enc false 4 n.toNat
  | .other c => [cmdCode c]

/-- The command of the request. -/
def Req.cmd : Req → Cmd
  | .connect _ => .connect
  | .getStatus => .getStatus
  | .synch => .synch
  | .getId _ => .getId
  | .setMta _ _ => .setMta
  | .upload _ => .upload
  | .shortUpload _ _ _ => .shortUpload
  | .download _ => .download
  | .downloadMax _ => .downloadMax
  | .getCommModeInfo => .getCommModeInfo
  | .shortDownload _ _ _ => .shortDownload
  | .modifyBits _ _ _ => .modifyBits
  | .buildChecksum _ => .buildChecksum
  | .other c => c

/-- What the tool knows about the slave, from its description file. -/
structure About where
  /-- bytes in a command or response -/
  maxCto : Nat
  maxDto : Nat
  cal : Bool
  daq : Bool
  pgm : Bool
  granularity : UInt8
  commModeInfo : Bool
  /-- the commands that are switched on -/
  offers : Cmd → Bool
  /-- the memory a tool may read (`false`) and write (`true`) -/
  allows : UInt8 → UInt32 → Nat → Bool → Bool
  /-- where the identifications are stored -/
  idAddr : Bool → UInt32
  idLen : Bool → Nat
  masterBlock : Bool
  /-- commands in a block, minimum separation time, queue size, driver version -/
  commLimits : UInt8 × UInt8 × UInt8 × UInt8
  /-- how checksums are computed, and the largest block (0: no limit) -/
  method : CkMethod
  maxBlock : Nat
  /-- an UPLOAD may ask for more bytes than fit in a packet -/
  slaveBlock : Bool

/-- Sum of the little-endian numbers of `k` bytes, in `j` bytes. -/
def sumOf (k j : Nat) (block : List UInt8) : Nat := (groups k block).sum % 256 ^ j

/-- The checksum of a block: number of the method and value.  Not for CRC-32, which the slave computes wrongly (C41). -/
def checksumOf : CkMethod → Option (UInt8 × (List UInt8 → Nat))
  | .add11 => some (1, sumOf 1 1)
  | .add12 => some (2, sumOf 1 2)
  | .add14 => some (3, sumOf 1 4)
  | .add22 => some (4, sumOf 2 2)
  | .add24 => some (5, sumOf 2 4)
  | .add44 => some (6, sumOf 4 4)
  | .crc16 => some (7, crcArc)
  | .crc16citt => some (8, crcCitt)
  | .crc32 => none

/-- The little-endian number of four bytes. -/
def wordAt (m : Mem) (a : UInt32) : BitVec 32 := BitVec.ofNat 32 (leVal (bytesAt m a 4))

/-- Memory `m` with `data` stored from `a` on. -/
def stored (m : Mem) (a : UInt32) (data : List UInt8) : Mem :=
  fun x => (data[(x - a).toNat]?).getD (m x)

/-- The state after a request. -/
def Remote.next (k : About) (r : Remote) (q : Req) : Remote :=
  if k.offers q.cmd = false then r
  else match q with
    | .connect _ | .getStatus | .synch | .getCommModeInfo | .other _ => r
    | .getId f => { r with ext := 0, addr := k.idAddr f, known := true }
    | .setMta ext addr => { r with ext, addr, known := true }
    | .upload n =>
      if k.allows r.ext r.addr n.toNat false ∧ n.toNat < k.maxCto then { r with addr := r.addr + UInt32.ofNat n.toNat } else r
    | .shortUpload n ext addr => if n.toNat < k.maxCto then { r with ext, addr := addr + UInt32.ofNat n.toNat, known := true } else r
    | .download data =>
      if k.allows r.ext r.addr data.length true then
        { r with mem := stored r.mem r.addr data, addr := r.addr + UInt32.ofNat data.length }
      else r
    | .downloadMax data => { r with mem := stored r.mem r.addr data, addr := r.addr + UInt32.ofNat data.length }
    | .shortDownload ext addr data =>
      if k.allows ext addr data.length true then
        { mem := stored r.mem addr data, ext, addr := addr + UInt32.ofNat data.length, known := false }
      else r
    | .modifyBits s ma mx =>
      if k.allows r.ext r.addr 2 true then
        { r with mem := stored r.mem r.addr (enc false 4 (stdModify (wordAt r.mem r.addr) ma mx s.toNat).toNat) }
      else r
    | .buildChecksum n =>
      if k.allows r.ext r.addr n.toNat false ∧ (k.maxBlock = 0 ∨ n.toNat ≤ k.maxBlock) then
        { r with addr := r.addr + n, known := false }
      else r

/-- The answer to a request. -/
def Remote.answer (k : About) (r : Remote) (q : Req) : List UInt8 :=
  if k.offers q.cmd = false then [0xFE, 0x20]
  else match q with
    | .connect _ =>
      [0xFF, (if k.cal then 1 else 0) + (if k.daq then 4 else 0) + (if k.pgm then 16 else 0),
        k.granularity + (if k.slaveBlock then 0x40 else 0) + (if k.commModeInfo then 0x80 else 0), UInt8.ofNat k.maxCto] ++ enc false 2 k.maxDto ++ [1, 1]
    | .getStatus => [0xFF, 0, 0, 0, 0, 0]
    | .synch => [0xFE, 0x00]
    | .getId f => [0xFF, 0, 0, 0] ++ enc false 4 (k.idLen f)
    | .setMta _ _ => [0xFF]
    | .upload n =>
      if ¬ k.allows r.ext r.addr n.toNat false then [0xFE, 0x24]
      else if n.toNat < k.maxCto then 0xFF :: bytesAt r.mem r.addr n.toNat
      else [0xFE, 0x22]
    | .shortUpload n _ addr => if n.toNat < k.maxCto then 0xFF :: bytesAt r.mem addr n.toNat else [0xFE, 0x22]
    | .download data => if k.allows r.ext r.addr data.length true then [0xFF] else [0xFE, 0x24]
    | .downloadMax _ => [0xFF]
    | .getCommModeInfo => [0xFF, 0, if k.masterBlock then 1 else 0, 0, k.commLimits.1, k.commLimits.2.1, k.commLimits.2.2.1, k.commLimits.2.2.2]
    | .shortDownload ext addr data => if k.allows ext addr data.length true then [0xFF] else [0xFE, 0x24]
    | .modifyBits _ _ _ => if k.allows r.ext r.addr 2 true then [0xFF] else [0xFE, 0x24]
    | .buildChecksum n =>
      if ¬ k.allows r.ext r.addr n.toNat false then [0xFE, 0x24]
      else if k.maxBlock = 0 ∨ n.toNat ≤ k.maxBlock then
        match checksumOf k.method with
        | some (code, f) => [0xFF, code, 0, 0] ++ enc false 4 (f (bytesAt r.mem r.addr n.toNat))
        | none => []
      else [0xFE, 0x22, 0, 0] ++ enc false 4 k.maxBlock
    | .other _ => []

/-- What happens: a request, a write by the application, a call of the main function, an event of the application. -/
inductive Happening where
  | request (q : Req)
  | write (a : UInt32) (b : UInt8)
  | main
  | event (ev : UInt8)
deriving DecidableEq, Repr

/-- The state afterwards. -/
def Remote.after (k : About) (r : Remote) : Happening → Remote
  | .request q => r.next k q
  | .write a b => { r with mem := stored r.mem a [b] }
  | .main | .event _ => r

/-- The answers to a history. -/
def Remote.answers (k : About) : Remote → List Happening → List (List UInt8)
  | _, [] => []
  | r, .request q :: hs => r.answer k q :: Remote.answers k (r.next k q) hs
  | r, h :: hs => Remote.answers k (r.after k h) hs

/-- The state after a history. -/
def Remote.final (k : About) (r : Remote) (hs : List Happening) : Remote := hs.foldl (Remote.after k) r

end Xcp.Spec
