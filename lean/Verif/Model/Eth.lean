import Verif.Model.Sxi
/-
src/tl/eth/common.c: the receiver of the Ethernet transport layer (TCP and UDP).
-/
set_option autoImplicit false
namespace Xcp

/-- What one call of `recv`/`recvfrom` finds: data, or an error (result -1). -/
inductive Arrival where
  | data (bs : List UInt8)
  | err
deriving DecidableEq, Repr

/-- The end of the list is a closed connection (`recv` returns 0). -/
abbrev Arrivals := List Arrival

/-- What is left of data `bs` after a call took `n` bytes of it: TCP keeps the remaining bytes, of a UDP
datagram they are discarded (POSIX `recvfrom`; `SOCK_STREAM`/`SOCK_DGRAM`). -/
def leftover (tcp : Bool) (bs : List UInt8) (n : Nat) (rest : Arrivals) : Arrivals :=
  if tcp ∧ n < bs.length then .data (bs.drop n) :: rest else rest

/-- The bytes `bs` stored from index `off` on. -/
def storeAt (buf : List UInt8) (off : Nat) (bs : List UInt8) : List UInt8 :=
  buf.take off ++ bs ++ buf.drop (off + bs.length)

/-- Result of the two read functions: 0, or 1 with a value. -/
inductive ReadResult (α : Type) where
  | closed (rest : Arrivals)
  | done (x : α) (rest : Arrivals)
deriving DecidableEq, Repr

/-- `XCP_MAKEWORD`, inc/xcp_macros.h:69-72, of the bytes `i` and `i + 1`. -/
def headerWord (buf : List UInt8) (i : Nat) : Nat := (buf.getD i 0).toNat + 256 * (buf.getD (i + 1) 0).toNat

/-- The loop of `XcpTl_ReadHeader`, src/tl/eth/common.c:87-113: `rem` is `bytes_remaining`, `off` is
`offset`, both `uint8_t`, as is `nbytes`: the error result -1 becomes 255.  `buf` is
`header_buffer[8]`.  The values are the length and the counter.  Simplification: no shutdown
(`XcpThrd_IsShuttingDown`) while reading. -/
def readHeaderLoop (tcp : Bool) : Arrivals → List UInt8 → Nat → Nat → Except Fault (ReadResult (Nat × Nat))
  | [], _, _, _ => .ok (.closed [])
  | .err :: rest, buf, rem, off =>
    if (rem + 1) % 256 = 0 then
      if buf.length < off + 4 then .error .bufOob
      else .ok (.done (headerWord buf off, headerWord buf (off + 2)) rest)
    else readHeaderLoop tcp rest buf ((rem + 1) % 256) ((off + 255) % 256)
  | .data bs :: rest, buf, rem, off =>
    let n := min rem bs.length
    if n = 0 then .ok (.closed rest)
    else if buf.length < off + n then .error .bufOob
    else
      let buf := storeAt buf off (bs.take n)
      if rem = n then
        if buf.length < off + 4 then .error .bufOob
        else .ok (.done (headerWord buf off, headerWord buf (off + 2)) (leftover tcp bs n rest))
      else readHeaderLoop tcp rest buf (rem - n) (off + n)

/-- `XcpTl_ReadHeader`, src/tl/eth/common.c:80-114; `junk` is the content of the uninitialised
`header_buffer[8]`. -/
def readHeader (tcp : Bool) (junk : List UInt8) (as : Arrivals) : Except Fault (ReadResult (Nat × Nat)) :=
  readHeaderLoop tcp as junk 4 0

/-- The loop of `XcpTl_ReadData`, src/tl/eth/common.c:122-140, for `rem` > 0; `uint16_t` variables, so an
error is 65535 bytes.  The value is the buffer. -/
def readDataLoop (tcp : Bool) : Arrivals → List UInt8 → Nat → Nat → Except Fault (ReadResult (List UInt8))
  | [], _, _, _ => .ok (.closed [])
  | .err :: rest, buf, rem, off =>
    if (rem + 1) % 65536 = 0 then .ok (.done buf rest)
    else readDataLoop tcp rest buf ((rem + 1) % 65536) ((off + 65535) % 65536)
  | .data bs :: rest, buf, rem, off =>
    let n := min rem bs.length
    if n = 0 then .ok (.closed rest)
    else if buf.length < off + n then .error .bufOob
    else
      let buf := storeAt buf off (bs.take n)
      if rem = n then .ok (.done buf (leftover tcp bs n rest))
      else readDataLoop tcp rest buf (rem - n) (off + n)

/-- `XcpTl_ReadData`, src/tl/eth/common.c:116-141.  With `len` 0 the first `recv` returns 0 (and `recvfrom`
takes a datagram). -/
def readData (tcp : Bool) (buf : List UInt8) (len : Nat) (as : Arrivals) : Except Fault (ReadResult (List UInt8)) :=
  if len = 0 then .ok (.closed (if tcp then as else as.drop 1))
  else readDataLoop tcp as buf len 0

/-- The state of `XcpTl_RxHandler`: the stack contents its uninitialised header buffer gets, `XcpTl_RxBuffer`,
and the buffer `Xcp_CtoIn` points to. -/
structure Eth where
  tcp   : Bool
  junk  : List UInt8
  rx    : List UInt8
  ctoIn : List UInt8
deriving DecidableEq, Repr

/-- Buffers as declared: `header_buffer[8]`, `XcpTl_RxBuffer[XCP_COMM_BUFLEN]`, and `Xcp_CtoInBuffer` of
`XCP_TRANSPORT_LAYER_CTO_BUFFER_SIZE` (inc/xcp.h:233-234, src/xcp.c:53). -/
def Eth.init (cfg : Cfg) (tcp : Bool) (junk : List UInt8) : Eth :=
  { tcp, junk, rx := List.replicate (commBufLen cfg) 0, ctoIn := List.replicate (cfg.maxCto + cfg.lenSize + cfg.ctrSize) 0 }

/-- How `XcpTl_RxHandler` returned: the peer closed (connection released, lines 159-161) or an empty packet
(line 173-175). -/
inductive RxEnd where
  | released | emptyData
deriving DecidableEq, Repr

/-- The loop of `XcpTl_RxHandler`, src/tl/eth/common.c:150-187: the packets dispatched.  `fuel` bounds the number
of iterations, `Eth.rxHandler` gives enough.  Simplification: what the dispatched command does with
the connection is left out. -/
def Eth.rxLoop (e : Eth) : Nat → Arrivals → Except Fault (List Pdu × RxEnd × Eth × Arrivals)
  | 0, _ => .error .noReturn
  | fuel + 1, as =>
    match readHeader e.tcp e.junk as with
    | .error f => .error f
    | .ok (.closed rest) => .ok ([], .released, e, rest)
    | .ok (.done (dlc, _) rest) =>
      match readData e.tcp e.rx dlc rest with
      | .error f => .error f
      | .ok (.closed rest) => .ok ([], .emptyData, e, rest)
      | .ok (.done rx rest) =>
        if e.ctoIn.length < dlc then .error .assertFail
        else
          let ctoIn := storeAt e.ctoIn 0 (rx.take dlc)
          match Eth.rxLoop { e with rx, ctoIn } fuel rest with
          | .error f => .error f
          | .ok (ps, r) => .ok (⟨dlc, ctoIn⟩ :: ps, r)

/-- Upper bound of the number of packets: the number of bytes and errors. -/
def Arrivals.size (as : Arrivals) : Nat := (as.map fun | .data bs => bs.length + 1 | .err => 1).sum

/-- `XcpTl_RxHandler`, src/tl/eth/common.c:143-188. -/
def Eth.rxHandler (e : Eth) (as : Arrivals) : Except Fault (List Pdu × RxEnd × Eth × Arrivals) :=
  { e with rx := List.replicate e.rx.length 0 }.rxLoop (as.size + 1) as

end Xcp
