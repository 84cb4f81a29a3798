import Verif.Model.Eth
import Verif.Model.Dispatch
/-
src/tl/eth/wineth_iocp.c: the Ethernet transport layer on Windows, with the slave behind it.
-/
set_option autoImplicit false
namespace Xcp

/-- `XcpTl_ConnectionType`, src/tl/eth/wineth_iocp.c:49-58, `recvOlap` (line 125), and what the operating system knows: the
sockets with an outstanding receive (`WSARecv`, `WSARecvFrom`), and whether the acceptor thread waits in `accept`.  Addresses and
sockets are numbers: a TCP client and its socket have the same number, 0 is the bound socket and the zeroed
address.  `out` is the log of sent frames with their destination. -/
structure Iocp where
  s               : St
  tcp             : Bool
  buf             : List UInt8
  connectionAddr  : Nat
  currentAddr     : Nat
  connectedSock   : Nat
  xcpConnected    : Bool
  socketConnected : Bool
  opAccept        : Bool
  pending         : List Nat
  accepting       : Bool
  out             : List (Nat × Frame)

/-- After `XcpTl_Init`, src/tl/eth/wineth_iocp.c:127-229: with UDP the first receive is marked `IoAccept`. -/
def Iocp.init (cfg : Cfg) (mem : Mem) (tcp : Bool) : Iocp :=
  { s := St.init cfg mem, tcp, buf := List.replicate (commBufLen cfg) 0, connectionAddr := 0, currentAddr := 0,
    connectedSock := 0, xcpConnected := false, socketConnected := false, opAccept := !tcp,
    pending := if tcp then [] else [0], accepting := tcp, out := [] }

/-- Where `XcpTl_Send`, src/tl/eth/wineth_iocp.c:295-318, sends to. -/
def Iocp.dest (x : Iocp) : Nat := if x.tcp then x.connectedSock else x.currentAddr

/-- The slave got into state `s`; the frames it sent on the way.  Simplification: sending succeeds at once. -/
def Iocp.took (x : Iocp) (s : St) : Iocp :=
  { x with s, out := x.out ++ (s.tx.drop x.s.tx.length).map fun f => (x.dest, f) }

/-- Whether executing packet `p` calls `XcpTl_SaveConnection` (`some true`; src/xcp.c:1033), `XcpTl_ReleaseConnection`
(`some false`; src/xcp.c:699, called by DISCONNECT, line 1049, and by UNLOCK with a wrong key, line 1230) or none of them. -/
def connectionCall (cfg : Cfg) (env : Env) (s : St) (p : Pdu) : Option Bool :=
  if s.connected && s.busy then none
  else if p.buf.head? = some 0xFF then some true
  else if !s.connected || s.pgm = .active then none
  else if p.buf.head? = some 0xFE then some false
  else if p.buf.head? = some 0xF7 && cfg.on .unlock && s.seedReq != 0 &&
    !env.unlock s.seedReq (p.buf.drop 2) (p.buf.getD 1 0).toNat then some false
  else none

/-- `XcpTl_SaveConnection` and `XcpTl_ReleaseConnection`, src/tl/eth/wineth_iocp.c:320-327. -/
def Iocp.connection (x : Iocp) : Option Bool → Iocp
  | none => x
  | some true => { x with connectionAddr := x.currentAddr, xcpConnected := true }
  | some false => { x with xcpConnected := false }

/-- The length in `XcpTl_Feed`, src/tl/eth/wineth_iocp.c:478-482: with a length field of one byte a (signed) `char` is
converted to `uint16_t`. -/
def iocpLen (cfg : Cfg) (buf : List UInt8) : Nat :=
  if cfg.lenSize = 1 then
    let b := (buf.getD 0 0).toNat
    if b < 128 then b else b + 65280
  else headerWord buf 0

/-- `XcpTl_Feed`, src/tl/eth/wineth_iocp.c:474-494; `n` is `numBytesReceived`.  The length field has one or two bytes. -/
def Iocp.feed (cfg : Cfg) (env : Env) (x : Iocp) (n : Nat) : Except Fault Iocp :=
  if 0 < n then
    if !x.xcpConnected || x.connectionAddr == x.currentAddr then do
      let p : Pdu := ⟨iocpLen cfg x.buf, x.buf.drop (cfg.lenSize + cfg.ctrSize)⟩
      let s ← step cfg env x.s (.cmd p)
      return (x.took s).connection (connectionCall cfg env x.s p)
    else .ok x
  else .ok x

/-- `XcpTl_TriggerRecv`, src/tl/eth/wineth_iocp.c:441-472.  Simplification: the calls succeed. -/
def Iocp.triggerRecv (x : Iocp) : Iocp :=
  if x.tcp then
    if x.socketConnected then { x with pending := x.pending ++ [x.connectedSock] } else x
  else { x with pending := x.pending ++ [0] }

/-- The acceptor thread calls `accept` again as soon as it sees `!xcpConnected`, src/tl/eth/wineth_iocp.c:268-290. -/
def Iocp.acceptor (x : Iocp) : Iocp := { x with accepting := x.accepting || (x.tcp && !x.xcpConnected) }

/-- What happens. -/
inductive IocpEv where
  /-- a client connects (TCP) -/
  | connect (client : Nat)
  /-- data arrive from an address; empty means the client closed the connection (TCP) or an empty datagram -/
  | recv (sender : Nat) (bs : List UInt8)
  /-- a frame has been sent -/
  | sent
  /-- the application or the main function runs (commands are not passed this way) -/
  | app (op : Op)
deriving DecidableEq, Repr

/-- The receive that is completed by data from `sender`. -/
def Iocp.sock (x : Iocp) (sender : Nat) : Nat := if x.tcp then sender else 0

/-- `WorkerThread`, src/tl/eth/wineth_iocp.c:352-411, with a completed receive of `bs`, which fits the buffer.  Closing
`connectedSocket` (line 383) ends its outstanding receives with an error; the worker only prints a message then. -/
def Iocp.complete (cfg : Cfg) (env : Env) (x : Iocp) (bs : List UInt8) : Except Fault Iocp := do
  let x := { x with buf := storeAt x.buf 0 bs }
  if x.opAccept then
    let x ← { x with opAccept := false }.feed cfg env bs.length
    return x.triggerRecv.acceptor
  else
    let x :=
      if bs.length = 0 then
        { x with socketConnected := false, s := apiDisconnect cfg x.s, xcpConnected := false
                 pending := if x.tcp then x.pending.filter (· ≠ x.connectedSock) else x.pending }
      else x
    let x ← x.feed cfg env bs.length
    return x.triggerRecv.acceptor

/-- One event.  `AcceptorThread` (lines 255-293) and `WorkerThread` (lines 352-411) of src/tl/eth/wineth_iocp.c.
With UDP the sender's address is stored by the operating system when the receive
completes (`WSARecvFrom` with `&XcpTl_Connection.currentAddress`).  A datagram longer than the buffer completes with an
error (`WSAEMSGSIZE`): the worker prints a message and does not start another receive (lines 399-407).  With TCP the
rest of the data stays in the socket: the event has to be given in pieces that fit.  Data for a socket without an outstanding
receive wait (no effect here).  Simplification: `recvOlap`, which is shared by all outstanding receives, is only used
for one at a time. -/
def Iocp.ev (cfg : Cfg) (env : Env) (x : Iocp) : IocpEv → Except Fault Iocp
  | .connect c =>
    if x.tcp && x.accepting then
      .ok { x with connectedSock := c, currentAddr := c, socketConnected := true, accepting := false }.triggerRecv.acceptor
    else .ok x
  | .recv c bs =>
    if x.sock c ∈ x.pending then
      let x := { x with pending := x.pending.erase (x.sock c), currentAddr := if x.tcp then x.currentAddr else c }
      if x.buf.length < bs.length then .ok x
      else x.complete cfg env bs
    else .ok x
  | .sent => do
    if cfg.slaveBlock then
      let s ← uploadSingleBlock cfg env x.s
      return x.took s
    else return x
  | .app op => do
    let s ← step cfg env x.s op
    return ((x.took s).connection (if op = .apiDisconnect then some false else none)).acceptor

/-- A history. -/
def Iocp.run (cfg : Cfg) (x : Iocp) : List (Env × IocpEv) → Except Fault Iocp
  | [] => .ok x
  | (env, e) :: es => do
    let y ← x.ev cfg env e
    Iocp.run cfg y es

end Xcp
