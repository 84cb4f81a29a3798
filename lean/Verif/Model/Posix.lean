import Verif.Model.Iocp
import Verif.Model.Tcp
/-
src/tl/eth/common.c and src/tl/eth/linuxeth.c: the Ethernet transport layer on POSIX systems with its connection, with
the slave behind it.  Who is served, and where the frames go to.
-/
set_option autoImplicit false
namespace Xcp

/-- Where a frame is sent to: a connected socket (clients are numbered in the order of their connections, from 1), or a socket
address, the bytes of a `struct sockaddr_storage`. -/
inductive Dest where
  | socket (n : Nat)
  | addr (bytes : List UInt8)
deriving DecidableEq, Repr

/-- What happens around the packets: the hook answers while packet `n` is executed, and what other threads and the
application do before it (no commands). -/
structure World where
  env  : Nat → Env
  apps : Nat → List (Env × Op)

/-- `XcpTl_ConnectionType`, inc/xcp_eth.h:58-66 (POSIX), the receiver, and the slave.  `sock` is `connectedSocket`, `n` the number
of packets executed, `out` the log of sent frames with their destination. -/
structure Link where
  s         : St
  eth       : Eth
  current   : List UInt8
  saved     : List UInt8
  connected : Bool
  sock      : Nat
  n         : Nat
  out       : List (Dest × Frame)

/-- `sizeof(struct sockaddr_storage)` -/
def addrSize : Nat := 128

/-- After `XcpTl_Init`, src/tl/eth/linuxeth.c:71-116: the connection is zeroed (line 79). -/
def Link.init (cfg : Cfg) (mem : Mem) (tcp : Bool) (junk : List UInt8) : Link :=
  { s := St.init cfg mem, eth := Eth.init cfg tcp junk, current := List.replicate addrSize 0, saved := List.replicate addrSize 0,
    connected := false, sock := 0, n := 0, out := [] }

/-- Where `XcpTl_Send`, src/tl/eth/linuxeth.c:122-139, sends to. -/
def Link.dest (x : Link) : Dest := if x.eth.tcp then .socket x.sock else .addr x.saved

/-- The slave got into state `s`; the frames it sent on the way.  Simplification: sending succeeds at once. -/
def Link.took (x : Link) (s : St) : Link :=
  { x with s, out := x.out ++ (s.tx.drop x.s.tx.length).map fun f => (x.dest, f) }

/-- `XcpTl_SaveConnection` and `XcpTl_ReleaseConnection`, src/tl/eth/common.c:221-228. -/
def Link.connection (x : Link) : Option Bool → Link
  | none => x
  | some true => { x with saved := x.current, connected := true }
  | some false => { x with connected := false }

/-- A packet is executed, src/tl/eth/common.c:182-183, after what happened before it.  CONNECT saves the connection before it
answers (src/xcp.c:1033-1039). -/
def Link.dispatch (cfg : Cfg) (w : World) (x : Link) (p : Pdu) : Except Fault Link := do
  let s ← run cfg x.s (w.apps x.n)
  let x := (x.took s).connection (if (w.apps x.n).any (fun o => o.2 == .apiDisconnect) then some false else none)
  let s ← step cfg (w.env x.n) x.s (.cmd p)
  return { (x.connection (connectionCall cfg (w.env x.n) x.s p)).took s with n := x.n + 1 }

/-- The loop of `XcpTl_RxHandler`, src/tl/eth/common.c:150-187, with TCP; like `Eth.rxLoop`, but the packets are executed. -/
def Link.rxTcp (cfg : Cfg) (w : World) : Nat → Link → Arrivals → Except Fault (Link × Arrivals)
  | 0, _, _ => .error .noReturn
  | fuel + 1, x, as =>
    match readHeader true x.eth.junk as with
    | .error f => .error f
    | .ok (.closed rest) => .ok ({ x with connected := false }, rest)
    | .ok (.done (dlc, _) rest) =>
      match readData true x.eth.rx dlc rest with
      | .error f => .error f
      | .ok (.closed rest) => .ok (x, rest)
      | .ok (.done rx rest) =>
        if x.eth.ctoIn.length < dlc then .error .assertFail
        else
          let ctoIn := storeAt x.eth.ctoIn 0 (rx.take dlc)
          match { x with eth := { x.eth with rx, ctoIn } }.dispatch cfg w ⟨dlc, ctoIn⟩ with
          | .error f => .error f
          | .ok x => Link.rxTcp cfg w fuel x rest

/-- `ZeroMemory(XcpTl_RxBuffer, XCP_COMM_BUFLEN)`, src/tl/eth/common.c:148 and 195. -/
def Link.clear (x : Link) : Link := { x with eth := { x.eth with rx := List.replicate x.eth.rx.length 0 } }

/-- The loop of `XcpTl_Thread`, src/tl/eth/common.c:59-71, with TCP: `XcpTl_Accept` (lines 190-216) takes the next client unless
`connected` is set, then `XcpTl_RxHandler` runs.  `cur` is what arrives on the connected socket, `next` what arrives from
the clients that connect later.  Ends when `accept` waits for ever.  Simplifications: `accept` succeeds; old sockets are
never closed, and what clients send on them is lost.  `fuel` bounds the number of iterations, `Link.serve` gives
enough. -/
def Link.tcpLoop (cfg : Cfg) (w : World) : Nat → Link → Arrivals → List Arrivals → Except Fault Link
  | 0, _, _, _ => .error .noReturn
  | fuel + 1, x, cur, next =>
    if x.connected then
      match x.clear.rxTcp cfg w (cur.size + 1) cur with
      | .error f => .error f
      | .ok (x, cur) => Link.tcpLoop cfg w fuel x cur next
    else
      match next with
      | [] => .ok x
      | c :: next =>
        match { x with sock := x.sock + 1 }.clear.rxTcp cfg w (c.size + 1) c with
        | .error f => .error f
        | .ok (x, cur) => Link.tcpLoop cfg w fuel x cur next

/-- TCP clients. -/
def Link.serve (cfg : Cfg) (w : World) (x : Link) (clients : List Arrivals) : Except Fault Link :=
  x.tcpLoop cfg w ((clients.map fun c => c.size + 2).sum + 1) [] clients

/-- A UDP datagram: the address of the sender (the bytes of its `sockaddr`), and the data. -/
structure Dgram where
  sender : List UInt8
  data   : List UInt8
deriving DecidableEq, Repr

/-- `currentAddress` after `recvfrom` for each sender.  The operating system stores as many bytes of the address as `from_len` says
and stores the true length there.  Simplification: `from_len` is a `uint16_t` passed as `socklen_t *`
(src/tl/eth/common.c:85, 91); the two bytes behind it are 0 here. -/
def recvFrom (current : List UInt8) (fromLen : Nat) : List (List UInt8) → List UInt8
  | [] => current
  | a :: as => recvFrom (storeAt current 0 (a.take fromLen)) a.length as

/-- `sizeof(&XcpTl_Connection.currentAddress)`, src/tl/eth/common.c:85 and 120: the size of a pointer (64-bit system), not of
the address. -/
def fromLen : Nat := 8

/-- The datagrams that were read when `rest` is left, of `ds`. -/
def Link.heard (x : Link) (ds : List Dgram) (rest : Arrivals) : Link :=
  { x with current := recvFrom x.current fromLen ((ds.take (ds.length - rest.length)).map Dgram.sender) }

/-- The loop of `XcpTl_RxHandler`, src/tl/eth/common.c:150-187, with UDP.  Where `recvfrom` waits for ever, the model returns.
Simplification: `recvfrom` reports no errors. -/
def Link.rxUdp (cfg : Cfg) (w : World) : Nat → Link → List Dgram → Except Fault (Link × List Dgram)
  | 0, _, _ => .error .noReturn
  | fuel + 1, x, ds =>
    match readHeader false x.eth.junk (ds.map fun d => .data d.data) with
    | .error f => .error f
    | .ok (.closed rest) => .ok ({ x.heard ds rest with connected := false }, ds.drop (ds.length - rest.length))
    | .ok (.done (dlc, _) rest) =>
      let x := x.heard ds rest
      let ds := ds.drop (ds.length - rest.length)
      match readData false x.eth.rx dlc rest with
      | .error f => .error f
      | .ok (.closed rest) => .ok (x.heard ds rest, ds.drop (ds.length - rest.length))
      | .ok (.done rx rest) =>
        if x.eth.ctoIn.length < dlc then .error .assertFail
        else
          let ctoIn := storeAt x.eth.ctoIn 0 (rx.take dlc)
          match { x.heard ds rest with eth := { x.eth with rx, ctoIn } }.dispatch cfg w ⟨dlc, ctoIn⟩ with
          | .error f => .error f
          | .ok x => Link.rxUdp cfg w fuel x (ds.drop (ds.length - rest.length))

/-- The loop of `XcpTl_Thread` with UDP: nothing is accepted. -/
def Link.udpLoop (cfg : Cfg) (w : World) : Nat → Link → List Dgram → Except Fault Link
  | _, x, [] => .ok x
  | 0, _, _ => .error .noReturn
  | fuel + 1, x, ds =>
    match x.clear.rxUdp cfg w (ds.length + 1) ds with
    | .error f => .error f
    | .ok (x, ds) => Link.udpLoop cfg w fuel x ds

/-- Datagrams. -/
def Link.hear (cfg : Cfg) (w : World) (x : Link) (ds : List Dgram) : Except Fault Link := x.udpLoop cfg w (ds.length + 1) ds

end Xcp
