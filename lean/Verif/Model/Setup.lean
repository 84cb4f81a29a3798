import Verif.Model.Options
import Verif.Model.Eth
import Verif.Model.Can
/-
Setting up the sockets: `XcpTl_Init` of src/tl/eth/linuxeth.c, src/tl/eth/wineth.c, src/tl/bt/winbt.c,
src/tl/can/linux_socket_can.c and src/tl/can/kvaser.c, with an operating system that may refuse.
-/
set_option autoImplicit false
namespace Xcp

/-- The address families the programs distinguish. -/
inductive Family where
  | inet | inet6 | other
deriving DecidableEq, Repr

/-- `struct addrinfo`: a result of `getaddrinfo`. -/
structure AddrInfo where
  family : Family
  stream : Bool
  port   : Nat
deriving DecidableEq, Repr

/-- What `getaddrinfo` is asked for: `hints` and the port.  The flags are always `AI_NUMERICHOST | AI_PASSIVE`, the host is
always null. -/
structure Hints where
  v6     : Bool
  stream : Bool
  port   : Nat
deriving DecidableEq, Repr

/-- A socket of the operating system: what it was created for, the port it is bound to, whether it listens, and
whether `SO_REUSEADDR` is set. -/
structure Sock where
  family    : Family
  stream    : Bool
  port      : Option Nat
  listening : Bool
  reuse     : Bool
deriving DecidableEq, Repr

/-- The answers of the operating system: `WSAStartup`, `getaddrinfo` (no addresses: it failed), and for the address with
the given number `socket`, `bind` (which may depend on `SO_REUSEADDR`) and `listen`; `setsockopt`. -/
structure NetOs where
  startup : Bool
  lookup  : Hints → List AddrInfo
  socket  : Nat → AddrInfo → Bool
  bind    : Nat → AddrInfo → Bool → Bool
  listen  : Nat → AddrInfo → Bool
  option  : Bool

/-- The calls whose failure is reported (`XcpHw_ErrorMsg`). -/
inductive SetupErr where
  | startup | getaddrinfo | socket | bind | name | listen | reuse | service
deriving DecidableEq, Repr

/-- What is left behind: the sockets opened (none is closed again), `XcpTl_Connection.boundSocket` as a number of a socket, and the
messages.  `bound = none` is the value 0 the connection was zeroed to: not a socket (with POSIX, standard input). -/
structure Setup where
  socks : List Sock
  bound : Option Nat
  msgs  : List SetupErr
deriving DecidableEq, Repr

/-- How `XcpTl_Init` ends. -/
inductive SetupEnd (α : Type) where
  | returned (x : α)
  | exit (code : Nat)
deriving DecidableEq, Repr

/-- `XcpTl_Init`, src/tl/eth/linuxeth.c:71-116: the first address only; every failure is reported, then the function
returns.  `SO_REUSEADDR` is set when the socket is bound already.  Left out: `localAddress` (it gets the bytes
of a pointer and what follows it, line 109; it is not read anywhere) and the memory `getaddrinfo`
allocated. -/
def linuxInit (os : NetOs) (o : EthOptions) : Setup :=
  match os.lookup ⟨o.ipv6, o.tcp, o.port⟩ with
  | [] => ⟨[], none, [.getaddrinfo]⟩
  | a :: _ =>
    if !os.socket 0 a then ⟨[], none, [.socket]⟩
    else if !os.bind 0 a false then ⟨[⟨a.family, a.stream, none, false, false⟩], none, [.bind]⟩
    else if o.tcp && !os.listen 0 a then ⟨[⟨a.family, a.stream, some a.port, false, false⟩], none, [.listen]⟩
    else if os.option then ⟨[⟨a.family, a.stream, some a.port, o.tcp, true⟩], some 0, []⟩
    else ⟨[⟨a.family, a.stream, some a.port, o.tcp, false⟩], some 0, [.reuse]⟩

/-- `FD_SETSIZE` of Winsock. -/
def fdSetSize : Nat := 64

/-- The loop over the addresses, src/tl/eth/wineth.c:121-152 (src/tl/eth/wineth_iocp.c:167-196 is the same): `idx` is the number of the address. -/
def winSockets (os : NetOs) (o : EthOptions) : Nat → List AddrInfo → Setup → Setup
  | _, [], x => x
  | idx, a :: as, x =>
    if idx = fdSetSize then x
    else if a.family = .other then winSockets os o (idx + 1) as x
    else if !os.socket idx a then winSockets os o (idx + 1) as { x with msgs := x.msgs ++ [.socket] }
    else if !os.bind idx a false then
      winSockets os o (idx + 1) as
        { x with socks := x.socks ++ [⟨a.family, a.stream, none, false, false⟩], msgs := x.msgs ++ [.bind] }
    else if o.tcp && !os.listen idx a then
      winSockets os o (idx + 1) as
        { x with socks := x.socks ++ [⟨a.family, a.stream, some a.port, false, false⟩], msgs := x.msgs ++ [.listen] }
    else { x with socks := x.socks ++ [⟨a.family, a.stream, some a.port, o.tcp, false⟩], bound := some x.socks.length }

/-- `XcpTl_Init`, src/tl/eth/wineth.c:87-171.  The port is the constant of line 93.  The sockets are left as they are before
`SO_REUSEADDR` is set (lines 164-166). -/
def winInit (os : NetOs) (o : EthOptions) : SetupEnd Setup :=
  if !os.startup then .exit 1
  else
    match os.lookup ⟨o.ipv6, o.tcp, ethDefaultPort⟩ with
    | [] => .returned ⟨[], none, [.getaddrinfo]⟩
    | as =>
      let x := winSockets os o 0 as ⟨[], none, []⟩
      if x.bound = none then .exit 2
      else if os.option then .returned x
      else .returned { x with msgs := x.msgs ++ [.reuse] }

/-- What the receiving thread finds, src/tl/eth/common.c:59-71, 190-216: without a server socket `accept` fails, which is only
reported, and every receive on the socket -1 (TCP) or 0 (UDP) fails; here `n` of them.  With a
server socket it is what arrives.  Assumption: standard input is not a socket. -/
def Setup.arrivals (x : Setup) (n : Nat) (as : Arrivals) : Arrivals := if x.bound = none then List.replicate n .err else as

/-- The answers of the operating system to src/tl/bt/winbt.c. -/
structure BtOs where
  startup : Bool
  socket  : Bool
  bind    : Bool
  name    : Bool
  listen  : Bool
  service : Bool

/-- The Bluetooth server socket: whether it exists, listens and is announced, and the messages. -/
structure BtSetup where
  socket    : Bool
  listening : Bool
  announced : Bool
  msgs      : List SetupErr
deriving DecidableEq, Repr

/-- `XcpTl_Init`, src/tl/bt/winbt.c:48-117. -/
def btInit (os : BtOs) : SetupEnd BtSetup :=
  if !os.startup then .exit 1
  else if !os.socket then .returned ⟨false, false, false, [.socket]⟩
  else if !os.bind then .returned ⟨true, false, false, [.bind]⟩
  else if !os.name then .returned ⟨true, false, false, [.name]⟩
  else if !os.listen then .returned ⟨true, false, false, [.listen]⟩
  else if !os.service then .returned ⟨true, true, false, [.service]⟩
  else .returned ⟨true, true, true, []⟩

/-- The answers of the operating system to src/tl/can/linux_socket_can.c: `socket`, the option for CAN-FD frames, time stamps, the
interface, `bind`, and the option for the filters. -/
structure CanOs where
  socket : Bool
  fd     : Bool
  stamps : Bool
  interf : Bool
  bind   : Bool
  filter : Bool

/-- The CAN socket after `XcpTl_Init`. -/
structure CanSock where
  fd       : Bool
  bound    : Bool
  filtered : Bool
deriving DecidableEq, Repr

/-- `XcpTl_Init`, src/tl/can/linux_socket_can.c:77-124; `none` is `abort`.  After `bind` the socket is compared with -1 instead of the
result (lines 113-116); the result of the last `setsockopt` is not looked at (line 123). -/
def canInit (os : CanOs) (fd : Bool) : Option CanSock :=
  if !os.socket then none
  else if fd && !os.fd then none
  else if !os.stamps then none
  else if !os.interf then none
  else some ⟨fd, os.bind, os.filter⟩

/-- Whether a frame on the bus is received.  The kernel gives nothing to a socket that is not bound, and everything to a
socket without filters. -/
def CanSock.receives (k : CanSock) (inb bc : UInt32) (m : CanMsg) : Bool := k.bound && (!k.filtered || socketPass inb bc m)

/-- The answers of CANlib to src/tl/can/kvaser.c. -/
structure KvOs where
  channel  : Bool
  callback : Bool
  params   : Bool
  scale    : Bool
  filter   : Bool
  busOn    : Bool

/-- The channel after `XcpTl_Init`: `kvSetNotifyCallback` and so on succeeded.  `reported` counts the messages. -/
structure KvChannel where
  callback : Bool
  params   : Bool
  filtered : Bool
  onBus    : Bool
  reported : Nat
deriving DecidableEq, Repr

/-- `XcpTl_Init`, src/tl/can/kvaser.c:167-203: only a failed `canOpenChannel` ends the program. -/
def kvInit (os : KvOs) : SetupEnd KvChannel :=
  if !os.channel then .exit 1
  else .returned ⟨os.callback, os.params, os.filter, os.busOn,
    ([os.callback, os.params, os.scale, os.filter, os.busOn].filter (!·)).length⟩

end Xcp
