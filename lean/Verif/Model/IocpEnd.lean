import Verif.Model.Base
/-
The end of the Ethernet transport layer with a completion port: `XcpTl_DeInit` of src/tl/eth/wineth_iocp.c, and what its
two threads do meanwhile.
-/
set_option autoImplicit false
namespace Xcp

/-- Where `XcpTl_DeInit` stands, src/tl/eth/wineth_iocp.c:231-244. -/
inductive EndPc where
  /-- before `XcpTl_PostQuitMessage`, line 234 -/
  | post
  /-- before the sockets are closed, lines 235-236 -/
  | sockets
  /-- before `CloseHandle(iocp)`, line 237 -/
  | port
  /-- in `WaitForMultipleObjects`, line 238 -/
  | wait
  | done
deriving DecidableEq, Repr

/-- Where `AcceptorThread` stands, src/tl/eth/wineth_iocp.c:255-293: before the test of `xcpConnected` (line 264), in `accept`
(line 267), after its end. -/
inductive AccPc where
  | test | accept | ended
deriving DecidableEq, Repr

/-- Where `WorkerThread` stands, src/tl/eth/wineth_iocp.c:352-411: outside of `GetQueuedCompletionStatus`, inside, after its end. -/
inductive WorkPc where
  | busy | inside | ended
deriving DecidableEq, Repr

/-- The three threads.  `acc` is `none` with UDP: there is no acceptor thread, its handle is null (lines 121, 220-228).  `quit`: the quit
message is in the port; `port`, `sock`: the port and the bound socket are open; `exited`: the acceptor ended the process with status 1
(line 276).  Simplification: errors of the outstanding receives are left out (the worker prints a message, line 407). -/
structure EndSys where
  main      : EndPc
  acc       : Option AccPc
  work      : WorkPc
  quit      : Bool
  port      : Bool
  sock      : Bool
  connected : Bool
  exited    : Bool
deriving DecidableEq, Repr

/-- When `XcpTl_DeInit` is called. -/
def EndSys.init (acc : Option AccPc) (work : WorkPc) (connected : Bool) : EndSys :=
  { main := .post, acc, work, quit := false, port := true, sock := true, connected, exited := false }

/-- The next step of `XcpTl_DeInit`, src/tl/eth/wineth_iocp.c:231-244.  Closing the socket ends an `accept` with `WSAEINTR` (lines 270-272).
`WaitForMultipleObjects` fails at once if a handle is null, which is not looked at; otherwise it waits for both threads. -/
def EndSys.mainStep (x : EndSys) : EndSys :=
  match x.main with
  | .post => { x with main := .sockets, quit := true }
  | .sockets => { x with main := .port, sock := false, acc := x.acc.map fun a => if a = .accept then .ended else a }
  | .port => { x with main := .wait, port := false }
  | .wait => if x.acc = none ∨ x.acc = some .ended ∧ x.work = .ended then { x with main := .done } else x
  | .done => x

/-- The next step of `WorkerThread`, src/tl/eth/wineth_iocp.c:352-411; `c` is `xcpConnected` after the packet it works on.  Inside of
`GetQueuedCompletionStatus` it takes the quit message.  A worker that gets there when the port is closed gets an error, prints a message
and tries again (lines 399-407), as does one that was inside without a message. -/
def EndSys.workStep (x : EndSys) (c : Bool) : EndSys :=
  match x.work with
  | .busy => if x.port then { x with work := .inside, connected := c } else { x with connected := c }
  | .inside => if x.quit then { x with work := .ended, quit := false } else if x.port then x else { x with work := .busy }
  | .ended => x

/-- The next step of `AcceptorThread`, src/tl/eth/wineth_iocp.c:255-293: `accept` fails if the socket is closed, which ends the process. -/
def EndSys.accStep (x : EndSys) : EndSys :=
  match x.acc with
  | some .test =>
    if x.connected then x
    else if x.sock then { x with acc := some .accept }
    else { x with exited := true }
  | _ => x

/-- What happens: a step of a thread, or a client opens a connection (`accept` returns, lines 267-290). -/
inductive EndEv where
  | main
  | work (c : Bool)
  | acc
  | client
deriving DecidableEq, Repr

/-- An event; nothing happens after `exit`. -/
def EndSys.step (x : EndSys) (e : EndEv) : EndSys :=
  if x.exited then x
  else match e with
    | .main => x.mainStep
    | .work c => x.workStep c
    | .acc => x.accStep
    | .client => if x.acc = some .accept then { x with acc := some .test } else x

/-- A history. -/
def EndSys.run (x : EndSys) (es : List EndEv) : EndSys := es.foldl EndSys.step x

end Xcp
