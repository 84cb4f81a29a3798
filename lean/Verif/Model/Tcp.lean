import Verif.Model.Eth
import Verif.Model.Dispatch
/-
src/tl/eth/common.c: TCP clients one after the other.
-/
set_option autoImplicit false
namespace Xcp

/-- The slave and its Ethernet receiver. -/
structure TcpSrv where
  s   : St
  eth : Eth

/-- `XcpTl_MainFunction` with a new client, src/tl/eth/common.c:68-71: `XcpTl_Accept` (lines 190-216; no connection so far)
and `XcpTl_RxHandler`, which executes the received packets.  Nothing tells the slave that the client
changed: when the peer closes, only `XcpTl_ReleaseConnection` is called (lines 159-161, 226-228).
Simplification: the packets are received first and executed then; a command does not influence
what is received.  `accept` succeeds. -/
def tcpClient (cfg : Cfg) (x : TcpSrv) (c : Env × Arrivals) : Except Fault (TcpSrv × RxEnd) :=
  match x.eth.rxHandler c.2 with
  | .error f => .error f
  | .ok (ps, e, eth, _) => do
    let s ← run cfg x.s (ps.map fun p => (c.1, .cmd p))
    return (⟨s, eth⟩, e)

/-- The loop of `XcpTl_Thread`, src/tl/eth/common.c:59-66, for clients that connect one after the other.
Simplification: the history ends with the first empty packet (afterwards it depends on CONNECT whether
the client is served on). -/
def tcpServe (cfg : Cfg) (x : TcpSrv) : List (Env × Arrivals) → Except Fault TcpSrv
  | [] => .ok x
  | c :: cs => do
    let y ← tcpClient cfg x c
    if y.2 = .released then tcpServe cfg y.1 cs else return y.1

/-- After start-up. -/
def TcpSrv.init (cfg : Cfg) (mem : Mem) (junk : List UInt8) : TcpSrv := ⟨St.init cfg mem, Eth.init cfg true junk⟩

end Xcp
