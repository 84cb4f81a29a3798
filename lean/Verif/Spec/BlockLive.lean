import Verif.Spec.BlockRemote
import Verif.Spec.Live
/-
A tool that transfers blocks of memory while it measures.
-/
set_option autoImplicit false
namespace Xcp.Spec

/-- The packets sent at a request while a measurement runs: as without it, but GET_STATUS reports the running measurement. -/
def Blocks.answerLive (k : About) (b : Blocks) (q : BReq) : List (List UInt8) :=
  if b.sending = 0 ∧ q = .plain .getStatus then [[0xFF, 0x40, 0, 0, 0, 0]] else b.answer k q

/-- What is said at one moment of a measurement; `t` is the timer value. -/
def Plan.blockSays (k : About) (ts : Nat) (p : Plan) (b : Blocks) (t : Nat) : BHappening → List Said
  | .request q => (b.answerLive k q).map .answer
  | .event ev => (p.packets ts b.remote.mem t (p.events.idxOf ev.toNat)).map .sample
  | h => (b.says k h).map .answer

/-- What is said while measurement `p` runs: requests are answered and blocks are sent as without the measurement; an event of a list
produces the packets of that list, with the contents of the memory at that time. -/
def Plan.blockLive (k : About) (ts : Nat) (p : Plan) : Blocks → List (Nat × BHappening) → List Said
  | _, [] => []
  | b, (t, h) :: hs => p.blockSays k ts b t h ++ p.blockLive k ts (b.after k h) hs

/-- The number of packets with samples of a history. -/
def Plan.blockAmount (p : Plan) : List BHappening → Nat
  | [] => 0
  | .event ev :: hs => p.odts (p.events.idxOf ev.toNat) + p.blockAmount hs
  | _ :: hs => p.blockAmount hs

/-- A measurement, what happens while it runs (with timer values), and what happens after it is stopped. -/
structure BRound where
  plan : Plan
  live : List (Nat × BHappening)
  rest : List BHappening

/-- The state after a round. -/
def BRound.final (k : About) (b : Blocks) (x : BRound) : Blocks := (b.final k (x.live.map (·.2))).final k x.rest

/-- What is said in a sequence of measurements. -/
def blockRounds (k : About) (ts : Nat) : Blocks → List BRound → List Said
  | _, [] => []
  | b, x :: xs => x.plan.answers.map .answer ++ x.plan.blockLive k ts b x.live ++ [.answer [0xFF]] ++
      ((b.final k (x.live.map (·.2))).saysAll k x.rest).map .answer ++ blockRounds k ts (x.final k b) xs

end Xcp.Spec
