import Verif.Spec.Measure
import Verif.Spec.Remote
/-
A tool that calibrates while it measures: the remote memory and the samples together.
-/
set_option autoImplicit false
namespace Xcp.Spec

/-- What the slave says: an answer, a packet with samples. -/
inductive Said where
  | answer (bs : List UInt8)
  | sample (bs : List UInt8)
deriving DecidableEq, Repr

/-- The answer while a measurement runs: that of the remote memory, but GET_STATUS reports the running measurement (bit 6 of the
session status). -/
def Remote.answerLive (k : About) (r : Remote) : Req → List UInt8
  | .getStatus => [0xFF, 0x40, 0, 0, 0, 0]
  | q => r.answer k q

/-- What is said while measurement `p` runs; each happening with the timer value at that time.  Requests are answered as without the
measurement; an event of a list produces the packets of that list with the contents of the memory at that time. -/
def Plan.live (k : About) (ts : Nat) (p : Plan) : Remote → List (Nat × Happening) → List Said
  | _, [] => []
  | r, (_, .request q) :: hs => .answer (r.answerLive k q) :: p.live k ts (r.next k q) hs
  | r, (t, .event ev) :: hs => (p.packets ts r.mem t (p.events.idxOf ev.toNat)).map .sample ++ p.live k ts r hs
  | r, (_, h) :: hs => p.live k ts (r.after k h) hs

/-- The number of packets of a history. -/
def Plan.amount (p : Plan) : List Happening → Nat
  | [] => 0
  | .event ev :: hs => p.odts (p.events.idxOf ev.toNat) + p.amount hs
  | _ :: hs => p.amount hs

/-- A measurement, what happens while it runs (with timer values), and what happens after it is stopped. -/
structure Round where
  plan : Plan
  live : List (Nat × Happening)
  rest : List Happening

/-- The state after a round. -/
def Round.final (k : About) (r : Remote) (x : Round) : Remote := (r.final k (x.live.map (·.2))).final k x.rest

/-- What is said in a sequence of measurements: the answers to the commands of each measurement, what is said while it runs, the
answer to the command that stops it, and the answers afterwards. -/
def rounds (k : About) (ts : Nat) : Remote → List Round → List Said
  | _, [] => []
  | r, x :: xs => x.plan.answers.map .answer ++ x.plan.live k ts r x.live ++ [.answer [0xFF]] ++
      ((r.final k (x.live.map (·.2))).answers k x.rest).map .answer ++ rounds k ts (x.final k r) xs

end Xcp.Spec
