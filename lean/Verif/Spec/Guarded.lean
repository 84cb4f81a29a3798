import Verif.Spec.Live
/-
What a tool sees of a slave with seed and key: sessions that are opened and closed, resources that are locked and
unlocked, the remote memory and measurements.
-/
set_option autoImplicit false
namespace Xcp.Spec

/-- The slave as the tool sees it. -/
structure Guarded where
  remote : Remote
  /-- a session is open -/
  opened : Bool
  /-- the set of locked resources: 1 calibration, 4 measurement, 16 programming -/
  locked : UInt8
  /-- the resource whose seed was asked for last and not used yet, or 0 -/
  asked : UInt8

/-- What happens. -/
inductive Deal where
  | plain (h : Happening)
  /-- GET_SEED for a resource; the application makes this seed -/
  | getSeed (res : UInt8) (seed : List UInt8)
  /-- UNLOCK; the application accepts the key or not -/
  | unlock (key : List UInt8) (accepted : Bool)
  | disconnect
  /-- a command of a resource that is locked, with parameters -/
  | tries (c : Cmd) (params : List UInt8)
  /-- a measurement, and what happens while it runs, with timer values -/
  | measure (p : Plan) (live : List (Nat × Happening))

/-- The resources of a slave. -/
def About.has (k : About) (res : UInt8) : Bool := (res == 1 && k.cal) || (res == 4 && k.daq) || (res == 16 && k.pgm)

/-- The end of a session: everything that is protected (the set `prot`) is locked again. -/
def Guarded.close (prot : UInt8) (g : Guarded) : Guarded := ⟨{ g.remote with known := false }, false, prot, 0⟩

/-- The state afterwards. -/
def Guarded.after (k : About) (prot : UInt8) (g : Guarded) : Deal → Guarded
  | .plain (.request (.connect _)) => { g with opened := true }
  | .plain h => { g with remote := g.remote.after k h }
  | .getSeed res _ => if k.has res then { g with asked := res } else g
  | .unlock _ ok =>
    if g.asked = 0 then g
    else if ok then { g with locked := g.locked &&& ~~~g.asked, asked := 0 }
    else g.close prot
  | .disconnect => g.close prot
  | .tries _ _ => g
  | .measure _ live => { g with remote := g.remote.final k (live.map (·.2)) }

/-- What the slave says; timestamps have `ts` bytes. -/
def Guarded.says (k : About) (ts : Nat) (g : Guarded) : Deal → List Said
  | .plain (.request .getStatus) => [.answer [0xFF, 0, g.locked, 0, 0, 0]]
  | .plain (.request q) => [.answer (g.remote.answer k q)]
  | .plain _ => []
  | .getSeed res seed => [.answer (if k.has res then 0xFF :: UInt8.ofNat seed.length :: seed else [0xFE, 0x22])]
  | .unlock _ ok =>
    [.answer (if g.asked = 0 then [0xFE, 0x29] else if ok then [0xFF, g.locked &&& ~~~g.asked] else [0xFE, 0x25])]
  | .disconnect => [.answer [0xFF]]
  | .tries _ _ => [.answer [0xFE, 0x25]]
  | .measure p live => p.answers.map .answer ++ p.live k ts g.remote live ++ [.answer [0xFF]]

/-- The state after a history. -/
def Guarded.final (k : About) (prot : UInt8) (g : Guarded) (ds : List Deal) : Guarded := ds.foldl (Guarded.after k prot) g

/-- What is said in a history. -/
def Guarded.saysAll (k : About) (ts : Nat) (prot : UInt8) : Guarded → List Deal → List Said
  | _, [] => []
  | g, d :: ds => g.says k ts d ++ (g.after k prot d).saysAll k ts prot ds

/-- The requests that change parameters. -/
def Req.calibrates : Req → Bool
  | .download _ | .downloadMax _ | .shortDownload _ _ _ | .modifyBits _ _ _ => true
  | _ => false

end Xcp.Spec
