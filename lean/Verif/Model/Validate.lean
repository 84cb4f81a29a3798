import Verif.Model.Daq
/-
The checks of a DAQ configuration the library offers to applications (dynamic lists).
-/
set_option autoImplicit false
namespace Xcp

/-- `XcpDaq_ValidateConfiguration`, src/xcp_daq.c:392-404. -/
def validateConfiguration (d : Daq) : Bool := decide (0 < d.entityCount) && decide (0 < d.listCount) && decide (0 < d.odtCount)

/-- The loop of `XcpDaq_ValidateList`, src/xcp_daq.c:436-442: ODT `idx` and the `k - 1` after it. -/
def anyEntries (cfg : Cfg) (d : Daq) (list : Nat) : Nat → Nat → Except Fault Bool
  | _, 0 => .ok false
  | idx, k + 1 => do
    let o ← getOdt cfg d list idx
    if o.num ≠ 0 then return true else anyEntries cfg d list (idx + 1) k

/-- `XcpDaq_ValidateList`, src/xcp_daq.c:419-446.  The comparison with `count - 1` is done in `int`.  Simplification:
`XCP_DAQ_ENTITY_TYPE` is `uint8_t`, so the loop variable `uint8_t idx` covers all ODTs. -/
def validateList (cfg : Cfg) (d : Daq) (list : Nat) : Except Fault Bool :=
  if d.listCount ≤ list then .ok false
  else do
    let l ← d.ent cfg list
    if l.num = 0 then return false
    else anyEntries cfg d list 0 l.num

end Xcp
