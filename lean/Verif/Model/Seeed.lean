import Verif.Model.Can
/-
The receiver of the Arduino port with a Seeed CAN shield (src/tl/can/arduino_can.cpp with
`XCP_CAN_IF_SEED_STUDIO_CAN_SHIELD`, the interface of tools/arduino/hello_xcp/xcp_config.h:40) and as much of its
controller, the MCP2515, as decides what the program gets to see.
-/
set_option autoImplicit false
namespace Xcp

/-- A filter or a mask of the MCP2515: standard identifier (11 bits), extended identifier (18 bits), and the kind of
messages a filter is for (not used in a mask). -/
structure McpReg where
  sid : Nat
  eid : Nat
  ext : Bool
deriving DecidableEq, Repr

/-- What `init_Mask` and `init_Filt` of the shield's library write (src/tl/can/arduino_can.cpp:91-100); bits above the identifier are
cut off. -/
def McpReg.write (ext : Bool) (v : UInt32) : McpReg :=
  if ext then ⟨v.toNat % 2 ^ 29 / 2 ^ 18, v.toNat % 2 ^ 18, true⟩ else ⟨v.toNat % 2 ^ 11, 0, false⟩

/-- `filter_mask`, src/tl/can/arduino_can.cpp:205-211. -/
def inoFilterMask (i : UInt32) : UInt32 :=
  if canIsExt i then ((2 : UInt32) <<< (29 - 1)) - 1 else ((2 : UInt32) <<< (11 - 1)) - 1

/-- What a message is compared with (MCP2515 data sheet, message acceptance filters and masks): the identifier; the extended bits of a
filter are compared with the first two data bytes of a standard message. -/
def CanMsg.mcp (m : CanMsg) : McpReg :=
  if m.ext then ⟨m.id / 2 ^ 18, m.id % 2 ^ 18, true⟩
  else ⟨m.id, (m.data.getD 0 0).toNat * 256 + (m.data.getD 1 0).toNat, false⟩

/-- Filter and message agree in the bits of the mask. -/
def McpReg.accepts (mask filt : McpReg) (m : CanMsg) : Bool :=
  filt.ext == m.ext && m.mcp.sid &&& mask.sid == filt.sid &&& mask.sid && m.mcp.eid &&& mask.eid == filt.eid &&& mask.eid

/-- How `XcpTl_Init` leaves the controller, src/tl/can/arduino_can.cpp:91-100: two masks and the filters 0 and 1.  Mask 0 applies to the filters
0 and 1, mask 1 to the filters 2 to 5, which are not set. -/
structure Mcp where
  mask0  : McpReg
  mask1  : McpReg
  filt0  : McpReg
  filt1  : McpReg
  others : List McpReg

/-- src/tl/can/arduino_can.cpp:91-100; `others` is what the filters 2 to 5 contain.  `XCP_ON_CAN_STRIP_IDENTIFIER` is not used. -/
def Mcp.init (inb bc : UInt32) (others : List McpReg) : Mcp where
  mask0 := .write (canIsExt inb) (inoFilterMask inb)
  mask1 := .write (canIsExt bc) (inoFilterMask bc)
  filt0 := .write (canIsExt inb) inb
  filt1 := .write (canIsExt bc) bc
  others := others

/-- The message goes to receive buffer 0. -/
def Mcp.first (c : Mcp) (m : CanMsg) : Bool := c.mask0.accepts c.filt0 m || c.mask0.accepts c.filt1 m

/-- It goes to receive buffer 1. -/
def Mcp.second (c : Mcp) (m : CanMsg) : Bool := c.others.any fun f => c.mask1.accepts f m

/-- The Arduino with the shield: the program, the two receive buffers of the controller, and whether an interrupt is requested. -/
structure Seeed where
  ino : Ino
  rb0 : Option CanMsg
  rb1 : Option CanMsg
  irq : Bool

/-- The line of the interrupt is low while a receive buffer is full. -/
def Seeed.low (x : Seeed) : Bool := x.rb0.isSome || x.rb1.isSome

/-- A message on the bus.  What matches filter 0 or 1 goes to buffer 0 or, if that is full, to buffer 1 (the library switches the rollover on);
what matches only the others goes to buffer 1; with no buffer free it is lost.  The interrupt is attached to the falling edge
of the line (src/tl/can/arduino_can.cpp:81).  Simplification: no remote requests. -/
def Seeed.arrive (c : Mcp) (x : Seeed) (m : CanMsg) : Seeed :=
  if c.first m then
    if x.rb0.isNone then { x with rb0 := some m, irq := x.irq || !x.low }
    else if x.rb1.isNone then { x with rb1 := some m, irq := x.irq || !x.low }
    else x
  else if c.second m && x.rb1.isNone then { x with rb1 := some m, irq := x.irq || !x.low }
  else x

/-- `on_receive` when the interrupt is served, src/tl/can/arduino_can.cpp:135, 142-149: one message is read (`readMsgBuf`: buffer 0 first).  The program
gets it without its identifier. -/
def Seeed.isr (x : Seeed) : Except Fault Seeed :=
  if x.irq then
    match x.rb0, x.rb1 with
    | some m, _ => do
      let ino ← x.ino.receive m
      return { x with ino, rb0 := none, irq := false }
    | none, some m => do
      let ino ← x.ino.receive m
      return { x with ino, rb1 := none, irq := false }
    | none, none => .ok { x with irq := false }
  else .ok x

/-- What happens: a message on the bus, the processor serves the interrupt if requested, the main function is called. -/
inductive SeeedOp where
  | arrive (m : CanMsg)
  | isr
  | main (env : Env)

/-- One of them; `XcpTl_MainFunction` is as with the other shield (src/tl/can/arduino_can.cpp:125-130, 166-174). -/
def Seeed.step (cfg : Cfg) (c : Mcp) (x : Seeed) : SeeedOp → Except Fault Seeed
  | .arrive m => .ok (x.arrive c m)
  | .isr => x.isr
  | .main env => do
    let ino ← x.ino.main cfg env
    return { x with ino }

/-- A history. -/
def Seeed.run (cfg : Cfg) (c : Mcp) (x : Seeed) : List SeeedOp → Except Fault Seeed
  | [] => .ok x
  | o :: os => do
    let y ← x.step cfg c o
    y.run cfg c os

/-- After start-up: nothing received. -/
def Seeed.init (cfg : Cfg) (mem : Mem) : Seeed := ⟨Ino.init cfg mem, none, none, false⟩

end Xcp
