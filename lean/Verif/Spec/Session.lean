import Verif.Model.State
/-
Vocabulary for properties of single commands: what was sent, and what stayed the same.
-/
set_option autoImplicit false
namespace Xcp.Spec

/-- Payload of a frame: what follows the transport header. -/
def payload (cfg : Cfg) (f : Frame) : List UInt8 := f.bytes.drop (cfg.lenSize + cfg.ctrSize)

/-- A packet whose meaningful bytes are `bs`: without the MAX_DLC option it is `bs`, with it
the packet has MAX_CTO bytes of which the first ones are `bs`. -/
def Carries (cfg : Cfg) (f : Frame) (bs : List UInt8) : Prop :=
  f.kind = .cto ∧ (payload cfg f).take bs.length = bs ∧
  (payload cfg f).length = if cfg.maxDlc then cfg.maxCto else bs.length

/-- Between `s` and `s'` exactly one packet was sent, and it carries `bs`. -/
def Answers (cfg : Cfg) (s s' : St) (bs : List UInt8) : Prop :=
  ∃ f, s'.tx = s.tx ++ [f] ∧ Carries cfg f bs

/-- Nothing was sent. -/
def Silent (s s' : St) : Prop := s'.tx = s.tx

/-- Exactly one command response (packet) was sent. -/
def OnePacket (s s' : St) : Prop := ∃ f : Frame, s'.tx = s.tx ++ [f] ∧ f.kind = .cto

/-- Two states agree in everything but the transmit log, frame counter, transmit buffer
and statistics. -/
structure SameCore (s s' : St) : Prop where
  connected : s'.connected = s.connected
  busy : s'.busy = s.busy
  daq : s'.daq = s.daq
  pgm : s'.pgm = s.pgm
  resProt : s'.resProt = s.resProt
  seedReq : s'.seedReq = s.seedReq
  mta : s'.mta = s.mta
  slaveBlk : s'.slaveBlk = s.slaveBlk
  masterBlk : s'.masterBlk = s.masterBlk
  ck : s'.ck = s.ck
  mem : s'.mem = s.mem

/-- The command was refused with error `code` and nothing else happened. -/
def Refused (cfg : Cfg) (s s' : St) (code : UInt8) : Prop :=
  Answers cfg s s' [0xFE, code] ∧ SameCore s s'

/-- Short packets are sent as they are: there is no MAX_DLC padding, or the padded packet
has eight bytes. -/
def ShortOk (cfg : Cfg) : Prop := cfg.maxDlc = false ∨ cfg.maxCto = 8

/-- The first byte of a packet, the command code. -/
def code (p : Pdu) : Option UInt8 := p.buf[0]?

/-- Connected and not busy: the slave executes commands. -/
structure Ready (s : St) : Prop where
  conn : s.connected = true
  idle : s.busy = false

end Xcp.Spec
