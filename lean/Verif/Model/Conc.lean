import Verif.Model.Send
/-
Sending from several threads: `Xcp_SendCto`, `Xcp_SendDto` and what fills their buffers, one memory access at a
time.  src/xcp.c:732-856, src/xcp_daq.c:604-612, src/tl/eth/linuxeth.c:120-139.
-/
set_option autoImplicit false
namespace Xcp

/-- The accesses to shared variables made while a packet is sent.  Indices of `put` count behind the header.
Simplification: every access is atomic and all threads see the accesses in one order;
`XcpUtl_MemCopy` copies byte by byte; the statistics counter is left out. -/
inductive SAct where
  /-- `Xcp_SetCtoOutLen`, `Xcp_SetDtoOutLen`, src/xcp.c:794-796, 804-806 -/
  | setLen (n : Nat)
  /-- a byte of the packet is stored -/
  | put (i : Nat) (v : UInt8)
  /-- `const uint16_t len = Xcp_CtoOut.len`, src/xcp.c:734, 764 -/
  | getLen
  /-- byte `i` of `len` is stored in the length field, src/xcp.c:737-742, 767-772 -/
  | putLen (i : Nat)
  /-- byte `i` of `Xcp_State.counter` is stored in the counter field, src/xcp.c:744-750, 774-780 -/
  | putCtr (i : Nat)
  /-- the two halves of `Xcp_State.counter++`, src/xcp.c:746, 750, 776, 780 -/
  | loadCtr
  | storeCtr
  /-- the second read of `Xcp_CtoOut.len`, src/xcp.c:757, 787 -/
  | getSendLen
  /-- `XCP_TL_ENTER_CRITICAL`, src/tl/eth/linuxeth.c:124 -/
  | acq
  /-- `send`, src/tl/eth/linuxeth.c:125-137 -/
  | send
  /-- `XCP_TL_LEAVE_CRITICAL`, src/tl/eth/linuxeth.c:138 -/
  | rel
deriving DecidableEq, Repr

/-- `Xcp_CtoOut` and `Xcp_DtoOut`, src/xcp.c:56-63: length of the packet, and the bytes including the header. -/
structure OutBuf where
  len   : Nat
  bytes : List UInt8
deriving DecidableEq, Repr

/-- Both buffers. -/
structure OutBufs where
  cto : OutBuf
  dto : OutBuf
deriving DecidableEq, Repr

def OutBufs.get (b : OutBufs) : Kind → OutBuf
  | .cto => b.cto
  | .dto => b.dto

def OutBufs.set (b : OutBufs) (k : Kind) (o : OutBuf) : OutBufs :=
  match k with
  | .cto => { b with cto := o }
  | .dto => { b with dto := o }

/-- The local variables: `len`, the length passed to `XcpTl_Send`, the value of the counter being incremented. -/
structure SRegs where
  len     : Nat
  sendLen : Nat
  ctr     : Nat
deriving DecidableEq, Repr

/-- A sending thread: what is left of its program and its local variables. -/
structure SThread where
  todo : List (Kind × SAct)
  regs : SRegs
deriving DecidableEq, Repr

/-- The slave as far as sending is concerned.  `wire` are the frames sent, with the number of the sending thread. -/
structure SSys where
  bufs    : OutBufs
  counter : Nat
  owner   : Option Nat
  threads : List SThread
  wire    : List (Nat × List UInt8)
deriving DecidableEq, Repr

/-- Byte `i` of a number. -/
def byteOf (n i : Nat) : UInt8 := UInt8.ofNat (n / 256 ^ i)

/-- Header size, `XCP_TRANSPORT_LAYER_BUFFER_OFFSET`. -/
def hdrSize (cfg : Cfg) : Nat := cfg.lenSize + cfg.ctrSize

/-- What an access does to buffers and local variables; `c` is the value of the shared counter. -/
def SAct.local (cfg : Cfg) (c : Nat) (b : OutBuf) (r : SRegs) : SAct → OutBuf × SRegs
  | .setLen n => ({ b with len := n }, r)
  | .put i v => ({ b with bytes := b.bytes.set (hdrSize cfg + i) v }, r)
  | .getLen => (b, { r with len := b.len })
  | .putLen i => ({ b with bytes := b.bytes.set i (byteOf r.len i) }, r)
  | .putCtr i => ({ b with bytes := b.bytes.set (cfg.lenSize + i) (byteOf c i) }, r)
  | .loadCtr => (b, { r with ctr := c })
  | .getSendLen => (b, { r with sendLen := b.len + hdrSize cfg })
  | .storeCtr | .acq | .send | .rel => (b, r)

/-- Thread `i` makes its next access.  It waits (nothing happens) if it wants a lock that is taken. -/
def SSys.step (cfg : Cfg) (s : SSys) (i : Nat) : SSys :=
  match s.threads[i]? with
  | none => s
  | some ⟨[], _⟩ => s
  | some ⟨(k, a) :: rest, r⟩ =>
    let (b, r') := a.local cfg s.counter (s.bufs.get k) r
    let s' := { s with bufs := s.bufs.set k b, threads := s.threads.set i ⟨rest, r'⟩ }
    match a with
    | .storeCtr => { s' with counter := (r.ctr + 1) % 65536 }
    | .acq => if s.owner = none then { s' with owner := some i } else s
    | .send => { s' with wire := s.wire ++ [(i, (s.bufs.get k).bytes.take r.sendLen)] }
    | .rel => { s' with owner := none }
    | _ => s'

/-- A schedule: the numbers of the threads in the order in which they make an access. -/
def SSys.run (cfg : Cfg) (s : SSys) : List Nat → SSys
  | [] => s
  | i :: is => (s.step cfg i).run cfg is

/-- How a packet gets into its buffer. -/
inductive Maker where
  /-- `Xcp_Send8`, src/xcp.c:808-853: length first, then the bytes from the last to the first -/
  | send8
  /-- `Xcp_SendSpecialPacket`, src/xcp.c:2262-2281: length first, then the bytes -/
  | special
  /-- `Xcp_Upload`, src/xcp.c:914-928, `Xcp_GetSeed_Res`, src/xcp.c:1193-1200, `XcpDaq_TransmitDtos`,
  src/xcp_daq.c:604-612: the bytes, then the length -/
  | raw
deriving DecidableEq, Repr

/-- The bytes of a packet, in ascending order from position `i`. -/
def puts : Nat → List UInt8 → List SAct
  | _, [] => []
  | i, v :: vs => .put i v :: puts (i + 1) vs

/-- Filling the buffer. -/
def Maker.acts (bs : List UInt8) : Maker → List SAct
  | .send8 => .setLen bs.length :: (puts 0 bs).reverse
  | .special => .setLen bs.length :: puts 0 bs
  | .raw => puts 0 bs ++ [.setLen bs.length]

/-- `Xcp_SendCto`, `Xcp_SendDto` with `XcpTl_Send`, src/xcp.c:732-788, src/tl/eth/linuxeth.c:120-139. -/
def sendActs (cfg : Cfg) : List SAct :=
  .getLen :: (List.range cfg.lenSize).map .putLen ++ (List.range cfg.ctrSize).map .putCtr ++
    (if cfg.ctrSize = 0 then [] else [.loadCtr, .storeCtr]) ++ [.getSendLen, .acq, .send, .rel]

/-- A packet to be sent. -/
structure SPkt where
  kind  : Kind
  maker : Maker
  bytes : List UInt8
deriving DecidableEq, Repr

/-- Everything that is done for a packet. -/
def SPkt.acts (cfg : Cfg) (p : SPkt) : List (Kind × SAct) := (p.maker.acts p.bytes ++ sendActs cfg).map (p.kind, ·)

/-- Threads that send the given packets, at start-up. -/
def SSys.init (cfg : Cfg) (progs : List (List SPkt)) : SSys :=
  { bufs := ⟨⟨0, List.replicate (hdrSize cfg + cfg.maxCto) 0⟩, ⟨0, List.replicate (hdrSize cfg + cfg.maxDto) 0⟩⟩
    counter := 0
    owner := none
    threads := progs.map fun ps => ⟨(ps.map (SPkt.acts cfg)).flatten, ⟨0, 0, 0⟩⟩
    wire := [] }

end Xcp
