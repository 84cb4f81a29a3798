import Verif.Model.Daq
import Verif.Model.Eth
/-
The memory of the DAQ queue when it is cleared, src/xcp_daq.c.
-/
set_option autoImplicit false
namespace Xcp

/-- `sizeof(XcpDaq_OdtType)`, src/xcp_daq.c:49-52: the length, one byte, and the data. -/
def slotSize (maxDto : Nat) : Nat := 1 + maxDto

/-- `sizeof(Xcp_PduType)`, inc/xcp.h:818-821: `uint16_t`, padding up to the alignment of a pointer, and the pointer.  The
alignment of a pointer is its size (`ptr` bytes; 2, 4 or 8). -/
def pduSize (ptr : Nat) : Nat := (2 + (ptr - 1)) / ptr * ptr + ptr

/-- `XcpUtl_ZeroMem` on `n` bytes of an array from `off` on, inc/xcp_util.h:45, src/xcp_util.c:45-53. -/
def zeroMem (mem : List UInt8) (off n : Nat) : Except Fault (List UInt8) :=
  if mem.length < off + n then .error .queueOob else .ok (storeAt mem off (List.replicate n 0))

/-- The loop of `XcpDaq_QueueInit`, src/xcp_daq.c:715-717: each slot is cleared with the size of another type. -/
def queueZero (ptr maxDto : Nat) (mem : List UInt8) : Except Fault (List UInt8) :=
  (List.range queueSize).foldlM (fun m i => zeroMem m (i * slotSize maxDto) (pduSize ptr)) mem

end Xcp
