import Verif.Model.Base
/-
src/xcp_util.c, function by function.  Memory functions record every address they read and
write.
-/
set_option autoImplicit false
namespace Xcp

/-- Memory with a log of the addresses accessed so far. -/
structure Acc where
  mem : Mem
  reads : List UInt32
  writes : List UInt32

/-- the loop of `XcpUtl_MemCopy`, src/xcp_util.c:41-43: byte by byte, upwards -/
def memCopyLoop : Nat → UInt32 → UInt32 → Acc → Acc
  | 0, _, _, a => a
  | n + 1, pd, ps, a =>
    memCopyLoop n (pd + 1) (ps + 1)
      { mem := fun x => if x = pd then a.mem ps else a.mem x, reads := a.reads ++ [ps], writes := a.writes ++ [pd] }

/-- `XcpUtl_MemCopy`, src/xcp_util.c:33-44.  Simplification: pointers are 32-bit addresses, address 0
is the null pointer; a null or out-of-range pointer is otherwise not distinguished from
others. -/
def memCopy (asserts : Bool) (dst src : UInt32) (len : UInt32) (m : Mem) : Except Fault Acc :=
  if asserts && (dst == 0 || len == 0) then .error .assertFail
  else .ok (memCopyLoop len.toNat dst src ⟨m, [], []⟩)

/-- the loop of `XcpUtl_MemSet`, src/xcp_util.c:51-53 -/
def memSetLoop (c : UInt8) : Nat → UInt32 → Acc → Acc
  | 0, _, a => a
  | n + 1, p, a =>
    memSetLoop c n (p + 1) { a with mem := fun x => if x = p then c else a.mem x, writes := a.writes ++ [p] }

/-- `XcpUtl_MemSet`, src/xcp_util.c:46-54. -/
def memSet (asserts : Bool) (dest : UInt32) (c : UInt8) (len : UInt32) (m : Mem) : Except Fault Acc :=
  if asserts && dest == 0 then .error .assertFail else .ok (memSetLoop c len.toNat dest ⟨m, [], []⟩)

/-- the loop of `XcpUtl_MemCmp`, src/xcp_util.c:66-68: both bytes are read before `len` is looked at.
Returns the remaining `len` and the addresses read. -/
def memCmpLoop (m : Mem) : Nat → UInt32 → UInt32 → List UInt32 → Nat × List UInt32
  | 0, pl, pr, rd => (0, rd ++ [pl, pr])
  | n + 1, pl, pr, rd =>
    if m pl = m pr then memCmpLoop m n (pl + 1) (pr + 1) (rd ++ [pl, pr]) else (n + 1, rd ++ [pl, pr])

/-- `XcpUtl_MemCmp`, src/xcp_util.c:56-70: result and the addresses read. -/
def memCmp (asserts : Bool) (lhs rhs : UInt32) (len : UInt32) (m : Mem) : Except Fault (Bool × List UInt32) :=
  if asserts && (lhs == 0 || rhs == 0) then .error .assertFail
  else if len = 0 then .ok (false, [])
  else
    let r := memCmpLoop m len.toNat lhs rhs []
    .ok (r.1 == 0, r.2)

/-- A character buffer, indexed by `uint8_t pos`. -/
abbrev CharBuf := Nat → UInt8

/-- `buf[i] = c` -/
def CharBuf.set (b : CharBuf) (i : Nat) (c : UInt8) : CharBuf := fun j => if j = i then c else b j

/-- The character of a digit, src/xcp_util.c:101-105 (`uint8_t` arithmetic). -/
def digitChar (d : Nat) : UInt8 := if d < 10 then UInt8.ofNat (48 + d) else UInt8.ofNat (65 + d - 10)

/-- The digit loop of `XcpUtl_Itoa`, src/xcp_util.c:99-107.  Base 0 divides by zero, base 1 never
gets to 0. -/
def itoaLoop (base : Nat) (value pos : Nat) (buf : CharBuf) : Except Fault (Nat × CharBuf) :=
  if value = 0 then .ok (pos, buf)
  else if base = 0 then .error .divZero
  else if h : base = 1 then .error .noReturn
  else itoaLoop base (value / base) ((pos + 1) % 256) (buf.set pos (digitChar (value % base % 256)))
termination_by value
decreasing_by exact Nat.div_lt_self (by omega) (by omega)

/-- The reversal loop of `XcpUtl_Itoa`, src/xcp_util.c:109-115. -/
def itoaSwap (lo hi : Nat) (buf : CharBuf) : CharBuf :=
  if lo < hi then itoaSwap (lo + 1) (hi - 1) ((buf.set lo (buf hi)).set hi (buf lo)) else buf
termination_by hi

/-- `XcpUtl_Itoa`, src/xcp_util.c:82-116.  `long64` tells whether `long` has 64 bits: with 32 bits the
negation of the smallest number overflows. -/
def itoa (long64 : Bool) (value : UInt32) (base : UInt8) (buf : CharBuf) : Except Fault CharBuf := do
  let neg := 2 ^ 31 ≤ value.toNat ∧ base.toNat = 10
  if neg ∧ value.toNat = 2 ^ 31 ∧ long64 = false then throw .intOverflow
  let v := if neg then 2 ^ 32 - value.toNat else value.toNat
  let buf := if neg then buf.set 0 45 else buf
  let start := if neg then 1 else 0
  let buf0 := if v = 0 then buf.set start 48 else buf
  let pos0 := if v = 0 then start + 1 else start
  let (pos, buf1) ← itoaLoop base.toNat v pos0 buf0
  let buf2 := buf1.set pos 0
  return itoaSwap start (pos - 1) buf2

end Xcp
