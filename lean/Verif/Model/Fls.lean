import Verif.Model.Base
/-
The flash emulation: flsemu/common.c and, for page selection, flsemu/posix/flsemu.c.
-/
set_option autoImplicit false
namespace Xcp

/-- `FlsEmu_PersistentArrayType`, flsemu/flsemu.h:73-78, together with the file behind it: the mapping of
`mapLen` bytes at address `map` shows the file from offset `view` on. -/
structure FlsArr where
  map : UInt64
  mapLen : Nat
  view : Nat
  file : Nat → UInt8
  fileSize : Nat
  page : Nat

/-- `FlsEmu_SegmentType`, flsemu/flsemu.h:80-91 (name and write size left out).  `arr` is
`persistentArray`, `none` a null pointer. -/
structure FlsSeg where
  memSize : UInt32
  sectorSize : UInt16
  pageSize : UInt32
  blockCount : UInt8
  base : UInt64
  arr : Option FlsArr
  curPage : UInt8

/-- Static variables of flsemu/common.c:60-62 and the segments. -/
structure Fls where
  init : Bool
  granularity : UInt32
  segs : List FlsSeg

/-- Static configuration of a segment: no array yet (examples/xcpsim/app_config.c:38-44). -/
def FlsSeg.static (s : FlsSeg) : Prop := s.arr = none

/-- `FlsEmu_OpenCreate`, flsemu/common.c:93-149.  Allocation and opening of the file are inside of the loop
`for (pageIdx = 0; pageIdx < numPages; ++pageIdx)` of line 108, and `numPages` is still 0 there: the loop body is
never executed.  Assertions on. -/
def Fls.openCreate (f : Fls) (_idx : Nat) : Except Fault Fls :=
  if f.init = false then .error .assertFail
  else .ok f

/-- the loop of `FlsEmu_Init`, flsemu/common.c:78-80 -/
def Fls.openAll (f : Fls) : Nat → Except Fault Fls
  | 0 => .ok f
  | n + 1 => do
    let f1 ← f.openAll n
    f1.openCreate n

/-- `FlsEmu_Init`, flsemu/common.c:72-81. -/
def Fls.initialize (granularity : UInt32) (segs : List FlsSeg) : Except Fault Fls :=
  Fls.openAll ⟨true, granularity, segs⟩ segs.length

/-- `segment->persistentArray->...` -/
def FlsSeg.array (s : FlsSeg) : Except Fault FlsArr :=
  match s.arr with
  | some a => .ok a
  | none => .error .nullDeref

/-- `FlsEmu_BasePointer`, flsemu/common.c:151-161; `none` is a null pointer. -/
def Fls.basePointer (f : Fls) (idx : Nat) : Except Fault (Option UInt64) :=
  if f.init = false then .error .assertFail
  else match f.segs[idx]? with
    | none => .ok none
    | some s => do
      let a ← s.array
      return some a.map

/-- `FlsEmu_NumPages`, flsemu/common.c:163-173. -/
def Fls.numPages (f : Fls) (idx : Nat) : Except Fault Nat :=
  if f.init = false then .error .assertFail
  else match f.segs[idx]? with
    | none => .ok 0
    | some s => if s.pageSize = 0 then .error .divZero else .ok (s.memSize.toNat / s.pageSize.toNat)

/-- `XcpUtl_MemSet(map + off, 0xFF, n)`: bytes outside of the mapping or behind the end of the file are
faults. -/
def FlsArr.erase (a : FlsArr) (off n : Nat) : Except Fault FlsArr :=
  if a.mapLen < off + n ∨ a.fileSize < a.view + off + n then .error .bufOob
  else .ok { a with file := fun i => if a.view + off ≤ i ∧ i < a.view + off + n then 0xFF else a.file i }

/-- Replace a segment. -/
def Fls.setSeg (f : Fls) (idx : Nat) (s : FlsSeg) : Fls := { f with segs := f.segs.set idx s }

/-- `FlsEmu_EraseSector`, flsemu/common.c:175-193.  `ptr` is a `uint16_t *`: the byte offset is twice
`address & ~mask`. -/
def Fls.eraseSector (f : Fls) (idx : Nat) (address : UInt32) : Except Fault Fls :=
  if f.init = false then .error .assertFail
  else match f.segs[idx]? with
    | none => .ok f
    | some s => do
      let mask := s.sectorSize.toUInt32 - 1
      let a ← s.array
      let a1 ← a.erase (2 * (address &&& ~~~mask).toNat) s.sectorSize.toNat
      return f.setSeg idx { s with arr := some a1 }

/-- `FlsEmu_ErasePage`, flsemu/common.c:195-206; `uint32_t` product. -/
def Fls.erasePage (f : Fls) (idx : Nat) (page : UInt8) : Except Fault Fls := do
  let _ ← f.basePointer idx
  match f.segs[idx]? with
  | none => return f
  | some s => do
    let a ← s.array
    let a1 ← a.erase (s.pageSize * page.toUInt32).toNat s.pageSize.toNat
    return f.setSeg idx { s with arr := some a1, curPage := page }

/-- `FlsEmu_EraseBlock`, flsemu/common.c:208-227. -/
def Fls.eraseBlock (f : Fls) (idx : Nat) (block : UInt16) : Except Fault Fls :=
  if f.init = false then .error .assertFail
  else match f.segs[idx]? with
    | none => .ok f
    | some s =>
      if s.blockCount.toNat ≤ block.toNat then .error .assertFail
      else do
        let blockSize := s.memSize / s.blockCount.toUInt32
        let a ← s.array
        let a1 ← a.erase (blockSize * block.toUInt32).toNat blockSize.toNat
        return f.setSeg idx { s with arr := some a1 }

/-- `FlsEmu_SelectPage`, flsemu/posix/flsemu.c:178-201: compares with `persistentArray->currentPage`, which
nothing updates.  A file offset that is not a multiple of the system page size makes `mmap` fail, and
the program exits.  Simplifications: `mmap` uses the address it is given; the segment is not empty and the
offset, an `int` there, is less than 2 ^ 31. -/
def Fls.selectPage (f : Fls) (idx : Nat) (page : UInt8) : Except Fault Fls :=
  if f.init = false then .error .assertFail
  else match f.segs[idx]? with
    | none => .ok f
    | some s => do
      let a ← s.array
      if a.page = page.toNat then return f
      else
        let offset := s.pageSize * page.toUInt32
        if f.granularity ≠ 0 ∧ offset % f.granularity ≠ 0 then throw .exit
        else return f.setSeg idx { s with arr := some { a with view := offset.toNat, mapLen := s.memSize.toNat } }

/-- `Xcp_MemoryMappingResultType`, inc/xcp.h:910-914. -/
inductive MapResult where
  | mapped (addr : UInt64) (ext : UInt8)
  | notMapped
  | invalid
deriving DecidableEq, Repr

/-- `FlsEmu_MemoryMapper`, flsemu/common.c:229-253, from segment `idx` on (`fuel` segments left). -/
def Fls.mapperFrom (f : Fls) (addr : UInt64) (ext : UInt8) : Nat → Nat → Except Fault (MapResult × Fls)
  | 0, _ => .ok (.notMapped, f)
  | n + 1, idx => do
    let ptr ← f.basePointer idx
    match f.segs[idx]?, ptr with
    | some s, some p =>
      if s.base ≤ addr ∧ addr < s.base + s.pageSize.toUInt64 then do
        let np ← f.numPages idx
        if np ≤ ext.toNat then return (.invalid, f)
        else do
          let f1 ← f.selectPage idx ext
          return (.mapped (p - s.base + addr) ext, f1)
      else f.mapperFrom addr ext n (idx + 1)
    | _, _ => throw .nullDeref

def Fls.mapper (f : Fls) (addr : UInt64) (ext : UInt8) : Except Fault (MapResult × Fls) :=
  f.mapperFrom addr ext f.segs.length 0

/-- `FlsEmu_AllocatedSize`, flsemu/common.c:258-272: the conditional operator takes the whole sum as its
condition. -/
def Fls.allocatedSize (f : Fls) (idx : Nat) : Except Fault UInt32 :=
  if f.init = false then .error .assertFail
  else match f.segs[idx]? with
    | none => .ok 0
    | some s =>
      if f.granularity = 0 then .error .divZero
      else
        let rest : UInt32 := if s.pageSize % f.granularity ≠ 0 then 1 else 0
        .ok (f.granularity * (if s.pageSize / f.granularity + rest ≠ 0 then 1 else 0))

/-- `FlsEmu_Close`, flsemu/posix/flsemu.c:63-76: `FlsEmu_Flush` (lines 78-91) writes the mapping to the file, then
the mapping, the file and the memory of the array are given back.  Simplifications: the pointer to the freed
memory, which stays in the segment, is `none` here; system calls do not fail. -/
def Fls.close (f : Fls) (idx : Nat) : Except Fault Fls :=
  if f.init = false then .error .assertFail
  else match f.segs[idx]? with
    | none => .ok f
    | some s => do
      let _ ← s.array
      return f.setSeg idx { s with arr := none }

/-- the loop of `FlsEmu_DeInit`, flsemu/common.c:86-89: the first `n` segments -/
def Fls.closeAll (f : Fls) : Nat → Except Fault Fls
  | 0 => .ok f
  | n + 1 => do
    let f1 ← f.closeAll n
    f1.close n

/-- `FlsEmu_DeInit`, flsemu/common.c:83-91; called at the end of examples/xcpsim/main.c (line 45). -/
def Fls.deInit (f : Fls) : Except Fault Fls := do
  let f1 ← f.closeAll f.segs.length
  return { f1 with init := false }

end Xcp
