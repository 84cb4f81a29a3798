import Verif.Model.Fls
/-
The flash emulation on Windows, flsemu/win/flsemu.c, and opening the storage of a segment on both systems.
The functions of flsemu/common.c appear here again, for the data of this file.
-/
set_option autoImplicit false
namespace Xcp

/-- A view of a file in the address space of the program: `len` bytes at `base` show the file from `off` on. -/
structure WinView where
  base : UInt64
  off : Nat
  len : Nat
deriving DecidableEq, Repr

/-- `FlsEmu_PersistentArrayType`, flsemu/flsemu.h:73-78, on Windows, and what the system knows about it: `map` is
`mappingAddress` (`none`: null), `view` the view that exists, `handle` whether `mappingHandle` is open, `size` the
size of the mapping object, `page` is `currentPage`, which the Windows functions never write: its first value is
what `malloc` returns. -/
structure WinArr where
  map : Option UInt64
  view : Option WinView
  handle : Bool
  size : Nat
  page : UInt16
  file : Nat → UInt8

/-- `FlsEmu_SegmentType`, flsemu/flsemu.h:80-91; `alloc` is `alloctedPageSize`. -/
structure WinSeg where
  memSize : UInt32
  pageSize : UInt32
  base : UInt64
  arr : Option WinArr
  curPage : UInt8
  alloc : UInt32

/-- Static variables of flsemu/common.c:60-62 and the segments. -/
structure FlsWin where
  init : Bool
  granularity : UInt32
  segs : List WinSeg

/-- `segment->persistentArray->...` -/
def WinSeg.array (s : WinSeg) : Except Fault WinArr :=
  match s.arr with
  | some a => .ok a
  | none => .error .nullDeref

def FlsWin.setSeg (f : FlsWin) (idx : Nat) (s : WinSeg) : FlsWin := { f with segs := f.segs.set idx s }

/-- `UnmapViewOfFile`: fails if no view begins at the address. -/
def WinArr.unmap (a : WinArr) : Option WinArr :=
  match a.map, a.view with
  | some m, some v => if v.base = m then some { a with view := none } else none
  | _, _ => none

/-- `MapViewOfFile`: fails if the handle is closed, the offset is not a multiple of the allocation granularity or the
view goes beyond the end of the mapping object; otherwise the system chooses the address `q` or fails (`none`).
Simplification: the length is not 0. -/
def WinArr.mapView (a : WinArr) (granularity : UInt32) (off len : Nat) (q : Option UInt64) : Option UInt64 :=
  if a.handle = true ∧ off % granularity.toNat = 0 ∧ off + len ≤ a.size then q else none

/-- `FlsEmu_MapAddress`, flsemu/win/flsemu.c:148-169, and whether it succeeds. -/
def WinArr.mapAddress (a : WinArr) (granularity : UInt32) (off len : Nat) (q : Option UInt64) : WinArr × Bool :=
  match a.unmap with
  | none => ({ a with handle := false }, false)
  | some a =>
    match a.mapView granularity off len q with
    | none => ({ a with map := none, handle := false }, false)
    | some m => ({ a with map := some m, view := some ⟨m, off, len⟩ }, true)

/-- `FlsEmu_SelectPage`, flsemu/win/flsemu.c:125-143.  It compares with `persistentArray->currentPage` and changes
`segment->currentPage`. -/
def FlsWin.selectPage (f : FlsWin) (idx : Nat) (page : UInt8) (q : Option UInt64) : Except Fault FlsWin :=
  if f.init = false then .error .assertFail
  else match f.segs[idx]? with
    | none => .ok f
    | some s => do
      let a ← s.array
      if a.page.toNat = page.toNat then return f
      else
        let r := a.mapAddress f.granularity (s.alloc * page.toUInt32).toNat s.pageSize.toNat q
        return f.setSeg idx { s with arr := some r.1, curPage := if r.2 then page else s.curPage }

/-- `FlsEmu_BasePointer`, flsemu/common.c:151-161, as a number: 0 is a null pointer. -/
def FlsWin.basePointer (f : FlsWin) (idx : Nat) : Except Fault UInt64 :=
  if f.init = false then .error .assertFail
  else match f.segs[idx]? with
    | none => .ok 0
    | some s => do
      let a ← s.array
      return a.map.getD 0

/-- `FlsEmu_NumPages`, flsemu/common.c:163-173. -/
def FlsWin.numPages (f : FlsWin) (idx : Nat) : Except Fault Nat :=
  if f.init = false then .error .assertFail
  else match f.segs[idx]? with
    | none => .ok 0
    | some s => if s.pageSize = 0 then .error .divZero else .ok (s.memSize.toNat / s.pageSize.toNat)

/-- `FlsEmu_MemoryMapper`, flsemu/common.c:229-253, from segment `idx` on (`fuel` segments left).  The pointer is
read before the page is selected. -/
def FlsWin.mapperFrom (f : FlsWin) (addr : UInt64) (ext : UInt8) (q : Option UInt64) :
    Nat → Nat → Except Fault (MapResult × FlsWin)
  | 0, _ => .ok (.notMapped, f)
  | n + 1, idx => do
    let p ← f.basePointer idx
    match f.segs[idx]? with
    | some s =>
      if s.base ≤ addr ∧ addr < s.base + s.pageSize.toUInt64 then do
        let np ← f.numPages idx
        if np ≤ ext.toNat then return (.invalid, f)
        else do
          let f1 ← f.selectPage idx ext q
          return (.mapped (p - s.base + addr) ext, f1)
      else f.mapperFrom addr ext q n (idx + 1)
    | none => throw .nullDeref

def FlsWin.mapper (f : FlsWin) (addr : UInt64) (ext : UInt8) (q : Option UInt64) : Except Fault (MapResult × FlsWin) :=
  f.mapperFrom addr ext q f.segs.length 0

/-- A file: its size and its bytes. -/
structure DiskFile where
  size : Nat
  data : Nat → UInt8

/-- `FlsEmu_OpenCreateResultType`, flsemu/flsemu.h:103-107. -/
inductive OpenResult where
  | openError | existing | new
deriving DecidableEq, Repr

/-- `FlsEmu_OpenCreatePersitentArray`, flsemu/posix/flsemu.c:116-176 (not macOS).  `old` is the file there is, `m` the
address `mmap` returns.  `fallocate` and `mmap` fail for size 0, and the program exits.  Simplification: other failures of system
calls are left out.  The mapping is `size` bytes long, also if the file is shorter. -/
def posixOpen (old : Option DiskFile) (size : Nat) (m : UInt64) : Except Fault (OpenResult × FlsArr) :=
  if size = 0 then .error .exit
  else match old with
    | none => .ok (.new, { map := m, mapLen := size, view := 0, file := fun _ => 0, fileSize := size, page := 0 })
    | some d => .ok (.existing, { map := m, mapLen := size, view := 0, file := d.data, fileSize := d.size, page := 0 })

/-- What the system does for `OpenCreateFile` and `CreateFileView`: opening or creating the file fails, the mapping
object cannot be created, or the view is placed (`none`: no view). -/
inductive WinOpenEnv where
  | noFile
  | noMapping
  | view (m : Option UInt64)
deriving DecidableEq, Repr

/-- The file once `CreateFileMapping` has extended it to the size of the mapping object (its new bytes are 0). -/
def DiskFile.extend (d : DiskFile) (size : Nat) : DiskFile :=
  if d.size < size then ⟨size, fun i => if i < d.size then d.data i else 0⟩ else d

/-- `FlsEmu_OpenCreatePersitentArray`, flsemu/win/flsemu.c:174-212, with `OpenCreateFile` (lines 239-257) and
`CreateFileView` (lines 259-274), which fails for size 0 if the file is empty; `page` is what `malloc` left in
`currentPage`.  The result, the array and the number of file handles left open. -/
def winOpen (old : Option DiskFile) (size : Nat) (page : UInt16) (e : WinOpenEnv) : OpenResult × Option WinArr × Nat :=
  let d : DiskFile := old.getD ⟨0, fun _ => 0⟩
  let sz := if size = 0 then d.size else size
  match e with
  | .noFile => (.openError, none, 0)
  | .noMapping => (.openError, none, 1)
  | .view none => (.openError, none, 1)
  | .view (some m) =>
    if sz = 0 then (.openError, none, 1)
    else
      (if old.isNone then .new else .existing,
       some { map := some m, view := some ⟨m, 0, sz⟩, handle := true, size := sz, page := page, file := (d.extend sz).data }, 1)

/-- `FlsEmu_Close`, flsemu/win/flsemu.c:77-88, with `FlsEmu_ClosePersitentArray` (lines 214-219).  Simplifications: the
pointer to the freed memory is `none` here; flushing has no effect on what the file holds; system calls do not fail.  -/
def FlsWin.close (f : FlsWin) (idx : Nat) : Except Fault FlsWin :=
  if f.init = false then .error .assertFail
  else match f.segs[idx]? with
    | none => .ok f
    | some s => do
      let _ ← s.array
      return f.setSeg idx { s with arr := none }

end Xcp
