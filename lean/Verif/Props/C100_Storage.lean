import Verif.Props.C99_FlsWin
/-
C100: Opening the storage of a segment gives complete storage: what the file held is still there, and
every byte of the size asked for can be used.

Proved for Windows if the open succeeds (`C100_windows`), and for POSIX systems if the file is new or long enough.  False on
POSIX systems for a file that is too short: it is not made longer and no error is reported
(`C100_fails_short`).  On Windows a failed open leaves the file open (`C100_fails_leak`), and the page noted
is not set, so that the page with that number cannot be selected (`C100_fails_noted`).
-/
set_option autoImplicit false
namespace Xcp
open Spec

/-- The array gives complete storage of `size` bytes with the old contents: byte `i` of the file is what it was, and every range of the
mapping can be written. -/
structure Spec.FileComplete (old : Option DiskFile) (size : Nat) (a : FlsArr) : Prop where
  kept : ∀ d, old = some d → ∀ i, i < d.size → a.file i = d.data i
  start : a.view = 0
  usable : ∀ off n, off + n ≤ size → ∃ a', a.erase off n = .ok a'

/-- C100 on POSIX systems, for new files and files that are long enough. -/
theorem C100_posix_partial {old : Option DiskFile} {size : Nat} {m : UInt64} (h0 : size ≠ 0)
    (hl : ∀ d, old = some d → size ≤ d.size) :
    ∃ r a, posixOpen old size m = .ok (r, a) ∧ (r = .new ↔ old = none) ∧ r ≠ .openError ∧ a.map = m ∧ a.page = 0 ∧ FileComplete old size a := by
  cases old with
  | none =>
    refine ⟨.new, _, by unfold posixOpen; rw [if_neg h0], by simp, by simp, rfl, rfl, ?_, rfl, ?_⟩
    · intro d h; cases h
    · intro off n h
      refine ⟨_, if_neg ?_⟩
      simp only
      omega
  | some d =>
    have := hl d rfl
    refine ⟨.existing, _, by unfold posixOpen; rw [if_neg h0], by simp, by simp, rfl, rfl, ?_, rfl, ?_⟩
    · intro d' h; cases h; intro i _; rfl
    · intro off n h
      refine ⟨_, if_neg ?_⟩
      simp only
      omega

/-- C100 is false on POSIX systems for every file that is too short: the open succeeds, and a byte of the segment
cannot be used. -/
theorem C100_fails_short {d : DiskFile} {size : Nat} {m : UInt64} (h : d.size < size) :
    ∃ a, posixOpen (some d) size m = .ok (.existing, a) ∧ ¬ FileComplete (some d) size a ∧ a.erase d.size 1 = .error .bufOob := by
  have he : FlsArr.erase { map := m, mapLen := size, view := 0, file := d.data, fileSize := d.size, page := 0 } d.size 1 = .error .bufOob := by
    unfold FlsArr.erase
    rw [if_pos]
    simp only
    omega
  refine ⟨_, by unfold posixOpen; rw [if_neg (by omega)], ?_, he⟩
  intro hc
  obtain ⟨a', ha⟩ := hc.usable d.size 1 (by omega)
  rw [he] at ha
  cases ha

/-- Every byte below `size` is shown at its place behind `m`. -/
structure Spec.WinComplete (old : Option DiskFile) (size : Nat) (m : UInt64) (a : WinArr) : Prop where
  kept : ∀ d, old = some d → ∀ i, i < d.size → a.file i = d.data i
  view : a.view = some ⟨m, 0, size⟩
  map : a.map = some m
  handle : a.handle = true
  room : a.size = size

/-- C100 on Windows: if file, mapping and view can be made, the storage is complete, whatever the file
was; the answer tells whether it is new. -/
theorem C100_windows {old : Option DiskFile} {size : Nat} {m : UInt64} {page : UInt16} (h0 : size ≠ 0) :
    ∃ r a, winOpen old size page (.view (some m)) = (r, some a, 1) ∧ (r = .new ↔ old = none) ∧ r ≠ .openError ∧
      a.page = page ∧ WinComplete old size m a := by
  have hk : ∀ d, old = some d → ∀ i, i < d.size → ((old.getD ⟨0, fun _ => 0⟩).extend size).data i = d.data i := by
    intro d hd i hi
    subst hd
    show (d.extend size).data i = _
    unfold DiskFile.extend
    by_cases hs : d.size < size
    · rw [if_pos hs]; exact if_pos hi
    · rw [if_neg hs]
  refine ⟨if old.isNone then .new else .existing, { map := some m, view := some ⟨m, 0, size⟩, handle := true, size := size, page := page, file := ((old.getD ⟨0, fun _ => 0⟩).extend size).data }, ?_, ?_, ?_, rfl, hk, rfl, rfl, rfl, rfl⟩
  · simp [winOpen, h0]
  · cases old <;> simp
  · cases old <;> simp

/-- C100 is false on Windows if the mapping or the view cannot be made: an error is reported, and the file stays
open. -/
theorem C100_fails_leak (old : Option DiskFile) (size : Nat) (page : UInt16) :
    winOpen old size page .noMapping = (.openError, none, 1) ∧ winOpen old size page (.view none) = (.openError, none, 1) :=
  ⟨rfl, rfl⟩

/-- If the file itself cannot be opened, nothing stays open. -/
theorem C100_refused (old : Option DiskFile) (size : Nat) (page : UInt16) :
    winOpen old size page .noFile = (.openError, none, 0) := rfl

/-- C100 is false on Windows for the page whose number `malloc` left in the array: after the open an access to it shows
page 0.  (The segment is made of the opened array; its pages are at multiples of `alloc`.) -/
theorem C100_fails_noted {old : Option DiskFile} {size : Nat} {m : UInt64} {page : UInt16} {f : FlsWin} {idx : Nat} {s : WinSeg} {a : WinArr}
    {v : WinView} {addr : UInt64} {d : Nat} {ext : UInt8} {r : OpenResult} (h0 : size ≠ 0)
    (ho : winOpen old size page (.view (some m)) = (r, some a, 1)) (h : Access f idx s a m v addr d ext)
    (hp : page.toNat = ext.toNat) (q : Option UInt64) :
    ∃ x, f.mapper addr ext q = .ok (.mapped x ext, f) ∧ ∀ i, Shows f idx x i ↔ i = d := by
  obtain ⟨r', a', h1, -, -, h2, h3⟩ := C100_windows (old := old) (m := m) (page := page) h0
  rw [ho] at h1
  simp only [Prod.mk.injEq, Option.some.injEq] at h1
  obtain ⟨-, rfl, -⟩ := h1
  have hv : v = ⟨m, 0, size⟩ := by
    have := h.ready.view
    rw [h3.view] at this
    exact (Option.some.inj this).symm
  obtain ⟨x, h4, h5⟩ := C99_noted h (by rw [h2, hp]) q
  refine ⟨x, h4, fun i => ?_⟩
  rw [h5 i, hv]
  simp

/-- Closing a segment takes its storage and leaves the others; a second close uses the freed pointer. -/
theorem C100_close {f : FlsWin} (hi : f.init = true) {idx : Nat} {s : WinSeg} {a : WinArr} (hs : f.segs[idx]? = some s) (ha : s.arr = some a) :
    ∃ f', f.close idx = .ok f' ∧ f'.segs[idx]? = some { s with arr := none } ∧ (∀ j, j ≠ idx → f'.segs[j]? = f.segs[j]?) ∧
      f'.close idx = .error .nullDeref := by
  have hlt := (List.getElem?_eq_some_iff.mp hs).1
  have h1 : f.close idx = .ok (f.setSeg idx { s with arr := none }) := by
    simp only [FlsWin.close, hi, hs, WinSeg.array, ha]
    rfl
  have h2 : (f.setSeg idx { s with arr := none }).segs[idx]? = some { s with arr := none } := by
    simp only [FlsWin.setSeg]
    rw [List.getElem?_set_self hlt]
  refine ⟨_, h1, h2, ?_, ?_⟩
  · intro j hj
    simp only [FlsWin.setSeg]
    rw [List.getElem?_set_ne (Ne.symm hj)]
  · have hi' : (f.setSeg idx { s with arr := none }).init = true := hi
    simp only [FlsWin.close, hi', h2, WinSeg.array]
    rfl

/-- Closing before initialization is caught by an assertion, closing a segment that does not exist does nothing. -/
theorem C100_close_refused (f : FlsWin) (idx : Nat) :
    (f.init = false → f.close idx = .error .assertFail) ∧
    (f.init = true → f.segs.length ≤ idx → f.close idx = .ok f) := by
  constructor
  · intro h
    simp [FlsWin.close, h]
  · intro h hl
    simp [FlsWin.close, h, List.getElem?_eq_none hl]

example : (FlsWin.close { Ex.flsWin with init := false } 1 = .error .assertFail) ∧ Ex.flsWin.close 2 = .ok Ex.flsWin :=
  ⟨(C100_close_refused _ 1).1 rfl, (C100_close_refused _ 2).2 rfl (by decide)⟩

/-- A file of 3 bytes, opened for 8. -/
def Ex.disk : DiskFile := ⟨3, fun i => UInt8.ofNat (i + 5)⟩

example : (posixOpen (some Ex.disk) 8 0x1000).toOption.map (fun p => (p.1, p.2.fileSize, p.2.mapLen, p.2.file 2)) =
    some (.existing, 3, 8, 7) := by decide +kernel
example : (winOpen (some Ex.disk) 8 9 (.view (some 0x1000))).2.1.map (fun a => (a.size, a.file 2, a.file 3, a.page)) =
    some (8, 7, 0, 9) := by decide +kernel
example : (winOpen none 8 9 (.view (some 0x1000))).1 = .new := by decide +kernel

end Xcp
