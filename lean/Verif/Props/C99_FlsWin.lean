import Verif.Model.FlsWin
import Verif.Props.C52_Fls
/-
C99: On Windows the mapper of the flash emulation hands out an address that shows the requested byte of the
requested page.

False as a whole: the pointer is read before the page is selected, so that the address is wrong if the system
places the view elsewhere (`C99_fails_moved`); a page whose number is in a field that is never written is not selected
(`C99_fails_back`); if no view can be made, an address is handed out all the same, then and ever
after (`C99_fails_refused`, `C99_fails_for_ever`); pages overlap in the file if they are larger than the allocation
granularity (`C99_fails_overlap`).
-/
set_option autoImplicit false
namespace Xcp

/-- The address `x` shows byte `i` of the file of segment `idx`. -/
def Spec.Shows (f : FlsWin) (idx : Nat) (x : UInt64) (i : Nat) : Prop :=
  ∃ s a v, f.segs[idx]? = some s ∧ s.arr = some a ∧ a.view = some v ∧
    v.base.toNat ≤ x.toNat ∧ x.toNat < v.base.toNat + v.len ∧ i = v.off + (x.toNat - v.base.toNat)

/-- The address is in the window of the segment, `d` bytes behind its start. -/
def Spec.WinAt (s : WinSeg) (addr : UInt64) (d : Nat) : Prop :=
  addr.toNat = s.base.toNat + d ∧ d < s.pageSize.toNat

/-- A segment with storage and a view. -/
structure Spec.SegReady (granularity : UInt32) (s : WinSeg) (a : WinArr) (m : UInt64) (v : WinView) : Prop where
  arr : s.arr = some a
  map : a.map = some m
  view : a.view = some v
  base : v.base = m
  len : s.pageSize.toNat ≤ v.len
  handle : a.handle = true
  page : s.pageSize ≠ 0
  aligned : s.alloc.toNat % granularity.toNat = 0
  room : ∀ k, k < s.memSize.toNat / s.pageSize.toNat → s.alloc.toNat * k + s.pageSize.toNat ≤ a.size
  small : a.size < 2 ^ 32
  noWrap : s.base.toNat + s.pageSize.toNat < 2 ^ 64
  fits : m.toNat + v.len ≤ 2 ^ 64

open Spec

/-- All segments have storage; `idx` is the first one whose window contains the address. -/
structure Spec.Aimed (f : FlsWin) (idx : Nat) (s : WinSeg) (a : WinArr) (m : UInt64) (v : WinView) (addr : UInt64) (d : Nat) : Prop where
  init : f.init = true
  seg : f.segs[idx]? = some s
  ready : SegReady f.granularity s a m v
  inside : WinAt s addr d
  others : ∀ j t, j < idx → f.segs[j]? = some t →
    t.arr ≠ none ∧ t.base.toNat + t.pageSize.toNat < 2 ^ 64 ∧ ∀ d, ¬ WinAt t addr d

/-- An access to a page that exists. -/
structure Spec.Access (f : FlsWin) (idx : Nat) (s : WinSeg) (a : WinArr) (m : UInt64) (v : WinView) (addr : UInt64) (d : Nat)
    (ext : UInt8) : Prop extends Aimed f idx s a m v addr d where
  pages : ext.toNat < s.memSize.toNat / s.pageSize.toNat

theorem winWindow_iff {s : WinSeg} (h : s.base.toNat + s.pageSize.toNat < 2 ^ 64) (addr : UInt64) :
    (s.base ≤ addr ∧ addr < s.base + s.pageSize.toUInt64) ↔ ∃ d, WinAt s addr d := by
  unfold WinAt
  rw [UInt64.le_iff_toNat_le, UInt64.lt_iff_toNat_lt, UInt64.toNat_add]
  simp only [UInt32.toNat_toUInt64]
  rw [Nat.mod_eq_of_lt h]
  constructor
  · intro ⟨h1, h2⟩; exact ⟨addr.toNat - s.base.toNat, by omega, by omega⟩
  · intro ⟨d, h1, h2⟩; omega

/-- The other segments are passed over. -/
theorem winMapper_skip {f : FlsWin} (hi : f.init = true) (addr : UInt64) (ext : UInt8) (q : Option UInt64) (k : Nat) :
    ∀ (idx n : Nat),
    (∀ j t, idx ≤ j → j < idx + k → f.segs[j]? = some t →
      t.arr ≠ none ∧ t.base.toNat + t.pageSize.toNat < 2 ^ 64 ∧ ∀ d, ¬ WinAt t addr d) →
    idx + k ≤ f.segs.length →
    f.mapperFrom addr ext q (n + k) idx = f.mapperFrom addr ext q n (idx + k) := by
  induction k with
  | zero => intro idx n _ _; rfl
  | succ k ih =>
    intro idx n hno hl
    have hlt : idx < f.segs.length := by omega
    have hs : f.segs[idx]? = some f.segs[idx] := List.getElem?_eq_getElem hlt
    obtain ⟨h1, h2, h3⟩ := hno idx _ (Nat.le_refl _) (by omega) hs
    have hw : ¬ (f.segs[idx].base ≤ addr ∧ addr < f.segs[idx].base + f.segs[idx].pageSize.toUInt64) := by
      rw [winWindow_iff h2]
      exact fun ⟨d, hd⟩ => h3 d hd
    obtain ⟨a, ha⟩ := Option.ne_none_iff_exists'.mp h1
    have hb : f.basePointer idx = .ok (a.map.getD 0) := by
      simp only [FlsWin.basePointer, hi, hs, WinSeg.array, ha]
      rfl
    show f.mapperFrom addr ext q ((n + k) + 1) idx = _
    conv => lhs; unfold FlsWin.mapperFrom
    rw [hb]
    show (match f.segs[idx]? with | some s => _ | none => _) = _
    rw [hs]
    simp only
    rw [if_neg hw, ih (idx + 1) n (fun j t h4 h5 => hno j t (by omega) (by omega)) (by omega)]
    congr 1
    omega

/-- An access is the selection of the page and the pointer from before. -/
theorem winMapper_if {f : FlsWin} {idx : Nat} {s : WinSeg} {a : WinArr} {m : UInt64} {v : WinView} {addr : UInt64} {d : Nat}
    (h : Aimed f idx s a m v addr d) (ext : UInt8) (q : Option UInt64) :
    f.mapper addr ext q = if s.memSize.toNat / s.pageSize.toNat ≤ ext.toNat then .ok (.invalid, f)
      else (f.selectPage idx ext q).map fun f1 => (.mapped (m - s.base + addr) ext, f1) := by
  have hlt := (List.getElem?_eq_some_iff.mp h.seg).1
  have hb : f.basePointer idx = .ok m := by
    simp only [FlsWin.basePointer, h.init, h.seg, WinSeg.array, h.ready.arr]
    show Except.ok (a.map.getD 0) = _
    rw [h.ready.map]
    rfl
  have hn : f.numPages idx = .ok (s.memSize.toNat / s.pageSize.toNat) := by
    simp [FlsWin.numPages, h.init, h.seg, h.ready.page]
  unfold FlsWin.mapper
  obtain ⟨k, hk⟩ : ∃ k, f.segs.length = (k + 1) + idx := ⟨f.segs.length - idx - 1, by omega⟩
  rw [hk, winMapper_skip h.init addr ext q idx 0 (k + 1) (fun j t _ h2 => h.others j t (by omega)) (by omega), Nat.zero_add]
  conv => lhs; unfold FlsWin.mapperFrom
  rw [hb]
  show (match f.segs[idx]? with | some s => _ | none => _) = _
  rw [h.seg]
  simp only
  rw [if_pos ((winWindow_iff h.ready.noWrap addr).mpr ⟨d, h.inside⟩), hn]
  show (if s.memSize.toNat / s.pageSize.toNat ≤ ext.toNat then _ else _) = _
  by_cases hp : s.memSize.toNat / s.pageSize.toNat ≤ ext.toNat
  · rw [if_pos hp, if_pos hp]; rfl
  · rw [if_neg hp, if_neg hp]
    cases f.selectPage idx ext q <;> rfl

theorem winMapper_eq {f : FlsWin} {idx : Nat} {s : WinSeg} {a : WinArr} {m : UInt64} {v : WinView} {addr : UInt64} {d : Nat}
    {ext : UInt8} (h : Access f idx s a m v addr d ext) (q : Option UInt64) :
    f.mapper addr ext q = (f.selectPage idx ext q).map fun f1 => (.mapped (m - s.base + addr) ext, f1) := by
  rw [winMapper_if h.toAimed, if_neg (by have := h.pages; omega)]

/-- Pages that do not exist are reported, and nothing changes. -/
theorem C99_invalid {f : FlsWin} {idx : Nat} {s : WinSeg} {a : WinArr} {m : UInt64} {v : WinView} {addr : UInt64} {d : Nat}
    (h : Aimed f idx s a m v addr d) {ext : UInt8} (hp : s.memSize.toNat / s.pageSize.toNat ≤ ext.toNat) (q : Option UInt64) :
    f.mapper addr ext q = .ok (.invalid, f) := by
  rw [winMapper_if h, if_pos hp]

/-- Addresses outside of all windows are not mapped, and nothing changes. -/
theorem C99_unmapped {f : FlsWin} (hi : f.init = true) (addr : UInt64) (ext : UInt8) (q : Option UInt64)
    (hno : ∀ t ∈ f.segs, t.arr ≠ none ∧ t.base.toNat + t.pageSize.toNat < 2 ^ 64 ∧ ∀ d, ¬ WinAt t addr d) :
    f.mapper addr ext q = .ok (.notMapped, f) := by
  have := winMapper_skip hi addr ext q f.segs.length 0 0 (fun j t _ _ ht => hno t (List.mem_of_getElem? ht)) (by omega)
  rw [Nat.zero_add] at this
  unfold FlsWin.mapper
  rw [this]
  rfl

theorem winAddr_toNat {f : FlsWin} {idx : Nat} {s : WinSeg} {a : WinArr} {m : UInt64} {v : WinView} {addr : UInt64} {d : Nat}
    {ext : UInt8} (h : Access f idx s a m v addr d ext) : (m - s.base + addr).toNat = m.toNat + d := by
  have h1 := h.inside.1
  have h2 := h.inside.2
  have h3 := h.ready.fits
  have h4 := h.ready.len
  have hsub : m - s.base + addr = m + (addr - s.base) := by
    apply UInt64.toBitVec_inj.mp
    simp only [UInt64.toBitVec_sub, UInt64.toBitVec_add]
    bv_omega
  have hd : (addr - s.base).toNat = d := by
    rw [UInt64.toNat_sub_of_le _ _ (by rw [UInt64.le_iff_toNat_le]; omega)]
    omega
  rw [hsub, UInt64.toNat_add, hd, Nat.mod_eq_of_lt (by omega)]

theorem winOffset_toNat {f : FlsWin} {idx : Nat} {s : WinSeg} {a : WinArr} {m : UInt64} {v : WinView} {addr : UInt64} {d : Nat}
    {ext : UInt8} (h : Access f idx s a m v addr d ext) : (s.alloc * ext.toUInt32).toNat = s.alloc.toNat * ext.toNat := by
  have h1 := h.ready.room _ h.pages
  have h2 := h.ready.small
  rw [UInt32.toNat_mul]
  simp
  omega

/-- The state after selecting a page that is not the noted one, with the view placed at `m'`. -/
theorem winSelect_view {f : FlsWin} {idx : Nat} {s : WinSeg} {a : WinArr} {m : UInt64} {v : WinView} {addr : UInt64} {d : Nat}
    {ext : UInt8} (h : Access f idx s a m v addr d ext) (hp : a.page.toNat ≠ ext.toNat) (m' : UInt64) :
    f.selectPage idx ext (some m') = .ok (f.setSeg idx { s with
      arr := some { a with map := some m', view := some ⟨m', s.alloc.toNat * ext.toNat, s.pageSize.toNat⟩ }, curPage := ext }) := by
  have hu : a.unmap = some { a with view := none } := by
    simp [WinArr.unmap, h.ready.map, h.ready.view, h.ready.base]
  have hm : (s.alloc.toNat * ext.toNat) % f.granularity.toNat = 0 := by
    rw [Nat.mul_mod, h.ready.aligned]; simp
  have hv : ({ a with view := none } : WinArr).mapView f.granularity (s.alloc.toNat * ext.toNat) s.pageSize.toNat (some m') = some m' := by
    unfold WinArr.mapView
    rw [if_pos ⟨h.ready.handle, hm, h.ready.room _ h.pages⟩]
  have hma : a.mapAddress f.granularity (s.alloc.toNat * ext.toNat) s.pageSize.toNat (some m') =
      ({ a with map := some m', view := some ⟨m', s.alloc.toNat * ext.toNat, s.pageSize.toNat⟩ }, true) := by
    unfold WinArr.mapAddress
    rw [hu]
    show (match ({ a with view := none } : WinArr).mapView _ _ _ _ with | none => _ | some m => _) = _
    rw [hv]
  simp only [FlsWin.selectPage, h.init, h.seg, WinSeg.array, h.ready.arr, winOffset_toNat h]
  show (if a.page.toNat = ext.toNat then _ else _) = _
  rw [if_neg hp, hma]
  rfl

/-- C99, the page is not the noted one and the system places the new view where the old one was: the address shows
the requested byte of the requested page, no stored byte changes, the other segments stay as they are, and the
segment is ready for the next access. -/
theorem C99_access_partial {f : FlsWin} {idx : Nat} {s : WinSeg} {a : WinArr} {m : UInt64} {v : WinView} {addr : UInt64} {d : Nat}
    {ext : UInt8} (h : Access f idx s a m v addr d ext) (hp : a.page.toNat ≠ ext.toNat) :
    ∃ x f' s' a' v', f.mapper addr ext (some m) = .ok (.mapped x ext, f') ∧
      Shows f' idx x (s.alloc.toNat * ext.toNat + d) ∧
      f'.segs[idx]? = some s' ∧ SegReady f'.granularity s' a' m v' ∧ a'.file = a.file ∧ a'.page = a.page ∧ s'.curPage = ext ∧
      (∀ j, j ≠ idx → f'.segs[j]? = f.segs[j]?) := by
  have hlt := (List.getElem?_eq_some_iff.mp h.seg).1
  have hx := winAddr_toNat h
  have hd := h.inside.2
  have hseg : (f.setSeg idx { s with
      arr := some { a with map := some m, view := some ⟨m, s.alloc.toNat * ext.toNat, s.pageSize.toNat⟩ }, curPage := ext }).segs[idx]? =
      some { s with arr := some { a with map := some m, view := some ⟨m, s.alloc.toNat * ext.toNat, s.pageSize.toNat⟩ }, curPage := ext } := by
    simp only [FlsWin.setSeg]
    rw [List.getElem?_set_self hlt]
  have hfit := h.ready.fits
  have hlen := h.ready.len
  refine ⟨m - s.base + addr, _, _, { a with map := some m, view := some ⟨m, s.alloc.toNat * ext.toNat, s.pageSize.toNat⟩ },
    ⟨m, s.alloc.toNat * ext.toNat, s.pageSize.toNat⟩, by rw [winMapper_eq h, winSelect_view h hp]; rfl,
    ⟨_, _, ⟨m, s.alloc.toNat * ext.toNat, s.pageSize.toNat⟩, hseg, rfl, rfl, ?_, ?_, ?_⟩, hseg, ?_, rfl, rfl, rfl, ?_⟩
  · show m.toNat ≤ _; rw [hx]; omega
  · show _ < m.toNat + s.pageSize.toNat; rw [hx]; omega
  · show _ = s.alloc.toNat * ext.toNat + (_ - m.toNat); rw [hx]; omega
  · exact ⟨rfl, rfl, rfl, rfl, Nat.le_refl _, h.ready.handle, h.ready.page, h.ready.aligned, h.ready.room, h.ready.small, h.ready.noWrap,
      by show m.toNat + s.pageSize.toNat ≤ 2 ^ 64; omega⟩
  · intro j hj
    simp only [FlsWin.setSeg]
    rw [List.getElem?_set_ne (Ne.symm hj)]

/-- The noted page: nothing changes, and the address shows whatever page the view shows. -/
theorem C99_noted {f : FlsWin} {idx : Nat} {s : WinSeg} {a : WinArr} {m : UInt64} {v : WinView} {addr : UInt64} {d : Nat}
    {ext : UInt8} (h : Access f idx s a m v addr d ext) (hp : a.page.toNat = ext.toNat) (q : Option UInt64) :
    ∃ x, f.mapper addr ext q = .ok (.mapped x ext, f) ∧ ∀ i, Shows f idx x i ↔ i = v.off + d := by
  have hx := winAddr_toNat h
  have hd := h.inside.2
  have hlen := h.ready.len
  have hsel : f.selectPage idx ext q = .ok f := by
    simp only [FlsWin.selectPage, h.init, h.seg, WinSeg.array, h.ready.arr]
    show (if a.page.toNat = ext.toNat then _ else _) = _
    rw [if_pos hp]
    rfl
  refine ⟨m - s.base + addr, by rw [winMapper_eq h, hsel]; rfl, fun i => ⟨?_, ?_⟩⟩
  · rintro ⟨s', a', v', h1, h2, h3, -, -, h4⟩
    rw [h.seg] at h1; cases h1
    rw [h.ready.arr] at h2; cases h2
    rw [h.ready.view] at h3; cases h3
    rw [h4, h.ready.base, hx]
    omega
  · intro hi
    refine ⟨s, a, v, h.seg, h.ready.arr, h.ready.view, ?_, ?_, ?_⟩ <;> rw [h.ready.base, hx] <;> omega

/-- C99 is false for the noted page whenever the view shows another one. -/
theorem C99_fails_back {f : FlsWin} {idx : Nat} {s : WinSeg} {a : WinArr} {m : UInt64} {v : WinView} {addr : UInt64} {d : Nat}
    {ext : UInt8} (h : Access f idx s a m v addr d ext) (hp : a.page.toNat = ext.toNat) (hv : v.off ≠ s.alloc.toNat * ext.toNat)
    (q : Option UInt64) :
    ∃ x f', f.mapper addr ext q = .ok (.mapped x ext, f') ∧ ¬ Shows f' idx x (s.alloc.toNat * ext.toNat + d) := by
  obtain ⟨x, h1, h2⟩ := C99_noted h hp q
  refine ⟨x, f, h1, fun hs => hv ?_⟩
  have := (h2 _).mp hs
  omega

/-- C99 is false if the system places the view anywhere else. -/
theorem C99_fails_moved {f : FlsWin} {idx : Nat} {s : WinSeg} {a : WinArr} {m : UInt64} {v : WinView} {addr : UInt64} {d : Nat}
    {ext : UInt8} (h : Access f idx s a m v addr d ext) (hp : a.page.toNat ≠ ext.toNat) {m' : UInt64} (hm : m' ≠ m) :
    ∃ x f', f.mapper addr ext (some m') = .ok (.mapped x ext, f') ∧ ¬ Shows f' idx x (s.alloc.toNat * ext.toNat + d) := by
  have hlt := (List.getElem?_eq_some_iff.mp h.seg).1
  have hx := winAddr_toNat h
  refine ⟨m - s.base + addr, _, by rw [winMapper_eq h, winSelect_view h hp]; rfl, ?_⟩
  intro ⟨s', a', v', h1, h2, h3, h4, h5, h6⟩
  simp only [FlsWin.setSeg] at h1
  rw [List.getElem?_set_self hlt] at h1
  cases h1; cases h2; cases h3
  simp only at h4 h6
  rw [hx] at h4 h6
  exact hm (UInt64.toNat_inj.mp (by omega))

/-- A segment that lost its view. -/
def Spec.Lost (f : FlsWin) (idx : Nat) : Prop :=
  ∃ s a, f.segs[idx]? = some s ∧ s.arr = some a ∧ a.view = none ∧ a.map = none ∧ a.handle = false

theorem lost_shows {f : FlsWin} {idx : Nat} (h : Lost f idx) (x : UInt64) (i : Nat) : ¬ Shows f idx x i := by
  obtain ⟨s, a, h1, h2, h3, -⟩ := h
  rintro ⟨s', a', v, h4, h5, h6, -⟩
  rw [h1] at h4; cases h4
  rw [h2] at h5; cases h5
  rw [h3] at h6; cases h6

/-- C99 is false if the system cannot make the view: the address is handed out, but it shows no byte at all. -/
theorem C99_fails_refused {f : FlsWin} {idx : Nat} {s : WinSeg} {a : WinArr} {m : UInt64} {v : WinView} {addr : UInt64} {d : Nat}
    {ext : UInt8} (h : Access f idx s a m v addr d ext) (hp : a.page.toNat ≠ ext.toNat) :
    ∃ x f', f.mapper addr ext none = .ok (.mapped x ext, f') ∧ Lost f' idx ∧ ∀ i, ¬ Shows f' idx x i := by
  have hlt := (List.getElem?_eq_some_iff.mp h.seg).1
  have hu : a.unmap = some { a with view := none } := by
    simp [WinArr.unmap, h.ready.map, h.ready.view, h.ready.base]
  have hv : ({ a with view := none } : WinArr).mapView f.granularity (s.alloc * ext.toUInt32).toNat s.pageSize.toNat none = none := by
    unfold WinArr.mapView; split <;> rfl
  have hsel : f.selectPage idx ext none = .ok (f.setSeg idx { s with
      arr := some { a with view := none, map := none, handle := false }, curPage := s.curPage }) := by
    have hma : a.mapAddress f.granularity (s.alloc * ext.toUInt32).toNat s.pageSize.toNat none =
        ({ a with view := none, map := none, handle := false }, false) := by
      unfold WinArr.mapAddress
      rw [hu]
      show (match ({ a with view := none } : WinArr).mapView _ _ _ _ with | none => _ | some m => _) = _
      rw [hv]
    simp only [FlsWin.selectPage, h.init, h.seg, WinSeg.array, h.ready.arr]
    show (if a.page.toNat = ext.toNat then _ else _) = _
    rw [if_neg hp, hma]
    rfl
  have hl : Lost (f.setSeg idx { s with arr := some { a with view := none, map := none, handle := false }, curPage := s.curPage }) idx := by
    refine ⟨{ s with arr := some { a with view := none, map := none, handle := false }, curPage := s.curPage },
      { a with view := none, map := none, handle := false }, ?_, rfl, rfl, rfl, rfl⟩
    simp only [FlsWin.setSeg]
    rw [List.getElem?_set_self hlt]
  exact ⟨_, _, by rw [winMapper_eq h, hsel]; rfl, hl, fun i => lost_shows hl _ i⟩

/-- Selecting a page does not bring the view back, whatever the system does. -/
theorem C99_lost_select {f : FlsWin} {idx : Nat} (hi : f.init = true) (h : Lost f idx) (page : UInt8) (q : Option UInt64) :
    ∃ f', f.selectPage idx page q = .ok f' ∧ Lost f' idx ∧ f'.init = true := by
  obtain ⟨s, a, h1, h2, h3, h4, h5⟩ := h
  have hlt := (List.getElem?_eq_some_iff.mp h1).1
  by_cases hp : a.page.toNat = page.toNat
  · refine ⟨f, ?_, ⟨s, a, h1, h2, h3, h4, h5⟩, hi⟩
    simp only [FlsWin.selectPage, hi, h1, WinSeg.array, h2]
    show (if a.page.toNat = page.toNat then _ else _) = _
    rw [if_pos hp]
    rfl
  · have hu : a.unmap = none := by simp [WinArr.unmap, h4]
    refine ⟨f.setSeg idx { s with arr := some { a with handle := false }, curPage := s.curPage }, ?_, ?_, hi⟩
    · have hma : a.mapAddress f.granularity (s.alloc * page.toUInt32).toNat s.pageSize.toNat q = ({ a with handle := false }, false) := by
        unfold WinArr.mapAddress
        rw [hu]
      simp only [FlsWin.selectPage, hi, h1, WinSeg.array, h2]
      show (if a.page.toNat = page.toNat then _ else _) = _
      rw [if_neg hp, hma]
      rfl
    · refine ⟨{ s with arr := some { a with handle := false }, curPage := s.curPage }, { a with handle := false }, ?_, rfl, h3, h4, rfl⟩
      simp only [FlsWin.setSeg]
      rw [List.getElem?_set_self hlt]

/-- The pages selected one after the other, each with the answer of the system. -/
def Spec.selectAll (f : FlsWin) (idx : Nat) : List (UInt8 × Option UInt64) → Except Fault FlsWin
  | [] => .ok f
  | p :: ps => do
    let f' ← f.selectPage idx p.1 p.2
    selectAll f' idx ps

/-- C99 is false for ever after one failure: no sequence of selections brings the view back. -/
theorem C99_fails_for_ever {idx : Nat} (ps : List (UInt8 × Option UInt64)) : ∀ {f : FlsWin}, f.init = true → Lost f idx →
    ∃ f', selectAll f idx ps = .ok f' ∧ ∀ x i, ¬ Shows f' idx x i := by
  induction ps with
  | nil => intro f _ h; exact ⟨f, rfl, fun x i => lost_shows h x i⟩
  | cons p ps ih =>
    intro f hi h
    obtain ⟨f1, h1, h2, h3⟩ := C99_lost_select hi h p.1 p.2
    obtain ⟨f2, h4, h5⟩ := ih h3 h2
    refine ⟨f2, ?_, h5⟩
    unfold selectAll
    rw [h1]
    exact h4

/-- Pages not larger than `alloctedPageSize` do not share a byte of the file. -/
theorem C99_disjoint_partial {s : WinSeg} (hle : s.pageSize.toNat ≤ s.alloc.toNat) {k k' d d' : Nat} (hd : d < s.pageSize.toNat)
    (hd' : d' < s.pageSize.toNat) (h : s.alloc.toNat * k + d = s.alloc.toNat * k' + d') : k = k' ∧ d = d' := by
  have h0 : 0 < s.alloc.toNat := by omega
  have h1 := congrArg (· / s.alloc.toNat) h
  simp only [Nat.mul_add_div h0, Nat.div_eq_of_lt (show d < s.alloc.toNat by omega),
    Nat.div_eq_of_lt (show d' < s.alloc.toNat by omega), Nat.add_zero] at h1
  subst h1
  exact ⟨rfl, by omega⟩

/-- Larger pages do: an address in the back of a page and one in the front of the next page show the same byte.  (`alloctedPageSize` is the
granularity for every page size, `C52_allocated`.) -/
theorem C99_fails_overlap {f : FlsWin} {idx : Nat} {s : WinSeg} {a : WinArr} {m : UInt64} {v : WinView} {addr addr2 : UInt64} {d : Nat}
    {ext ext2 : UInt8} (h : Access f idx s a m v addr (s.alloc.toNat + d) ext) (h2 : Access f idx s a m v addr2 d ext2)
    (he : ext2.toNat = ext.toNat + 1) (hp : a.page.toNat ≠ ext.toNat) (hp2 : a.page.toNat ≠ ext2.toNat) :
    ∃ x f1 x2 f2 i, f.mapper addr ext (some m) = .ok (.mapped x ext, f1) ∧ Shows f1 idx x i ∧
      f.mapper addr2 ext2 (some m) = .ok (.mapped x2 ext2, f2) ∧ Shows f2 idx x2 i := by
  obtain ⟨x, f1, -, -, -, h3, h4, -⟩ := C99_access_partial h hp
  obtain ⟨x2, f2, -, -, -, h5, h6, -⟩ := C99_access_partial h2 hp2
  refine ⟨x, f1, x2, f2, _, h3, h4, h5, ?_⟩
  rw [he, Nat.mul_add, Nat.mul_one] at h6
  rw [show s.alloc.toNat * ext.toNat + (s.alloc.toNat + d) = s.alloc.toNat * ext.toNat + s.alloc.toNat + d by omega]
  exact h6

/-- Two segments; the second one has three pages of 4096 bytes at 0x8000, every page in a unit of 65536 bytes of the file; page 0 is
shown, and 7 is noted. -/
def Ex.winSeg : WinSeg :=
  { memSize := 12288, pageSize := 4096, base := 0x8000, curPage := 0, alloc := 65536
    arr := some { map := some 0x700000, view := some ⟨0x700000, 0, 196608⟩, handle := true, size := 196608, page := 7
                  file := fun i => UInt8.ofNat (i / 256) } }

def Ex.flsWin : FlsWin := ⟨true, 65536, [{ Ex.winSeg with base := 0x4000 }, Ex.winSeg]⟩

theorem Ex.winAccess : ∃ a m v, Access Ex.flsWin 1 Ex.winSeg a m v 0x8123 0x123 2 := by
  refine ⟨_, 0x700000, ⟨0x700000, 0, 196608⟩, ⟨rfl, rfl, ⟨rfl, rfl, rfl, rfl, by decide, rfl, by decide, by decide, ?_, by decide, by decide, by decide⟩,
    ⟨by decide, by decide⟩, ?_⟩, by decide⟩
  · intro k hk
    have : k < 3 := hk
    show 65536 * k + 4096 ≤ 196608
    omega
  · intro j t hj ht
    obtain rfl : j = 0 := by omega
    cases ht
    refine ⟨by simp [Ex.winSeg], by decide, fun d hd => ?_⟩
    have h1 := hd.1
    have h2 := hd.2
    simp [Ex.winSeg] at h1 h2
    omega

/-- What an address shows. -/
def Ex.winShown (f : FlsWin) (idx : Nat) (x : UInt64) : Option UInt8 := do
  let s ← f.segs[idx]?
  let a ← s.arr
  let v ← a.view
  if v.base ≤ x ∧ x.toNat < v.base.toNat + v.len then some (a.file (v.off + (x.toNat - v.base.toNat))) else none

/-- The byte of the example: page 2, placed at the same address, elsewhere, not at all. -/
example : (Ex.flsWin.mapper 0x8123 2 (some 0x700000)).toOption.map (fun p => (p.1, Ex.winShown p.2 1 0x700123)) =
    some (.mapped 0x700123 2, some 1) := by decide +kernel
example : (Ex.flsWin.mapper 0x8123 1 (some 0x700000)).toOption.map (fun p => (p.1, Ex.winShown p.2 1 0x700F23)) =
    some (.mapped 0x700123 1, some 15) := by decide +kernel
example : (Ex.flsWin.mapper 0x8123 2 (some 0x900000)).toOption.map (fun p => (p.1, Ex.winShown p.2 1 0x700123)) =
    some (.mapped 0x700123 2, none) := by decide +kernel
example : (Ex.flsWin.mapper 0x8123 2 none).toOption.map (fun p => (p.1, Ex.winShown p.2 1 0x700123)) =
    some (.mapped 0x700123 2, none) := by decide +kernel
example : (Ex.flsWin.mapper 0x8123 3 none).toOption.map (fun p => p.1) = some .invalid := by decide +kernel
example : (Ex.flsWin.mapper 0x9000 0 none).toOption.map (fun p => p.1) = some .notMapped := by decide +kernel

end Xcp
