import Verif.Model.Fls
/-
C52: Flash emulation maps and erases only what was asked.

False as a whole: opening a segment does nothing, so that the first use of the mapper after
start-up uses a null pointer (`C52_fails_open`).  For segments whose storage is open, the address translation
is right; erasing is right for pages and blocks while page 0 is mapped; erasing a sector hits the wrong
bytes except for sector 0; going back to page 0 is ignored.
-/
set_option autoImplicit false
namespace Xcp

/-- The window of a segment: the addresses of one page. -/
def Spec.InWindow (s : FlsSeg) (addr : UInt64) : Prop :=
  s.base.toNat ≤ addr.toNat ∧ addr.toNat < s.base.toNat + s.pageSize.toNat

/-- Exactly the bytes `lo .. lo+n-1` are set to 0xFF. -/
def Spec.ErasedExactly (old new : Nat → UInt8) (lo n : Nat) : Prop :=
  ∀ i, new i = if lo ≤ i ∧ i < lo + n then 0xFF else old i

open Spec

/-- Every segment has open storage, pages are not empty and windows do not wrap. -/
structure Spec.Opened (f : Fls) : Prop where
  init : f.init = true
  arr : ∀ s ∈ f.segs, ∃ a, s.arr = some a
  page : ∀ s ∈ f.segs, s.pageSize ≠ 0
  noWrap : ∀ s ∈ f.segs, s.base.toNat + s.pageSize.toNat < 2 ^ 64

theorem inWindow_iff {s : FlsSeg} (h : s.base.toNat + s.pageSize.toNat < 2 ^ 64) (addr : UInt64) :
    (s.base ≤ addr ∧ addr < s.base + s.pageSize.toUInt64) ↔ InWindow s addr := by
  unfold InWindow
  rw [UInt64.le_iff_toNat_le, UInt64.lt_iff_toNat_lt, UInt64.toNat_add]
  simp only [UInt32.toNat_toUInt64]
  rw [Nat.mod_eq_of_lt h]

theorem openAll_same (f : Fls) (h : f.init = true) (n : Nat) : f.openAll n = .ok f := by
  induction n with
  | zero => rfl
  | succ n ih =>
    unfold Fls.openAll
    rw [ih]
    show f.openCreate n = .ok f
    simp [Fls.openCreate, h]

/-- C52 is false: for every configuration (segments as in app_config.c, without storage) initialisation succeeds,
and afterwards every use of the mapper is a null pointer access. -/
theorem C52_fails_open (granularity : UInt32) (segs : List FlsSeg) (hne : segs ≠ []) (hs : ∀ s ∈ segs, s.static) :
    ∃ f, Fls.initialize granularity segs = .ok f ∧ ∀ addr ext, f.mapper addr ext = .error .nullDeref := by
  refine ⟨⟨true, granularity, segs⟩, openAll_same _ rfl _, ?_⟩
  intro addr ext
  cases segs with
  | nil => exact absurd rfl hne
  | cons s segs =>
    have : s.arr = none := hs s (List.mem_cons_self ..)
    simp only [Fls.mapper, List.length_cons, Fls.mapperFrom, Fls.basePointer, List.getElem?_cons_zero, FlsSeg.array, this]
    rfl

/-- One step of the search for a segment. -/
theorem mapperFrom_step {f : Fls} (ho : Opened f) {idx : Nat} {s : FlsSeg} (hs : f.segs[idx]? = some s) {a : FlsArr}
    (ha : s.arr = some a) (addr : UInt64) (ext : UInt8) (n : Nat) [Decidable (InWindow s addr)] :
    f.mapperFrom addr ext (n + 1) idx =
      if InWindow s addr then
        if s.memSize.toNat / s.pageSize.toNat ≤ ext.toNat then .ok (.invalid, f)
        else (f.selectPage idx ext).map fun f1 => (.mapped (a.map - s.base + addr) ext, f1)
      else f.mapperFrom addr ext n (idx + 1) := by
  have hm := List.mem_of_getElem? hs
  have hb : f.basePointer idx = .ok (some a.map) := by
    simp [Fls.basePointer, ho.init, hs, FlsSeg.array, ha]
    rfl
  have hn : f.numPages idx = .ok (s.memSize.toNat / s.pageSize.toNat) := by
    simp [Fls.numPages, ho.init, hs, ho.page s hm]
  conv => lhs; unfold Fls.mapperFrom
  rw [hb]
  show (match f.segs[idx]?, some a.map with | some s, some p => _ | _, _ => _) = _
  rw [hs]
  simp only [inWindow_iff (ho.noWrap s hm)]
  by_cases hw : InWindow s addr
  · rw [if_pos hw, if_pos hw, hn]
    show (if s.memSize.toNat / s.pageSize.toNat ≤ ext.toNat then _ else _) = _
    split
    · rfl
    · cases f.selectPage idx ext <;> rfl
  · rw [if_neg hw, if_neg hw]

theorem mapperFrom_skip {f : Fls} (ho : Opened f) (addr : UInt64) (ext : UInt8) (k : Nat) : ∀ (idx n : Nat),
    (∀ j s, idx ≤ j → j < idx + k → f.segs[j]? = some s → ¬ InWindow s addr) → idx + k ≤ f.segs.length →
    f.mapperFrom addr ext (n + k) idx = f.mapperFrom addr ext n (idx + k) := by
  induction k with
  | zero => intro idx n _ _; rfl
  | succ k ih =>
    intro idx n hno hlen
    have hlt : idx < f.segs.length := by omega
    have hs := List.getElem?_eq_getElem hlt
    obtain ⟨a, ha⟩ := ho.arr _ (List.mem_of_getElem? hs)
    haveI : Decidable (InWindow f.segs[idx] addr) := by unfold InWindow; infer_instance
    rw [show n + (k + 1) = (n + k) + 1 by omega, mapperFrom_step ho hs ha]
    rw [if_neg (hno idx _ (by omega) (by omega) hs), ih (idx + 1) n (fun j s h1 h2 => hno j s (by omega) (by omega)) (by omega)]
    congr 1
    omega

/-- Address translation, addresses outside of all windows: not mapped, nothing changes. -/
theorem C52_unmapped_partial {f : Fls} (ho : Opened f) (addr : UInt64) (ext : UInt8) (hno : ∀ s ∈ f.segs, ¬ InWindow s addr) :
    f.mapper addr ext = .ok (.notMapped, f) := by
  have := mapperFrom_skip ho addr ext f.segs.length 0 0 (fun j s _ _ hs => hno s (List.mem_of_getElem? hs)) (by omega)
  rw [Nat.zero_add] at this
  unfold Fls.mapper
  rw [this]
  rfl

/-- Address translation, addresses inside of the window of segment `idx` (the first such segment): a page that does
not exist is reported, otherwise the result is the storage address at the same distance from
the start, and only the view of that segment can have changed, no stored byte. -/
theorem C52_mapper_partial {f : Fls} (ho : Opened f) {idx : Nat} {s : FlsSeg} {a : FlsArr} (hs : f.segs[idx]? = some s)
    (ha : s.arr = some a) (addr : UInt64) (ext : UInt8) (hw : InWindow s addr)
    (hfirst : ∀ j t, j < idx → f.segs[j]? = some t → ¬ InWindow t addr) :
    (s.memSize.toNat / s.pageSize.toNat ≤ ext.toNat → f.mapper addr ext = .ok (.invalid, f)) ∧
    (ext.toNat < s.memSize.toNat / s.pageSize.toNat → ∀ r f', f.mapper addr ext = .ok (r, f') →
      (∃ p, r = .mapped p ext ∧ p = a.map + (addr - s.base)) ∧
      ∃ a', f' = f.setSeg idx { s with arr := some a' } ∧ a'.file = a.file ∧ a'.map = a.map ∧ a'.fileSize = a.fileSize) := by
  haveI : Decidable (InWindow s addr) := by unfold InWindow; infer_instance
  have hlt : idx < f.segs.length := by
    rw [List.getElem?_eq_some_iff] at hs
    exact hs.1
  have hgo : f.mapper addr ext = if s.memSize.toNat / s.pageSize.toNat ≤ ext.toNat then .ok (.invalid, f)
      else (f.selectPage idx ext).map fun f1 => (.mapped (a.map - s.base + addr) ext, f1) := by
    unfold Fls.mapper
    obtain ⟨k, hk⟩ : ∃ k, f.segs.length = (k + 1) + idx := ⟨f.segs.length - idx - 1, by omega⟩
    rw [hk, mapperFrom_skip ho addr ext idx 0 (k + 1) (fun j t _ h2 => hfirst j t (by omega)) (by omega), Nat.zero_add,
      mapperFrom_step ho hs ha, if_pos hw]
  have hset : f.setSeg idx { s with arr := some a } = f := by
    have : ({ s with arr := some a } : FlsSeg) = s := by rw [← ha]
    obtain ⟨_, hs'⟩ := List.getElem?_eq_some_iff.mp hs
    unfold Fls.setSeg
    rw [this, ← hs', List.set_getElem_self]
  constructor
  · intro h; rw [hgo, if_pos h]
  · intro h r f' hr
    rw [hgo, if_neg (by omega)] at hr
    have hsub : a.map - s.base + addr = a.map + (addr - s.base) := by
      apply UInt64.toBitVec_inj.mp
      simp only [UInt64.toBitVec_sub, UInt64.toBitVec_add]
      bv_omega
    have hsel : ∀ f1, f.selectPage idx ext = .ok f1 →
        ∃ a', f1 = f.setSeg idx { s with arr := some a' } ∧ a'.file = a.file ∧ a'.map = a.map ∧ a'.fileSize = a.fileSize := by
      intro f1 h1
      simp only [Fls.selectPage, ho.init, hs, FlsSeg.array, ha] at h1
      by_cases hp : a.page = ext.toNat
      · have : f = f1 := by
          simp [hp, bind, Except.bind, pure, Except.pure] at h1
          exact h1
        exact ⟨a, by rw [hset, this], rfl, rfl, rfl⟩
      · by_cases hg : f.granularity ≠ 0 ∧ s.pageSize * ext.toUInt32 % f.granularity ≠ 0
        · simp [hp, hg, bind, Except.bind, pure, Except.pure, throw, throwThe, MonadExceptOf.throw] at h1
        · simp only [hp, hg, bind, Except.bind, pure, Except.pure, if_false, Except.ok.injEq] at h1
          simp at h1
          exact ⟨{ a with view := (s.pageSize * ext.toUInt32).toNat, mapLen := s.memSize.toNat }, by rw [← h1]; rfl, rfl, rfl, rfl⟩
    cases hsp : f.selectPage idx ext with
    | error e => rw [hsp] at hr; cases hr
    | ok f1 =>
      rw [hsp] at hr
      cases hr
      exact ⟨⟨_, rfl, hsub⟩, hsel _ hsp⟩

/-- After selecting a page the mapping shows that page, if the page is not the one noted at opening, or that one
is still shown. -/
theorem C52_page_partial {f f' : Fls} (hi : f.init = true) {idx : Nat} {s : FlsSeg} {a : FlsArr} (hs : f.segs[idx]? = some s)
    (ha : s.arr = some a) (page : UInt8) (h32 : s.pageSize.toNat * page.toNat < 2 ^ 32)
    (hp : page.toNat ≠ a.page ∨ a.view = s.pageSize.toNat * page.toNat) (h : f.selectPage idx page = .ok f') :
    ∃ s' a', f'.segs[idx]? = some s' ∧ s'.arr = some a' ∧ a'.view = s.pageSize.toNat * page.toNat ∧ a'.file = a.file := by
  have hlt := (List.getElem?_eq_some_iff.mp hs).1
  have hmul : (s.pageSize * page.toUInt32).toNat = s.pageSize.toNat * page.toNat := by
    rw [UInt32.toNat_mul]
    simp
    exact h32
  simp only [Fls.selectPage, hi, hs, FlsSeg.array, ha] at h
  by_cases hpg : a.page = page.toNat
  · have : f = f' := by
      simp [hpg, bind, Except.bind, pure, Except.pure] at h
      exact h
    subst this
    refine ⟨s, a, hs, ha, ?_, rfl⟩
    rcases hp with hp | hp
    · exact absurd hpg.symm hp
    · exact hp
  · by_cases hg : f.granularity ≠ 0 ∧ s.pageSize * page.toUInt32 % f.granularity ≠ 0
    · simp [hpg, hg, bind, Except.bind, pure, Except.pure, throw, throwThe, MonadExceptOf.throw] at h
    · simp only [hpg, hg, bind, Except.bind, pure, Except.pure, if_false, Except.ok.injEq] at h
      simp at h
      refine ⟨{ s with arr := some { a with view := (s.pageSize * page.toUInt32).toNat, mapLen := s.memSize.toNat } }, _,
        by rw [← h]; simp only [Fls.setSeg]; rw [List.getElem?_set_self hlt]; simp, rfl, hmul, rfl⟩

/-- A mapped segment of two pages of 4096 bytes at 0x8000, sectors of 256 bytes, two blocks. -/
def Ex.seg : FlsSeg :=
  { memSize := 8192, sectorSize := 256, pageSize := 4096, blockCount := 2, base := 0x8000, curPage := 0
    arr := some { map := 0x700000, mapLen := 8192, view := 0, file := fun i => UInt8.ofNat (i / 256), fileSize := 16384, page := 0 } }

def Ex.fls : Fls := ⟨true, 4096, [Ex.seg]⟩

theorem Ex.fls_opened : Opened Ex.fls :=
  ⟨rfl, by intro s hs; rw [List.mem_singleton.mp hs]; exact ⟨_, rfl⟩,
   by intro s hs; rw [List.mem_singleton.mp hs]; decide, by intro s hs; rw [List.mem_singleton.mp hs]; decide⟩

/-- What the mapping of segment 0 shows at an offset. -/
def Ex.shown (f : Fls) (off : Nat) : Option UInt8 :=
  match f.segs[0]? with
  | some s => s.arr.map fun a => a.file (a.view + off)
  | none => none

/-- The example is mapped as stated. -/
example : (Ex.fls.mapper 0x8123 1).toOption.map Prod.fst = some (.mapped 0x700123 1) := by decide +kernel
example : (Ex.fls.mapper 0x8123 2).toOption.map Prod.fst = some .invalid := by decide +kernel
example : (Ex.fls.mapper 0x9000 0).toOption.map Prod.fst = some .notMapped := by decide +kernel

/-- Going back to page 0 is ignored: a byte of page 1 is shown. -/
theorem C52_fails_back :
    (do let (_, f) ← Ex.fls.mapper 0x8000 1
        let (_, f) ← f.mapper 0x8000 0
        pure (Ex.shown f 0) : Except Fault (Option UInt8)).toOption = some (some 16) := by decide +kernel

/-- An erase of `n` bytes at byte offset `off` of the mapping. -/
theorem erase_exact {a a' : FlsArr} {off n : Nat} (h : a.erase off n = .ok a') :
    ErasedExactly a.file a'.file (a.view + off) n ∧ a'.view = a.view ∧ a'.map = a.map := by
  unfold FlsArr.erase at h
  split at h
  · cases h
  · cases h
    exact ⟨fun i => rfl, rfl, rfl⟩

/-- Erasing a page, while the first page is shown, erases exactly that page, makes it the current page and leaves all
other segments alone. -/
theorem C52_erasePage_partial {f f' : Fls} (hi : f.init = true) {idx : Nat} {s : FlsSeg} {a : FlsArr} (hs : f.segs[idx]? = some s)
    (ha : s.arr = some a) (hview : a.view = 0) (page : UInt8) (h32 : s.pageSize.toNat * page.toNat < 2 ^ 32)
    (h : f.erasePage idx page = .ok f') :
    ∃ s' a', f'.segs[idx]? = some s' ∧ s'.arr = some a' ∧ s'.curPage = page ∧
      ErasedExactly a.file a'.file (s.pageSize.toNat * page.toNat) s.pageSize.toNat ∧
      ∀ j, j ≠ idx → f'.segs[j]? = f.segs[j]? := by
  have hlt := (List.getElem?_eq_some_iff.mp hs).1
  have hmul : (s.pageSize * page.toUInt32).toNat = s.pageSize.toNat * page.toNat := by
    rw [UInt32.toNat_mul]
    simp
    exact h32
  simp only [Fls.erasePage, Fls.basePointer, hi, hs, FlsSeg.array, ha, hmul] at h
  simp only [bind, Except.bind, pure, Except.pure] at h
  cases he : a.erase (s.pageSize.toNat * page.toNat) s.pageSize.toNat with
  | error e => simp [he] at h
  | ok a1 =>
    simp [he] at h
    have hx := erase_exact he
    rw [hview, Nat.zero_add] at hx
    refine ⟨_, a1, by rw [← h]; simp only [Fls.setSeg]; rw [List.getElem?_set_self hlt], rfl, rfl, hx.1, ?_⟩
    intro j hj
    rw [← h]
    simp only [Fls.setSeg]
    rw [List.getElem?_set_ne (Ne.symm hj)]

/-- Erasing a block, while the first page is shown, erases exactly that block. -/
theorem C52_eraseBlock_partial {f f' : Fls} (hi : f.init = true) {idx : Nat} {s : FlsSeg} {a : FlsArr} (hs : f.segs[idx]? = some s)
    (ha : s.arr = some a) (hview : a.view = 0) (block : UInt16) (h : f.eraseBlock idx block = .ok f') :
    block.toNat < s.blockCount.toNat ∧ ∃ s' a', f'.segs[idx]? = some s' ∧ s'.arr = some a' ∧
      ErasedExactly a.file a'.file (s.memSize.toNat / s.blockCount.toNat * block.toNat) (s.memSize.toNat / s.blockCount.toNat) ∧
      ∀ j, j ≠ idx → f'.segs[j]? = f.segs[j]? := by
  have hlt := (List.getElem?_eq_some_iff.mp hs).1
  by_cases hb : s.blockCount.toNat ≤ block.toNat
  · simp [Fls.eraseBlock, hi, hs, hb] at h
  · have hdiv : (s.memSize / s.blockCount.toUInt32).toNat = s.memSize.toNat / s.blockCount.toNat := by
      rw [UInt32.toNat_div]; simp
    have hmul : (s.memSize / s.blockCount.toUInt32 * block.toUInt32).toNat = s.memSize.toNat / s.blockCount.toNat * block.toNat := by
      rw [UInt32.toNat_mul, hdiv]
      simp only [UInt16.toNat_toUInt32]
      apply Nat.mod_eq_of_lt
      have h1 : s.memSize.toNat / s.blockCount.toNat * block.toNat ≤ s.memSize.toNat / s.blockCount.toNat * s.blockCount.toNat :=
        Nat.mul_le_mul_left _ (by omega)
      have h2 := Nat.div_mul_le_self s.memSize.toNat s.blockCount.toNat
      have h3 := s.memSize.toNat_lt
      omega
    simp only [Fls.eraseBlock, hi, hs, if_neg hb, FlsSeg.array, ha, hmul, hdiv] at h
    simp only [bind, Except.bind, pure, Except.pure] at h
    cases he : a.erase (s.memSize.toNat / s.blockCount.toNat * block.toNat) (s.memSize.toNat / s.blockCount.toNat) with
    | error e => simp [he] at h
    | ok a1 =>
      simp [he] at h
      have hx := erase_exact he
      rw [hview, Nat.zero_add] at hx
      refine ⟨by omega, _, a1, by rw [← h]; simp only [Fls.setSeg]; rw [List.getElem?_set_self hlt], rfl, hx.1, ?_⟩
      intro j hj
      rw [← h]
      simp only [Fls.setSeg]
      rw [List.getElem?_set_ne (Ne.symm hj)]

/-- What erasing a sector does: the bytes from *twice* the sector address on. -/
theorem C52_eraseSector_exact {f f' : Fls} (hi : f.init = true) {idx : Nat} {s : FlsSeg} {a : FlsArr} (hs : f.segs[idx]? = some s)
    (ha : s.arr = some a) (address : UInt32) (h : f.eraseSector idx address = .ok f') :
    ∃ s' a', f'.segs[idx]? = some s' ∧ s'.arr = some a' ∧
      ErasedExactly a.file a'.file (a.view + 2 * (address &&& ~~~(s.sectorSize.toUInt32 - 1)).toNat) s.sectorSize.toNat := by
  have hlt := (List.getElem?_eq_some_iff.mp hs).1
  simp only [Fls.eraseSector, hi, hs, FlsSeg.array, ha] at h
  simp only [bind, Except.bind, pure, Except.pure] at h
  cases he : a.erase (2 * (address &&& ~~~(s.sectorSize.toUInt32 - 1)).toNat) s.sectorSize.toNat with
  | error e => rw [he] at h; simp only [reduceCtorEq, if_false] at h
  | ok a1 =>
    rw [he] at h
    simp only [Bool.true_eq_false, if_false, Except.ok.injEq] at h
    exact ⟨_, a1, by rw [← h]; simp only [Fls.setSeg]; rw [List.getElem?_set_self hlt], rfl, (erase_exact he).1⟩

/-- Erasing sector 1 (bytes 256 to 511) erases sector 2 (512 to 767). -/
theorem C52_fails_sector :
    (Ex.fls.eraseSector 0 256).toOption.map (fun f => [Ex.shown f 255, Ex.shown f 256, Ex.shown f 511, Ex.shown f 512, Ex.shown f 767,
      Ex.shown f 768]) = some [some 0, some 1, some 1, some 0xFF, some 0xFF, some 3] := by decide +kernel

/-- With page 1 shown, erasing page 0 erases page 1. -/
theorem C52_fails_erasePage :
    (do let (_, f) ← Ex.fls.mapper 0x8000 1
        f.erasePage 0 0 : Except Fault Fls).toOption.map (fun f =>
          match f.segs[0]? with
          | some s => s.arr.map fun a => [a.file 0, a.file 4096]
          | none => none) = some (some [0, 0xFF]) := by decide +kernel

/-- Erasing page 1 and block 1 of the example. -/
example : (Ex.fls.erasePage 0 1).toOption.map (fun f => [Ex.shown f 4095, Ex.shown f 4096, Ex.shown f 8191, Ex.shown f 8192]) =
    some [some 15, some 0xFF, some 0xFF, some 32] := by decide +kernel
example : (Ex.fls.eraseBlock 0 1).toOption.map (fun f => [Ex.shown f 4095, Ex.shown f 4096, Ex.shown f 8191, Ex.shown f 8192]) =
    some [some 15, some 0xFF, some 0xFF, some 32] := by decide +kernel

/-- The allocated size is the granularity for every page size except 0: too small for pages larger than the
granularity. -/
theorem C52_allocated {f : Fls} (hi : f.init = true) {idx : Nat} {s : FlsSeg} (hs : f.segs[idx]? = some s) (hp : s.pageSize ≠ 0)
    (hg : f.granularity ≠ 0) (hg1 : f.granularity ≠ 1) : f.allocatedSize idx = .ok f.granularity := by
  have key : s.pageSize / f.granularity + (if s.pageSize % f.granularity ≠ 0 then 1 else 0) ≠ 0 := by
    intro h
    have h := congrArg UInt32.toNat h
    have hg0 : f.granularity.toNat ≠ 0 := fun h => hg (UInt32.toNat_inj.mp h)
    have hg1' : f.granularity.toNat ≠ 1 := fun h => hg1 (UInt32.toNat_inj.mp h)
    have hp0 : s.pageSize.toNat ≠ 0 := fun h => hp (UInt32.toNat_inj.mp h)
    have hlt := s.pageSize.toNat_lt
    have hq : s.pageSize.toNat / f.granularity.toNat ≤ s.pageSize.toNat / 2 := Nat.div_le_div_left (by omega) (by omega)
    have hdm := Nat.div_add_mod s.pageSize.toNat f.granularity.toNat
    rw [UInt32.toNat_add, UInt32.toNat_div] at h
    generalize s.pageSize.toNat / f.granularity.toNat = q at *
    have h0 : UInt32.toNat 0 = 0 := rfl
    have h1 : UInt32.toNat 1 = 1 := rfl
    split at h
    · rw [h0, h1] at h; omega
    · next hz =>
      have hz : s.pageSize % f.granularity = 0 := Decidable.not_not.mp hz
      have hz := congrArg UInt32.toNat hz
      rw [UInt32.toNat_mod, h0] at hz
      rw [h0] at h
      have hq0 : q = 0 := by omega
      rw [hq0, hz] at hdm
      simp at hdm
      omega
  simp only [Fls.allocatedSize, hi, hs, if_neg hg]
  simp only [ne_eq, ite_not] at key
  simp [key]

theorem C52_fails_allocated : (Fls.allocatedSize ⟨true, 4096, [{ Ex.seg with pageSize := 16384 }]⟩ 0).toOption = some 4096 := by
  decide +kernel

/-- Also the end of the program is a null pointer access: `FlsEmu_DeInit` after `FlsEmu_Init`, with the segments of
app_config.c. -/
theorem C52_fails_deinit (granularity : UInt32) (segs : List FlsSeg) (hne : segs ≠ []) (hs : ∀ s ∈ segs, s.static) :
    (Fls.initialize granularity segs).bind Fls.deInit = .error .nullDeref := by
  have hi : Fls.initialize granularity segs = .ok ⟨true, granularity, segs⟩ := openAll_same _ rfl _
  rw [hi]
  show Fls.deInit _ = _
  have key : ∀ n, 0 < n → Fls.closeAll ⟨true, granularity, segs⟩ n = .error .nullDeref := by
    intro n hn
    induction n with
    | zero => omega
    | succ n ih =>
      unfold Fls.closeAll
      by_cases h0 : n = 0
      · subst h0
        cases segs with
        | nil => exact absurd rfl hne
        | cons s segs =>
          have : s.arr = none := hs s (List.mem_cons_self ..)
          show Fls.close ⟨true, granularity, s :: segs⟩ 0 = _
          simp only [Fls.close, List.getElem?_cons_zero, FlsSeg.array, this]
          rfl
      · rw [ih (by omega)]
        rfl
  unfold Fls.deInit
  rw [key _ (List.length_pos_iff.mpr hne)]
  rfl

theorem closeAll_ok {f : Fls} (ho : Opened f) (n : Nat) (hn : n ≤ f.segs.length) :
    ∃ f', f.closeAll n = .ok f' ∧ f'.init = true ∧ f'.segs.length = f.segs.length ∧
      (∀ (i : Nat) (s : FlsSeg), f.segs[i]? = some s → f'.segs[i]? = some (if i < n then { s with arr := none } else s)) := by
  induction n with
  | zero => exact ⟨f, rfl, ho.init, rfl, fun i s h => by simpa using h⟩
  | succ n ih =>
    obtain ⟨f1, h1, h2, h3, h4⟩ := ih (by omega)
    have hs : f.segs[n]? = some f.segs[n] := List.getElem?_eq_getElem (by omega)
    obtain ⟨a, ha⟩ := ho.arr _ (List.mem_of_getElem? hs)
    have h5 := h4 n _ hs
    rw [if_neg (by omega)] at h5
    refine ⟨f1.setSeg n { f.segs[n] with arr := none }, ?_, h2, ?_, ?_⟩
    · unfold Fls.closeAll
      rw [h1]
      show f1.close n = _
      simp only [Fls.close, h2, h5, FlsSeg.array, ha]
      rfl
    · simp [Fls.setSeg, h3]
    · intro i s hi
      by_cases hin : i = n
      · subst hin
        rw [hs] at hi
        cases hi
        simp only [Fls.setSeg]
        rw [List.getElem?_set_self (by omega), if_pos (by omega)]
      · simp only [Fls.setSeg]
        rw [List.getElem?_set_ne (Ne.symm hin), h4 i s hi]
        by_cases hl : i < n
        · rw [if_pos hl, if_pos (by omega)]
        · rw [if_neg hl, if_neg (by omega)]

/-- If the arrays were open, `FlsEmu_DeInit` would give back every one of them, and afterwards every use of the
flash emulation would be noticed. -/
theorem C52_deinit_partial {f : Fls} (ho : Opened f) :
    ∃ f', f.deInit = .ok f' ∧ f'.init = false ∧ f'.segs.length = f.segs.length ∧ (∀ s ∈ f'.segs, s.arr = none) ∧
      ∀ idx, f'.close idx = .error .assertFail := by
  obtain ⟨f1, h1, _, h3, h4⟩ := closeAll_ok ho _ (Nat.le_refl f.segs.length)
  refine ⟨{ f1 with init := false }, by unfold Fls.deInit; rw [h1]; rfl, rfl, h3, ?_, fun idx => rfl⟩
  intro s hs
  obtain ⟨i, hi⟩ := List.getElem?_of_mem hs
  have hlt := (List.getElem?_eq_some_iff.mp hi).1
  have hlt' : i < f.segs.length := by simpa [h3] using hlt
  have := h4 i _ (List.getElem?_eq_getElem hlt')
  rw [if_pos hlt'] at this
  have hi' : f1.segs[i]? = some s := hi
  rw [this] at hi'
  cases hi'
  rfl

example : Ex.fls.deInit.toOption.map (fun f => (f.init, f.segs.map fun s => s.arr.isSome)) = some (false, [false]) := by decide +kernel

/-- Before its initialisation the emulation does nothing: each of its operations stops the program with an
assertion. -/
theorem C52_uninit {f : Fls} (h : f.init = false) (idx : Nat) (page : UInt8) (block : UInt16) (address : UInt32) :
    f.basePointer idx = .error .assertFail ∧ f.numPages idx = .error .assertFail ∧
    f.selectPage idx page = .error .assertFail ∧ f.erasePage idx page = .error .assertFail ∧
    f.eraseSector idx address = .error .assertFail ∧ f.eraseBlock idx block = .error .assertFail ∧
    f.allocatedSize idx = .error .assertFail ∧ f.close idx = .error .assertFail := by
  refine ⟨?_, ?_, ?_, ?_, ?_, ?_, ?_, ?_⟩
  · simp only [Fls.basePointer, h, if_true]
  · simp only [Fls.numPages, h, if_true]
  · simp only [Fls.selectPage, h, if_true]
  · simp only [Fls.erasePage, Fls.basePointer, h, if_true]; rfl
  · simp only [Fls.eraseSector, h, if_true]
  · simp only [Fls.eraseBlock, h, if_true]
  · simp only [Fls.allocatedSize, h, if_true]
  · simp only [Fls.close, h, if_true]

example : (({ Ex.fls with init := false } : Fls).selectPage 0 1).toOption.isNone = true ∧
    (Ex.fls.selectPage 0 1).toOption.isSome = true := by decide +kernel

/-- The number of pages of a segment: how often the page size goes into its memory; a page size of 0 is a division by zero. -/
theorem C52_pages {f : Fls} (hi : f.init = true) {idx : Nat} {s : FlsSeg} (hs : f.segs[idx]? = some s) :
    (s.pageSize = 0 → f.numPages idx = .error .divZero) ∧
    (s.pageSize ≠ 0 → f.numPages idx = .ok (s.memSize.toNat / s.pageSize.toNat)) := by
  refine ⟨fun h => ?_, fun h => ?_⟩ <;> simp [Fls.numPages, hi, hs, h]

example : (Ex.fls.numPages 0).toOption.isSome = true ∧
    (({ Ex.fls with segs := Ex.fls.segs.map fun s => { s with pageSize := 0 } } : Fls).numPages 0).toOption = none := by decide +kernel

/-- A granularity of 0 (the system's answer is not checked) makes the allocated size a division by zero. -/
theorem C52_granularity_zero {f : Fls} (hi : f.init = true) {idx : Nat} {s : FlsSeg} (hs : f.segs[idx]? = some s) (hg : f.granularity = 0) :
    f.allocatedSize idx = .error .divZero := by
  simp [Fls.allocatedSize, hi, hs, hg]

example : (({ Ex.fls with granularity := 0 } : Fls).allocatedSize 0).toOption = none ∧ (Ex.fls.allocatedSize 0).toOption.isSome = true := by decide +kernel

end Xcp
