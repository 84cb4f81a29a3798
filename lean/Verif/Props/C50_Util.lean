import Verif.Proofs.Util
import Verif.Model.Example
/-
C50: Memory utilities do what their names say.

MemCopy and MemSet: proved.  MemCmp: the result is right (for lengths above 0), but one byte
behind each area is read; "reads only those areas" is false.
-/
set_option autoImplicit false
namespace Xcp
open Spec

/-- MemCopy, disjoint areas (for builds with assertions: destination not null, length not 0). -/
theorem C50_copy (asserts : Bool) {dst src len : UInt32} (m : Mem) (hd : dst ≠ 0) (hl : len ≠ 0)
    (hdis : Disjoint dst src len.toNat) :
    ∃ a, memCopy asserts dst src len m = .ok a ∧
      StoredAt m a.mem dst (bytesAt m src len.toNat) ∧
      bytesAt a.mem dst len.toNat = bytesAt m src len.toNat ∧
      (∀ x, x ∈ a.reads ↔ InArea src len.toNat x) ∧ (∀ x, x ∈ a.writes ↔ InArea dst len.toNat x) := by
  have hlt := len.toNat_lt
  obtain ⟨h1, h2, h3⟩ := memCopyLoop_spec len.toNat dst src ⟨m, [], []⟩ (by omega) (by
    intro i j hij hj he
    exact hdis (dst + UInt32.ofNat i) ⟨i, by omega, rfl⟩ ⟨j, hj, he⟩)
  refine ⟨memCopyLoop len.toNat dst src ⟨m, [], []⟩, by unfold memCopy; simp [hd, hl], h1, ?_, ?_, ?_⟩
  · have := StoredAt_bytes h1
    rwa [bytesAt_length] at this
  · intro x; rw [h2, List.nil_append, mem_area]
  · intro x; rw [h3, List.nil_append, mem_area]

/-- MemCopy also works when the areas overlap and the destination is below the source. -/
theorem C50_copy_down (asserts : Bool) {dst src len : UInt32} (m : Mem) (hd : dst ≠ 0) (hl : len ≠ 0)
    (hle : dst.toNat ≤ src.toNat) (hend : src.toNat + len.toNat ≤ 2 ^ 32) :
    ∃ a, memCopy asserts dst src len m = .ok a ∧ StoredAt m a.mem dst (bytesAt m src len.toNat) := by
  have hlt := len.toNat_lt
  obtain ⟨h1, -, -⟩ := memCopyLoop_spec len.toNat dst src ⟨m, [], []⟩ (by omega) (by
    intro i j hij hj he
    have he := congrArg UInt32.toNat he
    simp at he
    omega)
  exact ⟨memCopyLoop len.toNat dst src ⟨m, [], []⟩, by unfold memCopy; simp [hd, hl], h1⟩

/-- A destination that overlaps the source from above gets wrong contents. -/
theorem C50_copy_overlap :
    (memCopy true 0x101 0x100 3 Ex.mem).toOption.map (fun a => bytesAt a.mem 0x101 3) = some [0, 0, 0] := by
  decide +kernel

/-- MemSet. -/
theorem C50_set (asserts : Bool) {dst len : UInt32} (c : UInt8) (m : Mem) (hd : dst ≠ 0) :
    ∃ a, memSet asserts dst c len m = .ok a ∧ StoredAt m a.mem dst (List.replicate len.toNat c) ∧
      a.reads = [] ∧ (∀ x, x ∈ a.writes ↔ InArea dst len.toNat x) := by
  have hlt := len.toNat_lt
  obtain ⟨h1, h2, h3⟩ := memSetLoop_spec c len.toNat dst ⟨m, [], []⟩ (by omega)
  refine ⟨memSetLoop c len.toNat dst ⟨m, [], []⟩, by unfold memSet; simp [hd], h1, h2, ?_⟩
  intro x; rw [h3, List.nil_append, mem_area]

/-- The part of C50 about MemCmp. -/
def Spec.CmpRight (asserts : Bool) : Prop :=
  ∀ (lhs rhs len : UInt32) (m : Mem), lhs ≠ 0 → rhs ≠ 0 → len ≠ 0 →
    ∃ eq rd, memCmp asserts lhs rhs len m = .ok (eq, rd) ∧ (eq = true ↔ bytesAt m lhs len.toNat = bytesAt m rhs len.toNat) ∧
      ∀ x, x ∈ rd → InArea lhs len.toNat x ∨ InArea rhs len.toNat x

/-- MemCmp: right result; the addresses read are those of the areas and at most one byte
behind. -/
theorem C50_cmp_partial (asserts : Bool) {lhs rhs len : UInt32} (m : Mem) (h1 : lhs ≠ 0) (h2 : rhs ≠ 0) (hl : len ≠ 0) :
    ∃ eq rd, memCmp asserts lhs rhs len m = .ok (eq, rd) ∧
      (eq = true ↔ bytesAt m lhs len.toNat = bytesAt m rhs len.toNat) ∧
      (∀ x, x ∈ rd → InArea lhs (len.toNat + 1) x ∨ InArea rhs (len.toNat + 1) x) := by
  obtain ⟨ha, hb, -⟩ := memCmpLoop_spec m len.toNat lhs rhs []
  refine ⟨(memCmpLoop m len.toNat lhs rhs []).1 == 0, (memCmpLoop m len.toNat lhs rhs []).2, ?_, ?_, ?_⟩
  · unfold memCmp; simp [h1, h2, hl]
  · rw [← ha]; simp
  · intro x hx
    rcases hb x hx with hx | hx
    · cases hx
    · exact hx

/-- Whenever the areas are equal, the byte behind each of them is read. -/
theorem C50_cmp_overread (asserts : Bool) {lhs rhs len : UInt32} (m : Mem) (h1 : lhs ≠ 0) (h2 : rhs ≠ 0) (hl : len ≠ 0)
    (he : bytesAt m lhs len.toNat = bytesAt m rhs len.toNat) :
    ∃ rd, memCmp asserts lhs rhs len m = .ok (true, rd) ∧
      lhs + UInt32.ofNat len.toNat ∈ rd ∧ rhs + UInt32.ofNat len.toNat ∈ rd := by
  obtain ⟨ha, -, hc⟩ := memCmpLoop_spec m len.toNat lhs rhs []
  refine ⟨(memCmpLoop m len.toNat lhs rhs []).2, ?_, hc he⟩
  unfold memCmp
  simp [h1, h2, hl, ha.mpr he]

theorem C50_cmp_fails (asserts : Bool) : ¬ CmpRight asserts := by
  intro h
  obtain ⟨eq, rd, hr, -, hx⟩ := h 0x100 0x200 4 (fun _ => 0) (by decide) (by decide) (by decide)
  obtain ⟨rd', hr', h1, -⟩ := C50_cmp_overread asserts (lhs := 0x100) (rhs := 0x200) (len := 4) (fun _ => 0) (by decide) (by decide)
    (by decide) (by decide)
  rw [hr] at hr'
  cases hr'
  rcases hx _ h1 with ⟨i, hi, he⟩ | ⟨i, hi, he⟩
  · exact addr_ne (by decide) (by simp at hi; omega) (by simp at hi; simp; omega) he
  · have he := congrArg UInt32.toNat he
    simp at he hi
    omega

/-- Length 0: MemCmp says that the (empty) areas differ. -/
theorem C50_cmp_zero (asserts : Bool) {lhs rhs : UInt32} (m : Mem) (h1 : lhs ≠ 0) (h2 : rhs ≠ 0) :
    memCmp asserts lhs rhs 0 m = .ok (false, []) := by
  unfold memCmp; simp [h1, h2]

/-- Copying four bytes from 0x210. -/
example : Disjoint 0x100 0x210 (4 : UInt32).toNat := by
  rintro x ⟨i, hi, rfl⟩ ⟨j, hj, he⟩
  have he := congrArg UInt32.toNat he
  simp at he hi hj
  omega
example : (memCopy true 0x100 0x210 4 Ex.mem).toOption.map
    (fun a => (bytesAt a.mem 0xFF 6, a.reads, a.writes)) =
    some ([0xFF, 0x10, 0x11, 0x12, 0x13, 0x04], [0x210, 0x211, 0x212, 0x213], [0x100, 0x101, 0x102, 0x103]) := by decide +kernel
example : (memSet true 0x100 7 2 Ex.mem).toOption.map (fun a => bytesAt a.mem 0xFF 4) = some [0xFF, 7, 7, 2] := by
  decide +kernel
example : (memCmp true 0x100 0x300 4 Ex.mem).toOption.map Prod.fst = some true := by decide +kernel
example : (memCmp true 0x100 0x301 4 Ex.mem).toOption.map Prod.fst = some false := by decide +kernel

end Xcp
