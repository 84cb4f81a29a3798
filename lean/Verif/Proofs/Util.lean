import Verif.Model.Util
import Verif.Spec.Util
import Verif.Proofs.Memory
/-
Lemmas about the utility functions.
-/
set_option autoImplicit false
namespace Xcp
open Spec

theorem addr_succ (a : UInt32) (i : Nat) : a + 1 + UInt32.ofNat i = a + UInt32.ofNat (i + 1) := by
  rw [Nat.add_comm i 1, UInt32.ofNat_add, ← UInt32.add_assoc]; rfl

theorem bytesAt_succ (m : Mem) (a : UInt32) (n : Nat) : bytesAt m a (n + 1) = m a :: bytesAt m (a + 1) n := by
  rw [Nat.add_comm, bytesAt_add]
  simp [bytesAt]

theorem addr_ne {a : UInt32} {i j : Nat} (hi : i < 2 ^ 32) (hj : j < 2 ^ 32) (h : i ≠ j) :
    a + UInt32.ofNat i ≠ a + UInt32.ofNat j := by
  intro he
  have h1 := sub_toNat_add (a := a) hi
  have h2 := sub_toNat_add (a := a) hj
  rw [he] at h1
  omega

/-- the addresses of an area, upwards -/
def area (a : UInt32) (n : Nat) : List UInt32 := (List.range n).map fun i => a + UInt32.ofNat i

theorem area_succ (a : UInt32) (n : Nat) : area a (n + 1) = a :: area (a + 1) n := by
  unfold area
  rw [List.range_succ_eq_map, List.map_cons, List.map_map]
  congr 1
  · simp
  · apply List.map_congr_left
    intro i _
    exact (addr_succ a i).symm

theorem mem_area {a x : UInt32} {n : Nat} : x ∈ area a n ↔ InArea a n x := by
  unfold area InArea
  rw [List.mem_map]
  constructor
  · rintro ⟨i, hi, rfl⟩; exact ⟨i, List.mem_range.mp hi, rfl⟩
  · rintro ⟨i, hi, rfl⟩; exact ⟨i, List.mem_range.mpr hi, rfl⟩

theorem storedAt_cons {m m' : Mem} {a : UInt32} {b : UInt8} {data : List UInt8} (hn : data.length + 1 ≤ 2 ^ 32)
    (h : StoredAt (fun x => if x = a then b else m x) m' (a + 1) data) : StoredAt m m' a (b :: data) := by
  constructor
  · intro i c hc
    cases i with
    | zero =>
      have hb : b = c := by simpa using hc
      rw [h.other]
      · simp [hb]
      · intro i hi he
        rw [addr_succ] at he
        exact addr_ne (by omega) (by omega) (by omega : (0 : Nat) ≠ i + 1) he
    | succ i =>
      rw [← addr_succ]
      exact h.stored i c (by simpa using hc)
  · intro x hx
    rw [h.other]
    · have h0 := hx 0 (by simp)
      simp at h0
      simp [h0]
    · intro i hi
      rw [addr_succ]
      exact hx (i + 1) (by simpa using hi)

theorem memCopyLoop_spec (n : Nat) (pd ps : UInt32) (a : Acc) (hn : n ≤ 2 ^ 32)
    (hc : ∀ i j, i < j → j < n → pd + UInt32.ofNat i ≠ ps + UInt32.ofNat j) :
    StoredAt a.mem (memCopyLoop n pd ps a).mem pd (bytesAt a.mem ps n) ∧
    (memCopyLoop n pd ps a).reads = a.reads ++ area ps n ∧ (memCopyLoop n pd ps a).writes = a.writes ++ area pd n := by
  induction n generalizing pd ps a with
  | zero => exact ⟨⟨by simp [bytesAt], by intro x _; rfl⟩, by simp [memCopyLoop, area], by simp [memCopyLoop, area]⟩
  | succ n ih =>
    unfold memCopyLoop
    obtain ⟨h1, h2, h3⟩ := ih (pd + 1) (ps + 1)
      { mem := fun x => if x = pd then a.mem ps else a.mem x, reads := a.reads ++ [ps], writes := a.writes ++ [pd] }
      (by omega) (by
        intro i j hij hj
        rw [addr_succ, addr_succ]
        exact hc (i + 1) (j + 1) (by omega) (by omega))
    refine ⟨?_, by rw [h2, area_succ]; simp, by rw [h3, area_succ]; simp⟩
    rw [bytesAt_succ]
    apply storedAt_cons
    · rw [bytesAt_length]; omega
    · have he : bytesAt a.mem (ps + 1) n = bytesAt (fun x => if x = pd then a.mem ps else a.mem x) (ps + 1) n := by
        unfold bytesAt
        apply List.map_congr_left
        intro j hj
        have hj := List.mem_range.mp hj
        rw [addr_succ]
        have := hc 0 (j + 1) (by omega) (by omega)
        have hz : pd + UInt32.ofNat 0 = pd := by simp
        rw [hz] at this
        simp only
        rw [if_neg (fun h => this h.symm)]
      rw [he]
      exact h1

theorem memSetLoop_spec (c : UInt8) (n : Nat) (p : UInt32) (a : Acc) (hn : n ≤ 2 ^ 32) :
    StoredAt a.mem (memSetLoop c n p a).mem p (List.replicate n c) ∧
    (memSetLoop c n p a).reads = a.reads ∧ (memSetLoop c n p a).writes = a.writes ++ area p n := by
  induction n generalizing p a with
  | zero => exact ⟨⟨by simp, by intro x _; rfl⟩, rfl, by simp [memSetLoop, area]⟩
  | succ n ih =>
    unfold memSetLoop
    obtain ⟨h1, h2, h3⟩ := ih (p + 1) { a with mem := fun x => if x = p then c else a.mem x, writes := a.writes ++ [p] } (by omega)
    refine ⟨?_, h2, by rw [h3, area_succ]; simp⟩
    rw [List.replicate_succ]
    exact storedAt_cons (by simp; omega) h1

theorem memCmpLoop_spec (m : Mem) (n : Nat) (pl pr : UInt32) (rd : List UInt32) :
    ((memCmpLoop m n pl pr rd).1 = 0 ↔ bytesAt m pl n = bytesAt m pr n) ∧
    (∀ x, x ∈ (memCmpLoop m n pl pr rd).2 → x ∈ rd ∨ InArea pl (n + 1) x ∨ InArea pr (n + 1) x) ∧
    (bytesAt m pl n = bytesAt m pr n →
      pl + UInt32.ofNat n ∈ (memCmpLoop m n pl pr rd).2 ∧ pr + UInt32.ofNat n ∈ (memCmpLoop m n pl pr rd).2) := by
  induction n generalizing pl pr rd with
  | zero =>
    refine ⟨by simp [memCmpLoop, bytesAt], ?_, by simp [memCmpLoop]⟩
    intro x hx
    simp only [memCmpLoop, List.mem_append, List.mem_cons, List.not_mem_nil, or_false] at hx
    rcases hx with hx | hx | hx
    · exact .inl hx
    · exact .inr (.inl ⟨0, by omega, by simp [hx]⟩)
    · exact .inr (.inr ⟨0, by omega, by simp [hx]⟩)
  | succ n ih =>
    unfold memCmpLoop
    have first : ∀ x, x ∈ rd ++ [pl, pr] → x ∈ rd ∨ InArea pl (n + 1 + 1) x ∨ InArea pr (n + 1 + 1) x := by
      intro x hx
      simp only [List.mem_append, List.mem_cons, List.not_mem_nil, or_false] at hx
      rcases hx with hx | hx | hx
      · exact .inl hx
      · exact .inr (.inl ⟨0, by omega, by simp [hx]⟩)
      · exact .inr (.inr ⟨0, by omega, by simp [hx]⟩)
    split
    · next he =>
      obtain ⟨h1, h2, h3⟩ := ih (pl + 1) (pr + 1) (rd ++ [pl, pr])
      refine ⟨by rw [h1, bytesAt_succ, bytesAt_succ, he]; simp, ?_, ?_⟩
      · intro x hx
        rcases h2 x hx with hx | ⟨i, hi, hx⟩ | ⟨i, hi, hx⟩
        · exact first x hx
        · exact .inr (.inl ⟨i + 1, by omega, by rw [hx, addr_succ]⟩)
        · exact .inr (.inr ⟨i + 1, by omega, by rw [hx, addr_succ]⟩)
      · intro hb
        rw [bytesAt_succ, bytesAt_succ, he] at hb
        have := h3 (List.cons.inj hb).2
        rwa [addr_succ, addr_succ] at this
    · next he =>
      refine ⟨by rw [bytesAt_succ, bytesAt_succ]; simp [he], first, ?_⟩
      intro hb
      rw [bytesAt_succ, bytesAt_succ] at hb
      exact absurd (List.cons.inj hb).1 he

end Xcp
