import Verif.Model.QueueMem
import Verif.Proofs.Eth
import Verif.Proofs.Answer
/-
C110: clearing the DAQ queue changes the queue and nothing else.

`XcpDaq_QueueInit` clears each slot with the size of `Xcp_PduType`, a length and a pointer, instead of the slot's own.  This
stays within the queue exactly if that is not longer than a slot (`C110_within_partial`, `C110_fails_size`).  With
pointers of 4 bytes it always is not; with pointers of 8 bytes it is for XCP_MAX_DTO below 15, so on CAN the
initialisation writes outside of the queue (`C110_fails_can`).
-/
set_option autoImplicit false
namespace Xcp
open Spec

/-- The slot `i` of the queue's memory `mem`: `n + 1` bytes each. -/
def Spec.slotOf (n : Nat) (mem : List UInt8) (i : Nat) : List UInt8 := (mem.drop (i * (n + 1))).take (n + 1)

theorem pduSize_eq : pduSize 2 = 4 ∧ pduSize 4 = 8 ∧ pduSize 8 = 16 := by decide

theorem zeroMem_slot {k n : Nat} (hk : k ≤ n + 1) {a b c : List UInt8} (ha : b.length = n + 1) :
    zeroMem (a ++ b ++ c) a.length k = .ok (a ++ (List.replicate k 0 ++ b.drop k) ++ c) := by
  unfold zeroMem
  rw [if_neg (by simp; omega)]
  simp only [storeAt, List.length_replicate, List.append_assoc]
  rw [List.take_left]
  congr 3
  rw [List.drop_append, List.drop_of_length_le (by omega), List.nil_append, Nat.add_sub_cancel_left, List.drop_append_of_le_length (by omega)]

/-- C110, partial: if a packet descriptor is not longer than a slot, the initialisation clears the beginning of each slot and
changes nothing else. -/
theorem C110_within_partial {ptr n : Nat} (h : pduSize ptr ≤ n + 1) {mem : List UInt8} (hm : mem.length = 4 * (n + 1)) :
    ∃ mem', queueZero ptr n mem = .ok mem' ∧ mem'.length = mem.length ∧
      ∀ i < 4, slotOf n mem' i = List.replicate (pduSize ptr) 0 ++ (slotOf n mem i).drop (pduSize ptr) := by
  obtain ⟨a, b, c, d, rfl, ha, hb, hc, hd⟩ : ∃ a b c d : List UInt8, mem = a ++ b ++ c ++ d ∧ a.length = n + 1 ∧ b.length = n + 1 ∧
      c.length = n + 1 ∧ d.length = n + 1 := by
    refine ⟨mem.take (n + 1), (mem.drop (n + 1)).take (n + 1), (mem.drop (2 * (n + 1))).take (n + 1), mem.drop (3 * (n + 1)), ?_, ?_, ?_, ?_, ?_⟩
    · have e1 : mem.drop (2 * (n + 1)) = (mem.drop (n + 1)).drop (n + 1) := by rw [List.drop_drop]; congr 1; omega
      have e2 : mem.drop (3 * (n + 1)) = (mem.drop (2 * (n + 1))).drop (n + 1) := by rw [List.drop_drop]; congr 1; omega
      rw [List.append_assoc, e2, List.take_append_drop, e1, List.append_assoc, List.take_append_drop, List.take_append_drop]
    all_goals simp; omega
  generalize hk : pduSize ptr = k at h
  refine ⟨(List.replicate k 0 ++ a.drop k) ++ (List.replicate k 0 ++ b.drop k) ++ (List.replicate k 0 ++ c.drop k) ++ (List.replicate k 0 ++ d.drop k), ?_, ?_, ?_⟩
  · have z0 := zeroMem_slot (a := []) (b := a) (c := b ++ c ++ d) h ha
    have z1 := zeroMem_slot (a := List.replicate k 0 ++ a.drop k) (b := b) (c := c ++ d) h hb
    have z2 := zeroMem_slot (a := (List.replicate k 0 ++ a.drop k) ++ (List.replicate k 0 ++ b.drop k)) (b := c) (c := d) h hc
    have z3 := zeroMem_slot (a := (List.replicate k 0 ++ a.drop k) ++ (List.replicate k 0 ++ b.drop k) ++ (List.replicate k 0 ++ c.drop k)) (b := d) (c := []) h hd
    have l1 : (List.replicate k (0 : UInt8) ++ a.drop k).length = 1 * slotSize n := by simp [slotSize]; omega
    have l2 : ((List.replicate k (0 : UInt8) ++ a.drop k) ++ (List.replicate k 0 ++ b.drop k)).length = 2 * slotSize n := by simp [slotSize]; omega
    have l3 : ((List.replicate k (0 : UInt8) ++ a.drop k) ++ (List.replicate k 0 ++ b.drop k) ++ (List.replicate k 0 ++ c.drop k)).length = 3 * slotSize n := by
      simp [slotSize]; omega
    rw [l1] at z1
    rw [l2] at z2
    rw [l3] at z3
    simp only [List.nil_append, List.length_nil, List.append_assoc, List.append_nil] at z0 z1 z2 z3
    have hr : List.range queueSize = [0, 1, 2, 3] := by decide
    simp only [queueZero, hr, List.foldlM_cons, List.foldlM_nil, hk, Nat.zero_mul, List.append_assoc, z0, ok_bind, z1, z2, z3]
    rfl
  · simp; omega
  · intro i hi
    have la : (List.replicate k (0 : UInt8) ++ a.drop k).length = n + 1 := by simp; omega
    have lb : (List.replicate k (0 : UInt8) ++ b.drop k).length = n + 1 := by simp; omega
    have lc : (List.replicate k (0 : UInt8) ++ c.drop k).length = n + 1 := by simp; omega
    have ld : (List.replicate k (0 : UInt8) ++ d.drop k).length = n + 1 := by simp; omega
    have key : ∀ (p q r s : List UInt8), p.length = n + 1 → q.length = n + 1 → r.length = n + 1 → s.length = n + 1 →
        slotOf n (p ++ q ++ r ++ s) 0 = p ∧ slotOf n (p ++ q ++ r ++ s) 1 = q ∧ slotOf n (p ++ q ++ r ++ s) 2 = r ∧ slotOf n (p ++ q ++ r ++ s) 3 = s := by
      intro p q r s hp hq hr hs
      unfold slotOf
      refine ⟨?_, ?_, ?_, ?_⟩
      · simp [hp]
      · rw [show 1 * (n + 1) = p.length by omega, List.append_assoc, List.append_assoc, List.drop_left, ← hq, List.take_left]
      · rw [show 2 * (n + 1) = (p ++ q).length by simp; omega, List.append_assoc, List.drop_left, ← hr, List.take_left]
      · rw [show 3 * (n + 1) = (p ++ q ++ r).length by simp; omega, List.drop_left, ← hs, List.take_length]
    have k1 := key _ _ _ _ la lb lc ld
    have k2 := key a b c d ha hb hc hd
    match i, hi with
    | 0, _ => rw [k1.1, k2.1]
    | 1, _ => rw [k1.2.1, k2.2.1]
    | 2, _ => rw [k1.2.2.1, k2.2.2.1]
    | 3, _ => rw [k1.2.2.2, k2.2.2.2]

theorem zeroMem_length {mem mem' : List UInt8} {off n : Nat} (h : zeroMem mem off n = .ok mem') : mem'.length = mem.length := by
  unfold zeroMem at h
  split at h
  · cases h
  · cases h
    exact storeAt_length (by simp; omega)

/-- If a packet descriptor is longer than a slot, the initialisation writes outside of the queue. -/
theorem C110_fails_size {ptr n : Nat} (h : n + 1 < pduSize ptr) {mem : List UInt8} (hm : mem.length = 4 * (n + 1)) :
    queueZero ptr n mem = .error .queueOob := by
  have hr : List.range queueSize = [0, 1, 2, 3] := by decide
  simp only [queueZero, hr, List.foldlM_cons, List.foldlM_nil]
  have hz : ∀ (m : List UInt8) (o k : Nat), zeroMem m o k = .error .queueOob ∨ ∃ m', zeroMem m o k = .ok m' := by
    intro m o k
    unfold zeroMem
    split
    · exact Or.inl rfl
    · exact Or.inr ⟨_, rfl⟩
  rcases hz mem (0 * slotSize n) (pduSize ptr) with e | ⟨m0, e0⟩
  · rw [e]; rfl
  rw [e0, ok_bind]
  rcases hz m0 (1 * slotSize n) (pduSize ptr) with e | ⟨m1, e1⟩
  · rw [e]; rfl
  rw [e1, ok_bind]
  rcases hz m1 (2 * slotSize n) (pduSize ptr) with e | ⟨m2, e2⟩
  · rw [e]; rfl
  rw [e2, ok_bind]
  have hl : m2.length = 4 * (n + 1) := by rw [zeroMem_length e2, zeroMem_length e1, zeroMem_length e0, hm]
  have : zeroMem m2 (3 * slotSize n) (pduSize ptr) = .error .queueOob := by
    unfold zeroMem
    rw [if_pos (by simp only [slotSize]; omega)]
  rw [this]
  rfl

/-- With pointers of 2 or 4 bytes the initialisation stays within the queue for every allowed XCP_MAX_DTO. -/
theorem C110_small_pointers {ptr n : Nat} (hp : ptr = 2 ∨ ptr = 4) (hn : 8 ≤ n) {mem : List UInt8} (hm : mem.length = 4 * (n + 1)) :
    ∃ mem', queueZero ptr n mem = .ok mem' := by
  obtain ⟨m, h, _⟩ := C110_within_partial (ptr := ptr) (n := n) (by rcases hp with rfl | rfl <;> simp [pduSize_eq] <;> omega) hm
  exact ⟨m, h⟩

/-- With pointers of 8 bytes it does not for XCP_MAX_DTO from 8 to 14; CAN has 8. -/
theorem C110_fails_can {n : Nat} (hn : n < 15) {mem : List UInt8} (hm : mem.length = 4 * (n + 1)) : queueZero 8 n mem = .error .queueOob :=
  C110_fails_size (by simp [pduSize_eq]; omega) hm

/-- On Ethernet, with XCP_MAX_DTO 64, the first 16 bytes of each slot are cleared, also with pointers of 8 bytes. -/
example : (queueZero 8 64 (List.replicate 260 7)).toOption.map (fun m => (slotOf 64 m 3).take 17) = some (List.replicate 16 0 ++ [7]) ∧
    (queueZero 4 8 (List.replicate 36 7)).toOption = some ((List.replicate 4 (List.replicate 8 0 ++ [7])).flatten) ∧
    (queueZero 8 8 (List.replicate 36 7)).toOption = none := by
  refine ⟨?_, ?_, ?_⟩ <;> decide +kernel

end Xcp
