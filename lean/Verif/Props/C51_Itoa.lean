import Verif.Proofs.Itoa
/-
C51: Number formatting round-trips.

Proved for bases 2 to 36, except for the smallest signed number in base 10 on targets with a 32-bit
`long`, where the negation overflows.
-/
set_option autoImplicit false
namespace Xcp
open Spec

/-- The number that is written: signed for base 10. -/
def Spec.written (value : UInt32) (base : UInt8) : Int :=
  if base = 10 ∧ 2 ^ 31 ≤ value.toNat then (value.toNat : Int) - 2 ^ 32 else value.toNat

/-- C51 in full: for every value and base, the buffer holds a zero terminated string of at most 32
characters, which reads back as the number, has no leading zeros, and nothing behind its
terminator is changed. -/
def Spec.ItoaRight (long64 : Bool) (value : UInt32) (base : UInt8) : Prop :=
  ∀ buf : Nat → UInt8, ∃ b cs, itoa long64 value base buf = .ok b ∧ IsString b cs ∧ cs.length ≤ 32 ∧
    parseInt base.toNat cs = some (written value base) ∧
    (∃ digits, (cs = digits ∨ cs = 45 :: digits) ∧ Canonical digits) ∧
    ∀ j, cs.length < j → b j = buf j

theorem C51_itoa_partial {long64 : Bool} {value : UInt32} {base : UInt8} (hb : 2 ≤ base.toNat) (hb' : base.toNat ≤ 36)
    (hl : long64 = true ∨ ¬ (value.toNat = 2 ^ 31 ∧ base = 10)) : ItoaRight long64 value base := by
  intro buf
  have hval := value.toNat_lt
  have h10 : base = 10 ↔ base.toNat = 10 := by
    constructor
    · intro h; rw [h]; rfl
    · intro h; exact UInt8.toNat_inj.mp h
  unfold itoa
  by_cases hneg : 2 ^ 31 ≤ value.toNat ∧ base.toNat = 10
  · have hno : ¬ ((2 ^ 31 ≤ value.toNat ∧ base.toNat = 10) ∧ value.toNat = 2 ^ 31 ∧ long64 = false) := by
      rintro ⟨-, h1, h2⟩
      rcases hl with h | h
      · rw [h] at h2; cases h2
      · exact h ⟨h1, h10.mpr hneg.2⟩
    obtain ⟨b, h1, h2, h3, h4⟩ := itoa_body hb hb' (v := 2 ^ 32 - value.toNat) (by omega) 1 (by omega) (CharBuf.set buf 0 45)
    have hlen : (lsdChars base.toNat (2 ^ 32 - value.toNat)).length ≤ 10 := by
      unfold lsdChars
      rw [if_neg (by omega), List.length_map, hneg.2]
      exact lsd_length_pow (by omega) 10 _ (by omega)
    refine ⟨b, 45 :: (lsdChars base.toNat (2 ^ 32 - value.toNat)).reverse, ?_, ⟨?_, ?_⟩, ?_, ?_, ?_, ?_⟩
    · rw [if_neg hno]
      simp only [hneg, and_self, if_true]
      rw [hneg.2] at h1
      exact h1
    · intro i c hc
      cases i with
      | zero =>
        have : c = 45 := by simpa using hc.symm
        rw [this, h4 0 (by omega)]
        exact ⟨rfl, by decide⟩
      | succ i =>
        have hc : (lsdChars base.toNat (2 ^ 32 - value.toNat)).reverse[i]? = some c := by simpa using hc
        exact ⟨by rw [Nat.add_comm]; exact h2 i c hc,
          (lsdChars_ne hb hb' _ c (List.mem_reverse.mp (List.mem_of_getElem? hc))).1⟩
    · rw [List.length_cons, List.length_reverse, Nat.add_comm]; exact h3
    · rw [List.length_cons, List.length_reverse]; omega
    · have hw : written value base = (value.toNat : Int) - 2 ^ 32 := by
        unfold written
        rw [if_pos ⟨h10.mpr hneg.2, hneg.1⟩]
      rw [hw]
      simp only [parseInt, if_true, lsdChars_parse hb hb', Option.map_some]
      have : -((2 ^ 32 - value.toNat : Nat) : Int) = (value.toNat : Int) - 2 ^ 32 := by omega
      rw [this]
    · exact ⟨_, .inr rfl, lsdChars_canonical hb hb' _⟩
    · intro j hj
      rw [List.length_cons, List.length_reverse] at hj
      rw [h4 j (by omega)]
      unfold CharBuf.set
      rw [if_neg (by omega)]
  · obtain ⟨b, h1, h2, h3, h4⟩ := itoa_body hb hb' (v := value.toNat) (by omega) 0 (by omega) buf
    have hlen := lsdChars_length hb (v := value.toNat) (n := 32) (by omega) (by omega)
    refine ⟨b, (lsdChars base.toNat value.toNat).reverse, ?_, ⟨?_, ?_⟩, ?_, ?_, ?_, ?_⟩
    · simp only [hneg, false_and, if_false]
      exact h1
    · intro i c hc
      refine ⟨?_, (lsdChars_ne hb hb' _ c (List.mem_reverse.mp (List.mem_of_getElem? hc))).1⟩
      have := h2 i c hc
      rwa [Nat.zero_add] at this
    · rw [List.length_reverse]; rwa [Nat.zero_add] at h3
    · rw [List.length_reverse]; omega
    · have hp := lsdChars_parse hb hb' value.toNat
      have hne := lsdChars_ne hb hb' value.toNat
      have hw : written value base = value.toNat := by
        unfold written
        rw [if_neg (by rw [h10]; exact fun h => hneg ⟨h.2, h.1⟩)]
      rw [hw]
      cases hr : (lsdChars base.toNat value.toNat).reverse with
      | nil => rw [← List.length_reverse, hr] at hlen; simp at hlen
      | cons c cs =>
        have hc := hne c (List.mem_reverse.mp (by rw [hr]; simp))
        rw [hr] at hp
        simp only [parseInt, if_neg hc.2, hp, Option.map_some]
    · exact ⟨_, .inl rfl, lsdChars_canonical hb hb' _⟩
    · intro j hj
      rw [List.length_reverse] at hj
      exact h4 j (by omega)

/-- The exception: -2147483648 with a 32-bit `long` is a signed overflow. -/
theorem C51_fails : ¬ ItoaRight false 0x80000000 10 := by
  intro h
  obtain ⟨b, cs, h1, -⟩ := h (fun _ => 0)
  have : itoa false 0x80000000 10 (fun _ => 0) = .error .intOverflow := by rfl
  rw [this] at h1
  cases h1

/-- Bases 0 and 1 are not usable. -/
theorem C51_base0 {long64 : Bool} {value : UInt32} (hv : value ≠ 0) (buf : Nat → UInt8) :
    itoa long64 value 0 buf = .error .divZero := by
  have h0 : value.toNat ≠ 0 := fun h => hv (UInt32.toNat_inj.mp h)
  unfold itoa
  simp [h0]
  unfold itoaLoop
  simp [h0]

theorem C51_base1 {long64 : Bool} {value : UInt32} (hv : value ≠ 0) (buf : Nat → UInt8) :
    itoa long64 value 1 buf = .error .noReturn := by
  have h0 : value.toNat ≠ 0 := fun h => hv (UInt32.toNat_inj.mp h)
  unfold itoa
  simp [h0]
  unfold itoaLoop
  simp [h0]

/-- -255 in base 10, 255 in base 16 and 36. -/
example : (itoa true 0xFFFFFF01 10 (fun _ => 0xAA)).toOption.map (fun b => (List.range 6).map b) =
    some [45, 50, 53, 53, 0, 0xAA] := by decide +kernel
example : (itoa true 255 16 (fun _ => 0xAA)).toOption.map (fun b => (List.range 4).map b) = some [70, 70, 0, 0xAA] := by decide +kernel
example : (itoa true 255 36 (fun _ => 0xAA)).toOption.map (fun b => (List.range 4).map b) = some [55, 51, 0, 0xAA] := by decide +kernel

end Xcp
