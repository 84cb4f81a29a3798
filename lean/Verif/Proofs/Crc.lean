import Verif.Spec.Crc
import Verif.Model.Checksum
import Verif.Proofs.Bits
/-
The table-driven loops of src/xcp_checksum.c compute polynomial remainders.
-/
set_option autoImplicit false
namespace Xcp
open Spec

/-! Long division and the shift register -/

@[simp] theorem xorOnto_nil (l : List Bool) : xorOnto l [] = l := by cases l <;> rfl

@[simp] theorem xorOnto_length (l m : List Bool) : (xorOnto l m).length = l.length := by
  induction l generalizing m with
  | nil => cases m <;> rfl
  | cons a l ih => cases m with
    | nil => rfl
    | cons b m => simp [xorOnto, ih]

theorem xorOnto_assoc (l a b : List Bool) (h : b.length ≤ a.length) :
    xorOnto (xorOnto l a) b = xorOnto l (xorOnto a b) := by
  induction l generalizing a b with
  | nil => cases a <;> cases b <;> rfl
  | cons x l ih => cases a with
    | nil => cases b with
      | nil => rfl
      | cons _ _ => simp at h
    | cons y a => cases b with
      | nil => simp
      | cons z b => simp only [xorOnto, Bool.xor_assoc]; rw [ih _ _ (by simpa using h)]

theorem xorOnto_replicate (r : List Bool) : xorOnto (List.replicate r.length false) r = r := by
  induction r with
  | nil => rfl
  | cons a r ih => simp [List.replicate_succ, xorOnto, ih]

theorem xorOnto_append_false (l r : List Bool) : xorOnto l (r ++ [false]) = xorOnto l r := by
  induction l generalizing r with
  | nil => cases r <;> rfl
  | cons x l ih => cases r with
    | nil => simp [xorOnto]
    | cons y r => simp [xorOnto, ih]

/-- One bit through the shift register. -/
def lfsrL (p r : List Bool) (b : Bool) : List Bool :=
  match r with
  | [] => []
  | h :: t => if h ^^ b then xorOnto (t ++ [false]) p else t ++ [false]

theorem lfsrL_length (p r : List Bool) (b : Bool) : (lfsrL p r b).length = r.length := by
  cases r with
  | nil => rfl
  | cons h t => simp only [lfsrL]; split <;> simp

theorem polyRem_lfsr (p r m : List Bool) (hp : p.length = r.length) :
    polyRem p m.length (xorOnto (m ++ List.replicate r.length false) r) = m.foldl (lfsrL p) r := by
  induction m generalizing r with
  | nil => simp [polyRem, xorOnto_replicate]
  | cons b m ih =>
    cases r with
    | nil =>
      cases p with
      | cons _ _ => simp at hp
      | nil =>
        have : ∀ n, ∀ l : List Bool, l.length = n → polyRem [] n l = [] := by
          intro n; induction n with
          | zero => intro l hl; simpa [polyRem] using hl
          | succ n ih =>
            intro l hl
            cases l with
            | nil => simp at hl
            | cons x l => cases x <;> simp only [polyRem, divStep, xorOnto_nil] <;> exact ih l (by simpa using hl)
        have hf : ∀ l : List Bool, l.foldl (lfsrL []) [] = [] := by
          intro l; induction l with
          | nil => rfl
          | cons _ _ ih => simpa [lfsrL] using ih
        rw [hf, this _ _ (by simp)]
    | cons h t =>
      rw [List.foldl_cons, ← ih _ (by rw [lfsrL_length]; exact hp), lfsrL_length]
      simp only [List.cons_append, xorOnto, List.length_cons, polyRem]
      congr 1
      simp only [lfsrL, Bool.xor_comm h b]
      cases (b ^^ h) with
      | false => simp [divStep, xorOnto_append_false]
      | true =>
        simp only [divStep, if_true]
        rw [← xorOnto_assoc _ _ _ (by simp at hp ⊢; omega), xorOnto_append_false]

/-! The shift register on machine words -/

/-- One bit through the shift register held in a word. -/
def lfsrV {w : Nat} (p r : BitVec w) (b : Bool) : BitVec w :=
  (r <<< 1) ^^^ (if r.msb ^^ b then p else 0#w)

/-- Bits of a word, highest first. -/
def vbits {w : Nat} (v : BitVec w) : List Bool := (List.range w).map fun i => v.getMsbD i

@[simp] theorem vbits_length {w : Nat} (v : BitVec w) : (vbits v).length = w := by simp [vbits]

theorem digits_length (w n : Nat) : (digits w n).length = w := by simp [digits]

theorem vbits_ofNat (w n : Nat) : vbits (BitVec.ofNat w n) = digits w n := by
  unfold vbits digits
  apply List.map_congr_left
  intro i hi
  have : i < w := by simpa using hi
  simp [BitVec.getMsbD, BitVec.getLsbD_ofNat, this]
  omega

theorem vbits_digits {w : Nat} (v : BitVec w) : vbits v = digits w v.toNat := by
  rw [← vbits_ofNat]; simp

theorem xorOnto_getElem (l m : List Bool) (h : m.length = l.length) (i : Nat) (hi : i < l.length) :
    (xorOnto l m)[i]'(by simpa using hi) = (l[i] ^^ m[i]'(by omega)) := by
  induction l generalizing m i with
  | nil => simp at hi
  | cons a l ih => cases m with
    | nil => simp at h
    | cons b m => cases i with
      | zero => simp [xorOnto]
      | succ i => simp only [xorOnto, List.getElem_cons_succ]; exact ih m (by simpa using h) i (by simpa using hi)

theorem vbits_lfsr {w : Nat} (p r : BitVec w) (b : Bool) :
    vbits (lfsrV p r b) = lfsrL (vbits p) (vbits r) b := by
  cases w with
  | zero => rfl
  | succ w =>
    have e : vbits r = r.msb :: (List.range w).map (fun i => r.getMsbD (i + 1)) := by
      simp [vbits, List.range_succ_eq_map, BitVec.msb, Function.comp_def]
    have e2 : vbits (r <<< 1) = (List.range w).map (fun i => r.getMsbD (i + 1)) ++ [false] := by
      simp only [vbits, List.range_succ, List.map_append, List.map_cons, List.map_nil]
      congr 1
      · apply List.map_congr_left
        intro i hi
        have : i < w := by simpa using hi
        simp [BitVec.getMsbD_shiftLeft]
      · simp [BitVec.getMsbD_shiftLeft]
    rw [e]
    simp only [lfsrL, lfsrV, ← e2]
    cases (r.msb ^^ b) with
    | false => simp
    | true =>
      simp only [if_true]
      apply List.ext_getElem
      · simp
      · intro i h1 h2
        rw [xorOnto_getElem _ _ (by simp) i (by simpa using h2)]
        simp only [vbits, List.getElem_map, List.getElem_range, BitVec.getMsbD_xor]

theorem vbits_foldl {w : Nat} (p r : BitVec w) (m : List Bool) :
    vbits (m.foldl (lfsrV p) r) = m.foldl (lfsrL (vbits p)) (vbits r) := by
  induction m generalizing r with
  | nil => rfl
  | cons b m ih => simp only [List.foldl_cons, ih, vbits_lfsr]

/-- Long division, in a shift register. -/
theorem polyRem_word (w poly init : Nat) (m : List Bool) :
    polyRem (digits w poly) m.length (xorOnto (m ++ List.replicate w false) (digits w init)) =
      vbits (m.foldl (lfsrV (BitVec.ofNat w poly)) (BitVec.ofNat w init)) := by
  rw [vbits_foldl, vbits_ofNat, vbits_ofNat]
  have := polyRem_lfsr (digits w poly) (digits w init) m (by simp [digits_length])
  rwa [digits_length] at this

theorem lfsrV_xor {w : Nat} (p r r' : BitVec w) (b b' : Bool) :
    lfsrV p (r ^^^ r') (b ^^ b') = lfsrV p r b ^^^ lfsrV p r' b' := by
  unfold lfsrV
  rw [BitVec.shiftLeft_xor_distrib, BitVec.msb_xor]
  apply BitVec.eq_of_getLsbD_eq
  intro i hi
  simp only [BitVec.getLsbD_xor]
  generalize (r <<< 1).getLsbD i = x
  generalize (r' <<< 1).getLsbD i = y
  generalize r.msb = u; generalize r'.msb = v
  cases u <;> cases v <;> cases b <;> cases b' <;> simp <;>
    (try generalize p.getLsbD i = z) <;> (try revert x y) <;> (try revert z) <;> decide

theorem foldl_lfsrV_xor {w : Nat} (p : BitVec w) (m m' : List Bool) (h : m.length = m'.length) (r r' : BitVec w) :
    (xorOnto m m').foldl (lfsrV p) (r ^^^ r') = m.foldl (lfsrV p) r ^^^ m'.foldl (lfsrV p) r' := by
  induction m generalizing m' r r' with
  | nil => cases m' with
    | nil => rfl
    | cons _ _ => simp at h
  | cons b m ih => cases m' with
    | nil => simp at h
    | cons b' m' =>
      simp only [xorOnto, List.foldl_cons, lfsrV_xor]
      exact ih m' (by simpa using h) _ _

/-- Feeding the top bits of the register back clears them without feedback. -/
theorem foldl_lfsrV_top {w : Nat} (p : BitVec w) (k : Nat) (r : BitVec w) :
    ((List.range k).map fun i => r.getMsbD i).foldl (lfsrV p) r = r <<< k := by
  induction k generalizing r with
  | zero => simp
  | succ k ih =>
    rw [List.range_succ_eq_map]
    simp only [List.map_cons, List.map_map, List.foldl_cons]
    have h0 : lfsrV p r (r.getMsbD 0) = r <<< 1 := by simp [lfsrV, BitVec.msb]
    rw [h0]
    have : (List.range k).map ((fun i => r.getMsbD i) ∘ Nat.succ) =
        (List.range k).map (fun i => (r <<< 1).getMsbD i) := by
      apply List.map_congr_left
      intro i hi
      have : i < k := by simpa using hi
      simp only [Function.comp, BitVec.getMsbD_shiftLeft]
    rw [this, ih, ← BitVec.shiftLeft_add, Nat.add_comm]

/-- Eight bits at once. -/
theorem foldl_lfsrV_byte {w : Nat} (p r : BitVec w) (b hi : List Bool) (hb : b.length = 8)
    (hh : hi = (List.range 8).map fun i => r.getMsbD i) :
    b.foldl (lfsrV p) r = (r <<< 8) ^^^ (xorOnto b hi).foldl (lfsrV p) 0#w := by
  have hl : hi.length = 8 := by simp [hh]
  have e : b = xorOnto hi (xorOnto b hi) := by
    apply List.ext_getElem
    · simp [hl, hb]
    · intro i h1 h2
      rw [xorOnto_getElem _ _ (by simp [hl, hb]) i (by omega), xorOnto_getElem _ _ (by omega) i (by omega)]
      generalize b[i] = x
      generalize hi[i] = y
      revert x y; decide
  have h2 := foldl_lfsrV_xor p hi (xorOnto b hi) (by simp [hl, hb]) r 0#w
  rw [← e, BitVec.xor_zero] at h2
  rw [h2, hh, foldl_lfsrV_top]

/-! Digits -/

theorem ofDigits_append (l : List Bool) (b : Bool) : ofDigits (l ++ [b]) = 2 * ofDigits l + b.toNat := by
  simp [ofDigits, List.foldl_append]

theorem digits_succ (w n : Nat) : digits (w + 1) n = digits w (n / 2) ++ [n.testBit 0] := by
  unfold digits
  rw [List.range_succ, List.map_append]
  congr 1
  · apply List.map_congr_left
    intro i hi
    have : i < w := by simpa using hi
    rw [Nat.testBit_div_two]
    congr 1; omega
  · simp

theorem ofDigits_digits (w n : Nat) (h : n < 2 ^ w) : ofDigits (digits w n) = n := by
  induction w generalizing n with
  | zero => simp at h; subst h; rfl
  | succ w ih =>
    rw [digits_succ, ofDigits_append, ih (n / 2) (by rw [Nat.pow_succ] at h; omega)]
    have : (n.testBit 0).toNat = n % 2 := by
      rw [Nat.testBit_zero]
      rcases Nat.mod_two_eq_zero_or_one n with h | h <;> simp [h]
    omega

/-! Bytes and tables -/

theorem digits_xor (w a b : Nat) : xorOnto (digits w a) (digits w b) = digits w (a ^^^ b) := by
  apply List.ext_getElem
  · simp [digits_length]
  · intro i h1 h2
    rw [xorOnto_getElem _ _ (by simp [digits_length]) i (by simpa using h1)]
    simp only [digits, List.getElem_map, List.getElem_range, Nat.testBit_xor]

/-- The tables of the 16-bit checksums are right: entry `i` is the remainder of byte `i`. -/
def Tab16 (poly : Nat) (tab : List UInt16) : Prop :=
  ∀ i : UInt8, (tab.getD i.toNat 0).toBitVec = (digits 8 i.toNat).foldl (lfsrV (BitVec.ofNat 16 poly)) 0#16

theorem tab16_citt : Tab16 0x1021 cittTab := forall_u8 (by decide +kernel)
theorem tab16_arc : Tab16 0x8005 crc16Tab := forall_u8 (by decide +kernel)

theorem crcStep16_lfsr {poly : Nat} {tab : List UInt16} (h : Tab16 poly tab) (r : UInt16) (b : UInt8) :
    (crcStep16 tab r b).toBitVec = (digits 8 b.toNat).foldl (lfsrV (BitVec.ofNat 16 poly)) r.toBitVec := by
  rw [foldl_lfsrV_byte _ _ _ (digits 8 (r >>> 8).toUInt8.toNat) (digits_length _ _), digits_xor]
  · unfold crcStep16
    rw [UInt16.toBitVec_xor, h, UInt8.toNat_xor, BitVec.xor_comm]
    congr 1
  · unfold digits
    apply List.map_congr_left
    intro i hi
    have : i < 8 := by simpa using hi
    have e : (r >>> 8).toUInt8.toNat = r.toBitVec.toNat / 2 ^ 8 % 2 ^ 8 := by
      simp [Nat.shiftRight_eq_div_pow]
    rw [e, Nat.testBit_mod_two_pow, Nat.testBit_div_two_pow, BitVec.testBit_toNat]
    simp only [BitVec.getMsbD]
    rw [show 8 - 1 - i + 8 = 16 - 1 - i by omega]
    simp [show 8 - 1 - i < 8 by omega, show i < 16 by omega]

theorem crc16_foldl {poly : Nat} {tab : List UInt16} (h : Tab16 poly tab) (l : List UInt8) (r : UInt16) :
    (l.foldl (crcStep16 tab) r).toBitVec =
      (l.flatMap fun b => digits 8 b.toNat).foldl (lfsrV (BitVec.ofNat 16 poly)) r.toBitVec := by
  induction l generalizing r with
  | nil => rfl
  | cons b l ih => simp only [List.foldl_cons, List.flatMap_cons, List.foldl_append, ih, crcStep16_lfsr h]

/-! Reflection -/

theorem reflect_foldl (x n k j : Nat) (hk : k ≤ n) :
    ((List.range k).foldl (fun r i => if x / 2 ^ i % 2 = 1 then r ||| 2 ^ (n - 1 - i) else r) 0).testBit j =
      (decide (n - k ≤ j ∧ j < n) && x.testBit (n - 1 - j)) := by
  induction k with
  | zero => simp; omega
  | succ k ih =>
    rw [List.range_succ, List.foldl_append]
    simp only [List.foldl_cons, List.foldl_nil]
    have hx : (x / 2 ^ k % 2 = 1) ↔ x.testBit k = true := by
      simp [Nat.testBit, Nat.shiftRight_eq_div_pow, Nat.and_comm 1, Nat.and_one_is_mod]
    by_cases hj : j = n - 1 - k
    · have e : n - 1 - j = k := by omega
      by_cases hc : x.testBit k = true
      · rw [if_pos (hx.mpr hc)]
        rw [Nat.testBit_or, e, hc, hj, Nat.testBit_two_pow_self, Bool.or_true, Bool.and_true]
        exact (decide_eq_true (by omega)).symm
      · rw [if_neg (by rwa [hx]), ih (by omega), e]
        simp [hc]
    · have : decide (n - k ≤ j ∧ j < n) = decide (n - (k + 1) ≤ j ∧ j < n) := by
        apply decide_eq_decide.mpr; omega
      rw [← this]
      split
      · rw [Nat.testBit_or, ih (by omega), Nat.testBit_two_pow]
        simp [show ¬ (n - 1 - k = j) by omega]
      · rw [ih (by omega)]

/-- `reflect` reads the digits backwards. -/
theorem reflect_digits (x n : Nat) : digits n (reflect x n) = (digits n x).reverse := by
  unfold digits reflect
  apply List.ext_getElem
  · simp
  · intro i h1 h2
    have hi : i < n := by simpa using h1
    simp only [List.getElem_map, List.getElem_range, List.getElem_reverse, List.length_map, List.length_range]
    rw [reflect_foldl _ _ _ _ (Nat.le_refl _)]
    simp; omega

theorem reflect_lt (x n : Nat) : reflect x n < 2 ^ n := by
  apply Nat.lt_pow_two_of_testBit
  intro i hi
  unfold reflect
  rw [reflect_foldl _ _ _ _ (Nat.le_refl _)]
  simp; omega

theorem reflect8_digits (b : UInt8) : digits 8 (reflect8 b).toNat = (digits 8 b.toNat).reverse := by
  rw [← reflect_digits]
  congr 1
  simpa [reflect8] using Nat.mod_eq_of_lt (reflect_lt b.toNat 8)

theorem reflect_ofDigits (x n : Nat) : reflect x n = ofDigits (digits n x).reverse := by
  rw [← reflect_digits, ofDigits_digits _ _ (reflect_lt x n)]

end Xcp
