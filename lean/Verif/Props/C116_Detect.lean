import Verif.Props.C41_Crc32
import Verif.Props.C46_ModifyBits
import Verif.Model.Example
/-
C116: checksums notice changed memory.
-/
set_option autoImplicit false
namespace Xcp
open Spec

/-! Specification -/

/-- The bits of a message in the order in which a cyclic redundancy check takes them. -/
def Spec.bitsOf (refl : Bool) (msg : List UInt8) : List Bool :=
  msg.flatMap fun b => if refl then (digits 8 b.toNat).reverse else digits 8 b.toNat

/-- Whether the number of ones is odd. -/
def Spec.oddOnes : List Bool → Bool
  | [] => false
  | b :: l => b ^^ oddOnes l

/-- How many bytes of a block of `n` bytes a method counts: the ADD methods count whole
summands. -/
def Spec.counted (m : CkMethod) (n : Nat) : Nat :=
  match addSizes m with
  | some (k, _) => k * (n / k)
  | none => n

example : bitsOf false [0x80, 0x01] = [true, false, false, false, false, false, false, false,
    false, false, false, false, false, false, false, true] := by decide +kernel
example : oddOnes (bitsOf true [0x80, 0x03]) = true := by decide +kernel
example : counted .add24 7 = 6 ∧ counted .add44 7 = 4 ∧ counted .crc16 7 = 7 := by decide +kernel

/-! Shift registers -/

theorem xorOnto_snoc (t q : List Bool) (h : t.length = q.length) (a b : Bool) :
    xorOnto (t ++ [a]) (q ++ [b]) = xorOnto t q ++ [a ^^ b] := by
  induction t generalizing q with
  | nil => cases q with
    | nil => rfl
    | cons _ _ => simp at h
  | cons x t ih => cases q with
    | nil => simp at h
    | cons y q => simp only [List.cons_append, xorOnto]; rw [ih q (by simpa using h)]

theorem xorOnto_short (t m : List Bool) (h : m.length ≤ t.length) (a : Bool) :
    xorOnto (t ++ [a]) m = xorOnto t m ++ [a] := by
  induction t generalizing m with
  | nil => cases m with
    | nil => rfl
    | cons _ _ => simp at h
  | cons x t ih => cases m with
    | nil => simp
    | cons y m => simp only [List.cons_append, xorOnto]; rw [ih m (by simpa using h)]

theorem xorOnto_comm (t q m : List Bool) : xorOnto (xorOnto t q) m = xorOnto (xorOnto t m) q := by
  induction t generalizing q m with
  | nil => cases q <;> cases m <;> rfl
  | cons x t ih => cases q with
    | nil => simp
    | cons y q => cases m with
      | nil => simp
      | cons z m => simp only [xorOnto]; rw [ih, Bool.xor_assoc, Bool.xor_comm y z, Bool.xor_assoc]

theorem xorOnto_cancel (t t' q : List Bool) (h : xorOnto t q = xorOnto t' q) : t = t' := by
  induction q generalizing t t' with
  | nil => simpa using h
  | cons y q ih => cases t with
    | nil => cases t' with
      | nil => rfl
      | cons _ _ => simp [xorOnto] at h
    | cons x t => cases t' with
      | nil => simp [xorOnto] at h
      | cons x' t' =>
        simp only [xorOnto, List.cons.injEq] at h
        rw [ih t t' h.2, show x = x' by revert h; cases x <;> cases x' <;> cases y <;> simp]

theorem xorOnto_inj (r m m' : List Bool) (hl : m.length = m'.length) (hr : m.length ≤ r.length)
    (h : xorOnto r m = xorOnto r m') : m = m' := by
  induction r generalizing m m' with
  | nil =>
    have e : m = [] := by simpa using hr
    subst e
    exact (List.length_eq_zero_iff.mp hl.symm).symm
  | cons x r ih => cases m with
    | nil => exact (List.length_eq_zero_iff.mp hl.symm).symm
    | cons y m => cases m' with
      | nil => simp at hl
      | cons y' m' =>
        simp only [xorOnto, List.cons.injEq] at h
        rw [ih m m' (by simpa using hl) (by simpa using hr) h.2,
          show y = y' by revert h; cases x <;> cases y <;> cases y' <;> simp]

theorem lfsrL_snoc (q t : List Bool) (h : t.length = q.length) (x b : Bool) :
    lfsrL (q ++ [true]) (x :: t) b = (if x ^^ b then xorOnto t q else t) ++ [x ^^ b] := by
  simp only [lfsrL]
  cases x ^^ b with
  | false => rfl
  | true => simp only [if_true]; rw [xorOnto_snoc t q h]; rfl

/-- Equal registers at the end: the registers at the start differ in their leading bits, and
there as the messages do. -/
theorem lfsrL_back (q : List Bool) : ∀ (m m' r r' : List Bool), m.length = m'.length → m.length ≤ q.length + 1 →
    r.length = q.length + 1 → r'.length = q.length + 1 →
    m.foldl (lfsrL (q ++ [true])) r = m'.foldl (lfsrL (q ++ [true])) r' → xorOnto r m = xorOnto r' m'
  | [], [], r, r', _, _, _, _, h => by simpa using h
  | [], _ :: _, _, _, h, _, _, _, _ => by simp at h
  | _ :: _, [], _, _, h, _, _, _, _ => by simp at h
  | _ :: _, _ :: _, [], _, _, _, h, _, _ => by simp at h
  | _ :: _, _ :: _, _ :: _, [], _, _, _, h, _ => by simp at h
  | b :: m, b' :: m', x :: t, x' :: t', hl, hm, hr, hr', h => by
      have hl : m.length = m'.length := by simpa using hl
      have hm : m.length ≤ q.length := by simpa using hm
      have ht : t.length = q.length := by simpa using hr
      have ht' : t'.length = q.length := by simpa using hr'
      rw [List.foldl_cons, List.foldl_cons] at h
      have ih := lfsrL_back q m m' _ _ hl (by omega) (by rw [lfsrL_length]; simp [ht])
        (by rw [lfsrL_length]; simp [ht']) h
      rw [lfsrL_snoc q t ht, lfsrL_snoc q t' ht', xorOnto_short _ _ (by split <;> simp [ht, hm]),
        xorOnto_short _ _ (by split <;> simp [ht', ← hl, hm])] at ih
      have hc : (x ^^ b) = (x' ^^ b') := by simpa using (List.append_inj_right' ih rfl)
      have hx := List.append_inj_left' ih rfl
      simp only [xorOnto, hc]
      rw [hc] at hx
      congr 1
      revert hx
      cases x' ^^ b' with
      | false => simp
      | true =>
        simp only [if_true]
        rw [xorOnto_comm t, xorOnto_comm t']
        exact xorOnto_cancel _ _ _

theorem lfsrL_foldl_length (p m r : List Bool) : (m.foldl (lfsrL p) r).length = r.length := by
  induction m generalizing r with
  | nil => rfl
  | cons b m ih => rw [List.foldl_cons, ih, lfsrL_length]

theorem lfsrL_burst (q r : List Bool) (hr : r.length = q.length + 1) (m m' v : List Bool) (hl : m.length = m'.length)
    (hm : m.length ≤ q.length + 1)
    (h : (m ++ v).foldl (lfsrL (q ++ [true])) r = (m' ++ v).foldl (lfsrL (q ++ [true])) r) : m = m' := by
  rw [List.foldl_append, List.foldl_append] at h
  have hv : m.foldl (lfsrL (q ++ [true])) r = m'.foldl (lfsrL (q ++ [true])) r := by
    have h1 := lfsrL_foldl_length (q ++ [true]) m r
    have h2 := lfsrL_foldl_length (q ++ [true]) m' r
    generalize m.foldl (lfsrL (q ++ [true])) r = s at h h1 ⊢
    generalize m'.foldl (lfsrL (q ++ [true])) r = s' at h h2 ⊢
    rw [hr] at h1 h2
    clear hl hm
    induction v generalizing s s' with
    | nil => exact h
    | cons b v ih =>
      have e := ih (lfsrL (q ++ [true]) s b) (by rw [lfsrL_length]; exact h1) (lfsrL (q ++ [true]) s' b) h (by rw [lfsrL_length]; exact h2)
      exact xorOnto_cancel _ _ _ (lfsrL_back q [b] [b] s s' rfl (by simp) h1 h2 e)
  exact xorOnto_inj r m m' hl (by omega) (lfsrL_back q m m' r r hl hm hr hr hv)

/-! Cyclic redundancy checks -/

theorem ofDigits_inj : ∀ (n : Nat) (l l' : List Bool), l.length = n → l'.length = n → ofDigits l = ofDigits l' → l = l' := by
  intro n
  induction n with
  | zero => intro l l' h h' _; rw [List.length_eq_zero_iff.mp h, List.length_eq_zero_iff.mp h']
  | succ n ih =>
    intro l l' h h' e
    obtain ⟨a, x, rfl⟩ : ∃ a x, l = a ++ [x] := ⟨_, _, (List.dropLast_concat_getLast (by intro h0; simp [h0] at h)).symm⟩
    obtain ⟨a', x', rfl⟩ : ∃ a x, l' = a ++ [x] := ⟨_, _, (List.dropLast_concat_getLast (by intro h0; simp [h0] at h')).symm⟩
    rw [ofDigits_append, ofDigits_append] at e
    have hx : x = x' := by cases x <;> cases x' <;> simp at e ⊢ <;> omega
    subst hx
    rw [ih a a' (by simpa using h) (by simpa using h') (by omega)]

theorem crc_reg (w poly init : Nat) (refl : Bool) (xorOut : Nat) (msg : List UInt8) :
    crc w poly init refl xorOut msg =
      ofDigits (if refl then ((bitsOf refl msg).foldl (lfsrL (digits w poly)) (digits w init)).reverse
        else (bitsOf refl msg).foldl (lfsrL (digits w poly)) (digits w init)) ^^^ xorOut := by
  have h := polyRem_lfsr (digits w poly) (digits w init) (bitsOf refl msg) (by simp [digits_length])
  rw [digits_length] at h
  rw [← h]; rfl

theorem crc_reg_inj {w poly init : Nat} {refl : Bool} {xorOut : Nat} {l l' : List UInt8}
    (h : crc w poly init refl xorOut l = crc w poly init refl xorOut l') :
    (bitsOf refl l).foldl (lfsrL (digits w poly)) (digits w init) =
      (bitsOf refl l').foldl (lfsrL (digits w poly)) (digits w init) := by
  rw [crc_reg, crc_reg] at h
  have h := congrArg (· ^^^ xorOut) h
  simp only [Nat.xor_assoc, Nat.xor_self, Nat.xor_zero] at h
  have hl := lfsrL_foldl_length (digits w poly) (bitsOf refl l) (digits w init)
  have hl' := lfsrL_foldl_length (digits w poly) (bitsOf refl l') (digits w init)
  cases refl with
  | false => exact ofDigits_inj _ _ _ hl hl' h
  | true => exact List.reverse_inj.mp (ofDigits_inj _ _ _ (by simpa using hl) (by simpa using hl') h)

/-- A cyclic redundancy check of `w` bits notices every change within `w` consecutive bits. -/
theorem crc_burst {w poly init : Nat} (hw : 0 < w) (hp : poly.testBit 0 = true) {refl : Bool} {xorOut : Nat}
    {l l' : List UInt8} {u m m' v : List Bool} (hb : bitsOf refl l = u ++ m ++ v) (hb' : bitsOf refl l' = u ++ m' ++ v)
    (hl : m.length = m'.length) (hm : m.length ≤ w) (hne : m ≠ m') :
    crc w poly init refl xorOut l ≠ crc w poly init refl xorOut l' := by
  intro h
  have h := crc_reg_inj h
  obtain ⟨w, rfl⟩ : ∃ n, w = n + 1 := ⟨w - 1, by omega⟩
  rw [hb, hb', List.append_assoc, List.append_assoc, List.foldl_append (l := u), List.foldl_append (l := u), digits_succ w poly, hp] at h
  refine hne (lfsrL_burst (digits w (poly / 2)) _ ?_ m m' v hl (by simpa [digits_length] using hm) h)
  rw [lfsrL_foldl_length, digits_length, digits_length]

theorem oddOnes_append (l m : List Bool) : oddOnes (l ++ m) = (oddOnes l ^^ oddOnes m) := by
  induction l with
  | nil => simp [oddOnes]
  | cons a l ih => simp [oddOnes, ih]

theorem oddOnes_xorOnto (l m : List Bool) (h : m.length ≤ l.length) : oddOnes (xorOnto l m) = (oddOnes l ^^ oddOnes m) := by
  induction l generalizing m with
  | nil => cases m with
    | nil => rfl
    | cons _ _ => simp at h
  | cons a l ih => cases m with
    | nil => simp [oddOnes]
    | cons b m =>
      simp only [xorOnto, oddOnes, ih m (by simpa using h)]
      cases a <;> cases b <;> simp

theorem oddOnes_lfsrL (p : List Bool) (hp : oddOnes p = true) (r : List Bool) (h0 : r ≠ []) (hl : p.length = r.length)
    (b : Bool) : oddOnes (lfsrL p r b) = (oddOnes r ^^ b) := by
  cases r with
  | nil => exact absurd rfl h0
  | cons x t =>
    simp only [lfsrL]
    cases hx : x ^^ b with
    | false =>
      simp only [Bool.false_eq_true, if_false, oddOnes_append, oddOnes]
      revert hx; cases x <;> cases b <;> simp
    | true =>
      simp only [if_true]
      rw [oddOnes_xorOnto _ _ (by simpa using Nat.le_of_eq hl), oddOnes_append, hp]
      simp only [oddOnes]
      revert hx; cases x <;> cases b <;> simp

theorem oddOnes_reg (p : List Bool) (hp : oddOnes p = true) (m r : List Bool) (h0 : r ≠ []) (hl : p.length = r.length) :
    oddOnes (m.foldl (lfsrL p) r) = (oddOnes r ^^ oddOnes m) := by
  induction m generalizing r with
  | nil => simp [oddOnes]
  | cons b m ih =>
    have hlen := lfsrL_length p r b
    rw [List.foldl_cons, ih _ (by intro h; rw [h] at hlen; exact h0 (List.length_eq_zero_iff.mp hlen.symm)) (by omega),
      oddOnes_lfsrL p hp r h0 hl]
    simp [oddOnes]

/-- A cyclic redundancy check whose polynomial has an even number of terms notices every
change of an odd number of bits. -/
theorem crc_odd {w poly init : Nat} (hw : 0 < w) (hp : oddOnes (digits w poly) = true) {refl : Bool} {xorOut : Nat}
    {l l' : List UInt8} (hne : oddOnes (bitsOf refl l) ≠ oddOnes (bitsOf refl l')) :
    crc w poly init refl xorOut l ≠ crc w poly init refl xorOut l' := by
  intro h
  have h := congrArg oddOnes (crc_reg_inj h)
  have h0 : digits w init ≠ [] := by
    intro h0; have := digits_length w init; rw [h0] at this; simp at this; omega
  rw [oddOnes_reg _ hp _ _ h0 (by simp [digits_length]), oddOnes_reg _ hp _ _ h0 (by simp [digits_length])] at h
  revert h hne
  cases oddOnes (digits w init) <;> cases oddOnes (bitsOf refl l) <;> cases oddOnes (bitsOf refl l') <;> simp

/-! The methods -/

theorem bitsOf_append (refl : Bool) (a b : List UInt8) : bitsOf refl (a ++ b) = bitsOf refl a ++ bitsOf refl b := by
  simp [bitsOf]

theorem bitsOf_length (refl : Bool) (a : List UInt8) : (bitsOf refl a).length = 8 * a.length := by
  induction a with
  | nil => rfl
  | cons x a ih =>
    rw [show x :: a = [x] ++ a from rfl, bitsOf_append, List.length_append, ih]
    cases refl <;> simp [bitsOf, digits_length] <;> omega

theorem digits8_inj {x y : UInt8} (h : digits 8 x.toNat = digits 8 y.toNat) : x = y := by
  have h := congrArg ofDigits h
  rw [ofDigits_digits _ _ x.toNat_lt, ofDigits_digits _ _ y.toNat_lt] at h
  exact UInt8.toNat_inj.mp h

theorem bitsOf_inj (refl : Bool) : ∀ (a b : List UInt8), a.length = b.length → bitsOf refl a = bitsOf refl b → a = b
  | [], [], _, _ => rfl
  | [], _ :: _, h, _ => by simp at h
  | _ :: _, [], h, _ => by simp at h
  | x :: a, y :: b, hl, h => by
      rw [show x :: a = [x] ++ a from rfl, show y :: b = [y] ++ b from rfl, bitsOf_append, bitsOf_append] at h
      have h1 := List.append_inj_left h (by simp [bitsOf_length])
      have h2 := List.append_inj_right h (by simp [bitsOf_length])
      rw [bitsOf_inj refl a b (by simpa using hl) h2]
      have : x = y := by
        cases refl with
        | false => exact digits8_inj (by simpa [bitsOf] using h1)
        | true => exact digits8_inj (by simpa [bitsOf] using h1)
      rw [this]

/-- The order in which the 16-bit methods take the bits of a byte. -/
def Spec.lowFirst : CkMethod → Bool
  | .crc16 => true
  | _ => false

/-- C116: the 16-bit cyclic redundancy checks notice every change that is confined to 16
consecutive bits. -/
theorem C116_burst {m : CkMethod} (hm : m = .crc16 ∨ m = .crc16citt) {block block' : List UInt8} {u e e' v : List Bool}
    (hb : bitsOf (lowFirst m) block = u ++ e ++ v) (hb' : bitsOf (lowFirst m) block' = u ++ e' ++ v)
    (hl : e.length = e'.length) (h16 : e.length ≤ 16) (hne : e ≠ e') :
    calcChecksum m block 0 true ≠ calcChecksum m block' 0 true := by
  rcases hm with rfl | rfl
  · rw [calc_arc, calc_arc]
    exact crc_burst (by omega) (by decide) hb hb' hl h16 hne
  · rw [calc_citt, calc_citt]
    exact crc_burst (by omega) (by decide) hb hb' hl h16 hne

/-- C116: they notice every change of two neighbouring bytes. -/
theorem C116_pair {m : CkMethod} (hm : m = .crc16 ∨ m = .crc16citt) (a b : List UInt8) (x y x' y' : UInt8)
    (hne : (x, y) ≠ (x', y')) :
    calcChecksum m (a ++ [x, y] ++ b) 0 true ≠ calcChecksum m (a ++ [x', y'] ++ b) 0 true := by
  refine C116_burst hm (u := bitsOf (lowFirst m) a) (v := bitsOf (lowFirst m) b) (by rw [bitsOf_append, bitsOf_append])
    (by rw [bitsOf_append, bitsOf_append]) (by simp [bitsOf_length]) (by simp [bitsOf_length]) ?_
  intro h
  have := bitsOf_inj _ [x, y] [x', y'] rfl h
  simp only [List.cons.injEq, and_true] at this
  exact hne (by rw [this.1, this.2])

/-- C116: they notice every change of an odd number of bits. -/
theorem C116_odd {m : CkMethod} (hm : m = .crc16 ∨ m = .crc16citt) {block block' : List UInt8}
    (hne : oddOnes (bitsOf (lowFirst m) block) ≠ oddOnes (bitsOf (lowFirst m) block')) :
    calcChecksum m block 0 true ≠ calcChecksum m block' 0 true := by
  rcases hm with rfl | rfl
  · rw [calc_arc, calc_arc]
    exact crc_odd (by omega) (by decide) hne
  · rw [calc_citt, calc_citt]
    exact crc_odd (by omega) (by decide) hne

/-! The 32-bit method -/

theorem reflect_inj {n x y : Nat} (hx : x < 2 ^ n) (hy : y < 2 ^ n) (h : reflect x n = reflect y n) : x = y := by
  have h := congrArg (digits n) h
  rw [reflect_digits, reflect_digits] at h
  have h := congrArg ofDigits (List.reverse_inj.mp h)
  rwa [ofDigits_digits _ _ hx, ofDigits_digits _ _ hy] at h

theorem reflect8_inj {x y : UInt8} (h : reflect8 x = reflect8 y) : x = y := by
  have h := congrArg UInt8.toNat h
  simp only [reflect8, UInt8.toNat_ofNat', Nat.mod_eq_of_lt (reflect_lt _ 8)] at h
  exact UInt8.toNat_inj.mp (reflect_inj x.toNat_lt y.toNat_lt h)

theorem reflect32_inj {x y : UInt32} (h : reflect32 x = reflect32 y) : x = y := by
  have h := congrArg UInt32.toNat h
  simp only [reflect32, UInt32.toNat_ofNat', Nat.mod_eq_of_lt (reflect_lt _ 32)] at h
  exact UInt32.toNat_inj.mp (reflect_inj x.toNat_lt y.toNat_lt h)

/-- The highest byte of a register. -/
def topByte (r : UInt32) : UInt8 := (r >>> 24).toUInt8

theorem topByte_xor (a b : UInt32) : topByte (a ^^^ b) = topByte a ^^^ topByte b := by
  apply UInt8.toBitVec_inj.mp
  apply BitVec.eq_of_getLsbD_eq
  intro i hi
  simp [topByte, hi]

theorem topByte_narrow (x : UInt16) : topByte x.toUInt32 = 0 := by
  apply UInt8.toNat_inj.mp
  have := x.toNat_lt
  simp [topByte, Nat.shiftRight_eq_div_pow]
  omega

theorem crc32_top (r : UInt32) (b : UInt8) :
    topByte (crcStep32 r b) = topByte (crc32Tab.getD (b ^^^ topByte r).toNat 0) := by
  unfold crcStep32
  rw [topByte_xor, topByte_narrow, UInt8.xor_zero]; rfl

theorem crc32_spread {i j : UInt8} (h : topByte (crc32Tab.getD i.toNat 0) = topByte (crc32Tab.getD j.toNat 0)) :
    i = j := by
  have hl : crc32Tab.length = 256 := by decide +kernel
  have hn : (crc32Tab.map topByte).Nodup := by decide +kernel
  have hi := i.toNat_lt
  have hj := j.toNat_lt
  apply UInt8.toNat_inj.mp
  apply (List.getElem_inj (xs := crc32Tab.map topByte) (h₀ := by simpa [hl] using hi) (h₁ := by simpa [hl] using hj) hn).mp
  rw [List.getElem_map, List.getElem_map]
  rwa [List.getD_eq_getElem?_getD, List.getD_eq_getElem?_getD, List.getElem?_eq_getElem (by omega),
    List.getElem?_eq_getElem (by omega)] at h

theorem xor8_right_cancel {a b c : UInt8} (h : a ^^^ c = b ^^^ c) : a = b := by
  have := congrArg (· ^^^ c) h
  simpa [UInt8.xor_assoc] using this

theorem xor8_left_cancel {a b c : UInt8} (h : c ^^^ a = c ^^^ b) : a = b := by
  rw [UInt8.xor_comm c a, UInt8.xor_comm c b] at h; exact xor8_right_cancel h

theorem crc32_keeps (l : List UInt8) (r r' : UInt32) (h : topByte r ≠ topByte r') :
    topByte (l.foldl (fun r b => crcStep32 r (reflect8 b)) r) ≠ topByte (l.foldl (fun r b => crcStep32 r (reflect8 b)) r') := by
  induction l generalizing r r' with
  | nil => exact h
  | cons b l ih =>
    refine ih _ _ fun e => ?_
    rw [crc32_top, crc32_top] at e
    exact h (xor8_left_cancel (crc32_spread e))

theorem crc32_single (a b : List UInt8) {x y : UInt8} (hne : x ≠ y) :
    calcChecksum .crc32 (a ++ x :: b) 0 true ≠ calcChecksum .crc32 (a ++ y :: b) 0 true := by
  intro h
  simp only [calcChecksum, if_true, List.foldl_append, List.foldl_cons] at h
  have h := congrArg (· ^^^ 0xFFFFFFFF) (UInt32.toNat_inj.mp h)
  simp only [UInt32.xor_assoc, UInt32.xor_self, UInt32.xor_zero] at h
  refine crc32_keeps b _ _ ?_ (congrArg topByte (reflect32_inj h))
  intro e
  rw [crc32_top, crc32_top] at e
  exact hne (reflect8_inj (xor8_right_cancel (crc32_spread e)))

/-! Sums -/

theorem leVal_middle (a c : List UInt8) (x : UInt8) :
    leVal (a ++ x :: c) = leVal a + 256 ^ a.length * (x.toNat + 256 * leVal c) := by
  induction a with
  | nil => simp [leVal]
  | cons y a ih =>
    simp only [List.cons_append, leVal, ih, List.length_cons, Nat.pow_succ]
    rw [Nat.mul_add, ← Nat.mul_assoc, Nat.mul_comm 256 (256 ^ _), Nat.add_assoc]

theorem groups_single (k : Nat) (hk : 0 < k) (a b : List UInt8) (h : a.length < k * ((a.length + 1 + b.length) / k)) :
    ∃ S p, p < k ∧ ∀ x : UInt8, (groups k (a ++ x :: b)).sum = S + 256 ^ p * x.toNat := by
  induction hn : a.length / k generalizing a with
  | zero =>
    have ha : a.length < k := by
      rcases Nat.div_eq_zero_iff.mp hn with h0 | h0
      · omega
      · exact h0
    have hle : k ≤ a.length + 1 + b.length := by
      rcases Nat.lt_or_ge (a.length + 1 + b.length) k with h0 | h0
      · rw [Nat.div_eq_of_lt h0] at h; simp at h
      · exact h0
    refine ⟨leVal a + 256 ^ a.length * (256 * leVal (b.take (k - 1 - a.length))) +
      (groups k (b.drop (k - 1 - a.length))).sum, a.length, ha, fun x => ?_⟩
    have e : a ++ x :: b = (a ++ x :: b.take (k - 1 - a.length)) ++ b.drop (k - 1 - a.length) := by simp
    rw [e, groups_cons k hk _ _ (by simp; omega), List.sum_cons, leVal_middle, Nat.mul_add]
    omega
  | succ n ih =>
    have ha : k ≤ a.length := by
      rcases Nat.lt_or_ge a.length k with h0 | h0
      · rw [Nat.div_eq_of_lt h0] at hn; omega
      · exact h0
    have hd : (a.drop k).length + k = a.length := by simp; omega
    have hdiv : (a.drop k).length / k = n := by
      rw [← hd, Nat.add_div_right _ hk] at hn; omega
    have h2 : (a.length + 1 + b.length) / k = ((a.drop k).length + 1 + b.length) / k + 1 := by
      rw [← Nat.add_div_right _ hk]; congr 1; omega
    rw [h2, Nat.mul_succ] at h
    obtain ⟨S, p, hp, hS⟩ := ih (a.drop k) (by omega) hdiv
    refine ⟨leVal (a.take k) + S, p, hp, fun x => ?_⟩
    have e : a ++ x :: b = a.take k ++ (a.drop k ++ x :: b) := by rw [← List.append_assoc, List.take_append_drop]
    rw [e, groups_cons k hk _ _ (by simp; omega), List.sum_cons, hS, Nat.add_assoc]

theorem add_single {m : CkMethod} {k j : Nat} (hm : addSizes m = some (k, j)) (a b : List UInt8)
    (h : a.length < k * ((a.length + 1 + b.length) / k)) {x y : UInt8} (hne : x ≠ y) :
    calcChecksum m (a ++ x :: b) 0 true ≠ calcChecksum m (a ++ y :: b) 0 true := by
  have hkj : 0 < k ∧ k ≤ j := by
    cases m <;> simp only [addSizes, Option.some.injEq, Prod.mk.injEq, reduceCtorEq] at hm <;> omega
  rw [calc_add hm _ 0 true (Nat.pow_pos (by omega)), calc_add hm _ 0 true (Nat.pow_pos (by omega))]
  obtain ⟨S, p, hp, hS⟩ := groups_single k hkj.1 a b h
  simp only [if_true, Nat.zero_add, hS]
  have hlt : ∀ z : UInt8, 256 ^ p * z.toNat < 256 ^ j := fun z => by
    have h1 : 256 ^ p * z.toNat < 256 ^ p * 256 := Nat.mul_lt_mul_of_pos_left z.toNat_lt (Nat.pow_pos (by omega))
    have h2 : 256 ^ (p + 1) ≤ 256 ^ j := Nat.pow_le_pow_right (by omega) (by omega)
    rw [Nat.pow_succ] at h2; omega
  intro e
  have hx := hlt x; have hy := hlt y
  have : 256 ^ p * x.toNat = 256 ^ p * y.toNat := by
    generalize 256 ^ p * x.toNat = u at e hx ⊢
    generalize 256 ^ p * y.toNat = v at e hy ⊢
    cases m <;> simp only [addSizes, Option.some.injEq, Prod.mk.injEq, reduceCtorEq] at hm <;>
      obtain ⟨rfl, rfl⟩ := hm <;> omega
  exact hne (UInt8.toNat_inj.mp (Nat.eq_of_mul_eq_mul_left (Nat.pow_pos (by omega)) this))

/-- C116: every method notices when one byte that it counts is changed. -/
theorem C116_single (m : CkMethod) (a b : List UInt8) {x y : UInt8} (hne : x ≠ y)
    (h : a.length < counted m (a.length + 1 + b.length)) :
    calcChecksum m (a ++ x :: b) 0 true ≠ calcChecksum m (a ++ y :: b) 0 true := by
  have hcrc : m = .crc16 ∨ m = .crc16citt →
      calcChecksum m (a ++ x :: b) 0 true ≠ calcChecksum m (a ++ y :: b) 0 true := fun hm => by
    refine C116_burst hm (u := bitsOf (lowFirst m) a) (e := bitsOf (lowFirst m) [x]) (e' := bitsOf (lowFirst m) [y])
      (v := bitsOf (lowFirst m) b) ?_ ?_ (by simp [bitsOf_length]) (by simp [bitsOf_length]) ?_
    · rw [← bitsOf_append, ← bitsOf_append]; simp
    · rw [← bitsOf_append, ← bitsOf_append]; simp
    · intro e
      have := bitsOf_inj _ [x] [y] rfl e
      simp only [List.cons.injEq, and_true] at this
      exact hne this
  cases hm : addSizes m with
  | some kj =>
    obtain ⟨k, j⟩ := kj
    simp only [counted, hm] at h
    exact add_single hm a b h hne
  | none =>
    cases m <;> simp only [addSizes, reduceCtorEq] at hm
    · exact hcrc (Or.inl rfl)
    · exact hcrc (Or.inr rfl)
    · exact crc32_single a b hne

/-! The command -/

/-- Two lists that differ at one place only. -/
theorem differ_at {l l' : List UInt8} {i : Nat} (hi : i < l.length) (hl : l.length = l'.length)
    (h : ∀ j, j ≠ i → l[j]? = l'[j]?) :
    ∃ a x y b, l = a ++ x :: b ∧ l' = a ++ y :: b ∧ a.length = i ∧ l[i]? = some x ∧ l'[i]? = some y := by
  refine ⟨l.take i, l[i], l'[i]'(by omega), l.drop (i + 1), by simp, ?_, by simp; omega, by simp [hi], by simp [← hl, hi]⟩
  have h1 : l.take i = l'.take i := by
    apply List.ext_getElem?
    intro j
    simp only [List.getElem?_take]
    split
    · exact h j (by omega)
    · rfl
  have h2 : l.drop (i + 1) = l'.drop (i + 1) := by
    apply List.ext_getElem?
    intro j
    simp only [List.getElem?_drop]
    exact h _ (by omega)
  rw [h1, h2]; simp

theorem calc_lt32 (m : CkMethod) (l : List UInt8) : calcChecksum m l 0 true < 2 ^ 32 := by
  have hadd : ∀ k j, addSizes m = some (k, j) → calcChecksum m l 0 true < 2 ^ 32 := fun k j h => by
    rw [calc_add h l 0 true (Nat.pow_pos (by omega))]
    refine Nat.lt_of_lt_of_le (Nat.mod_lt _ (Nat.pow_pos (by omega))) ?_
    cases m <;> simp only [addSizes, Option.some.injEq, Prod.mk.injEq, reduceCtorEq] at h <;>
      obtain ⟨rfl, rfl⟩ := h <;> decide
  cases m
  case crc16 => exact Nat.lt_of_lt_of_le (UInt16.toNat_lt _) (by decide)
  case crc16citt => exact Nat.lt_of_lt_of_le (UInt16.toNat_lt _) (by decide)
  case crc32 => exact UInt32.toNat_lt _
  all_goals exact hadd _ _ rfl

/-- C116, the command: on two slaves whose memory differs in one counted byte of the block,
BUILD_CHECKSUM gives different answers. -/
theorem C116_command {cfg : Cfg} (hs : ShortOk cfg) (hsup : cfg.supports .buildChecksum = true) (env : Env)
    {s s' : St} (hr : Ready s) (hr' : Ready s') (hpg : s.pgm ≠ .active) (hpg' : s'.pgm ≠ .active) {p : Pdu} {n : Nat}
    (hp : ChecksumOk cfg env s.mta p n) (hp' : ChecksumOk cfg env s'.mta p n) (hd : cfg.chunked = false ∨ n ≤ cfg.chunkSize)
    (haddr : s'.mta.addr = s.mta.addr) {i : Nat} (hi : i < counted cfg.ckMethod n)
    (hne : s'.mem (s.mta.addr + UInt32.ofNat i) ≠ s.mem (s.mta.addr + UInt32.ofNat i))
    (hsame : ∀ j, j < n → j ≠ i → s'.mem (s.mta.addr + UInt32.ofNat j) = s.mem (s.mta.addr + UInt32.ofNat j)) :
    ∃ t t' sum sum', step cfg env s (.cmd p) = .ok t ∧ step cfg env s' (.cmd p) = .ok t' ∧
      Answers cfg s t ([0xFF, cfg.ckMethod.code, 0, 0] ++ sum) ∧
      Answers cfg s' t' ([0xFF, cfg.ckMethod.code, 0, 0] ++ sum') ∧ sum.length = 4 ∧ sum'.length = 4 ∧ sum ≠ sum' := by
  obtain ⟨t, ht, ha, -⟩ := buildChecksum_direct hs hsup env hr hpg hp hd rfl
  obtain ⟨t', ht', ha', -⟩ := buildChecksum_direct hs hsup env hr' hpg' hp' hd rfl
  refine ⟨t, t', _, _, ht, ht', ha, ha', by rw [← leBytes_enc]; simp [leBytes_length], by rw [← leBytes_enc]; simp [leBytes_length], ?_⟩
  have hin : i < n := by
    have : counted cfg.ckMethod n ≤ n := by
      unfold counted; split
      · exact Nat.mul_div_le ..
      · exact Nat.le_refl _
    omega
  intro e
  have hv := enc_inj (calc_lt32 _ _) (calc_lt32 _ _) e
  obtain ⟨a, x, y, b, e1, e2, hai, hx, hy⟩ := differ_at (l := bytesAt s.mem s.mta.addr n)
    (l' := bytesAt s'.mem s'.mta.addr n) (i := i) (by simp [bytesAt, hin]) (by simp [bytesAt]) (fun j hj => by
      simp only [bytesAt, List.getElem?_map]
      by_cases hjn : j < n
      · simp [hjn, haddr, hsame j hjn hj]
      · simp [hjn])
  have hn : a.length + 1 + b.length = n := by
    have := congrArg List.length e1
    simp [bytesAt] at this; omega
  rw [e1, e2] at hv
  refine C116_single cfg.ckMethod a b ?_ (by rw [hn, hai]; exact hi) hv
  simp [bytesAt, hin, haddr] at hx hy
  rw [← hx, ← hy]
  exact fun h => hne h.symm

/-! What is not noticed -/

/-- C116 fails for CRC_32: whatever is done to one byte, there is a value for its successor
that hides the change, unless the block ends there. -/
theorem C116_fails_crc32 (a b : List UInt8) (x y x' z : UInt8) :
    ∃ y', calcChecksum .crc32 (a ++ [x', y', z] ++ b) 0 true = calcChecksum .crc32 (a ++ [x, y, z] ++ b) 0 true := by
  have hr : ∀ v : UInt8, reflect8 (reflect8 v) = v := forall_u8 (by decide +kernel)
  refine ⟨reflect8 (reflect8 y ^^^ topByte (crcStep32 (a.foldl (fun r b => crcStep32 r (reflect8 b)) 0xFFFFFFFF) (reflect8 x)) ^^^
    topByte (crcStep32 (a.foldl (fun r b => crcStep32 r (reflect8 b)) 0xFFFFFFFF) (reflect8 x'))), ?_⟩
  simp only [calcChecksum, if_true, List.foldl_append, List.foldl_cons, List.foldl_nil, hr]
  generalize a.foldl (fun r b => crcStep32 r (reflect8 b)) 0xFFFFFFFF = r
  generalize crcStep32 r (reflect8 x) = u
  generalize crcStep32 r (reflect8 x') = u'
  have hi : reflect8 y ^^^ topByte u ^^^ topByte u' ^^^ topByte u' = reflect8 y ^^^ topByte u := by
    rw [UInt8.xor_assoc, UInt8.xor_self, UInt8.xor_zero]
  have h2 : ∀ (t : UInt32) (v v' : UInt32), crcStep32 (t ^^^ (v <<< 8).toUInt16.toUInt32) (reflect8 z) =
      crcStep32 (t ^^^ (v' <<< 8).toUInt16.toUInt32) (reflect8 z) := fun t v v' => by
    have hz : ∀ (v : UInt32) (k : Nat), k < 8 ∨ 16 ≤ k → (v <<< 8).toUInt16.toUInt32.toBitVec.getLsbD k = false := fun v k hk => by
      have e8 : (v <<< 8).toBitVec = v.toBitVec <<< 8 := rfl
      rw [UInt16.toBitVec_toUInt32, UInt32.toBitVec_toUInt16, e8]
      simp only [BitVec.getLsbD_setWidth, BitVec.getLsbD_shiftLeft]
      rcases hk with hk | hk
      · simp [hk]
      · simp [show ¬ k < 16 by omega]
    have e : ∀ v : UInt32, (t ^^^ (v <<< 8).toUInt16.toUInt32) >>> 24 = t >>> 24 := fun v => by
      have hz := hz v
      generalize (v <<< 8).toUInt16.toUInt32 = q at hz
      apply UInt32.toBitVec_inj.mp
      apply BitVec.eq_of_getLsbD_eq
      intro i hi
      have := hz (24 + i) (by omega)
      simp [this]
    have e' : ∀ v : UInt32, ((t ^^^ (v <<< 8).toUInt16.toUInt32) <<< 8).toUInt16 = (t <<< 8).toUInt16 := fun v => by
      have hz := hz v
      generalize (v <<< 8).toUInt16.toUInt32 = q at hz
      apply UInt16.toBitVec_inj.mp
      apply BitVec.eq_of_getLsbD_eq
      intro i hi
      have := hz (i - 8)
      by_cases h8 : i < 8
      · simp [h8]
      · simp [this (by omega)]
    exact C41_fails_middle_ignored _ _ _ (by rw [e, e]) (by rw [e', e'])
  have h1 : crcStep32 u' (reflect8 y ^^^ topByte u ^^^ topByte u') =
      crc32Tab.getD (reflect8 y ^^^ topByte u).toNat 0 ^^^ (u' <<< 8).toUInt16.toUInt32 := by
    show crc32Tab.getD (reflect8 y ^^^ topByte u ^^^ topByte u' ^^^ topByte u').toNat 0 ^^^ _ = _
    rw [hi]
  rw [h1, h2 _ u' u]; rfl

/-- A correct CRC-32 notices every such change. -/
theorem C116_correct_crc32 (a b : List UInt8) (x y x' y' : UInt8) (hne : (x, y) ≠ (x', y')) :
    crc32 (a ++ [x, y] ++ b) ≠ crc32 (a ++ [x', y'] ++ b) := by
  refine crc_burst (by omega) (by decide) (u := bitsOf true a) (v := bitsOf true b) (by rw [bitsOf_append, bitsOf_append])
    (by rw [bitsOf_append, bitsOf_append]) (by simp [bitsOf_length]) (by simp [bitsOf_length]) ?_
  intro h
  have := bitsOf_inj _ [x, y] [x', y'] rfl h
  simp only [List.cons.injEq, and_true] at this
  exact hne (by rw [this.1, this.2])

/-- C116 fails for the sums: exchanged summands are not noticed. -/
theorem C116_fails_add {m : CkMethod} {k j : Nat} (h : addSizes m = some (k, j)) (a x y b : List UInt8)
    (ha : k ∣ a.length) (hx : x.length = k) (hy : y.length = k) :
    calcChecksum m (a ++ x ++ y ++ b) 0 true = calcChecksum m (a ++ y ++ x ++ b) 0 true := by
  have hk : 0 < k := by
    cases m <;> simp only [addSizes, Option.some.injEq, Prod.mk.injEq, reduceCtorEq] at h <;> omega
  rw [calc_add h _ 0 true (Nat.pow_pos (by omega)), calc_add h _ 0 true (Nat.pow_pos (by omega))]
  simp only [List.append_assoc]
  rw [groups_append k hk _ _ ha, groups_append k hk _ _ ha, groups_cons k hk x _ hx, groups_cons k hk y _ hy,
    groups_cons k hk y _ hy, groups_cons k hk x _ hx]
  simp only [List.sum_append, List.sum_cons]
  congr 2
  omega

/-! Examples -/

/-- The test pattern of tests/test_checksum.py. -/
def Spec.testPattern : List UInt8 :=
  [0x01, 0x02, 0x03, 0x04, 0x05, 0x06, 0x07, 0x08, 0x09, 0x0A, 0x0B, 0x0C, 0x0D, 0x0E, 0x0F, 0x10,
    0xF1, 0xF2, 0xF3, 0xF4, 0xF5, 0xF6, 0xF7, 0xF8, 0xF9, 0xFA, 0xFB, 0xFC, 0xFD, 0xFE, 0xFF, 0x00]

/-- Its checksums are those printed in the XCP standard, except for CRC_32. -/
example : [CkMethod.add11, .add12, .add14, .add22, .add24, .add44, .crc16, .crc16citt, .crc32].map
      (fun m => calcChecksum m testPattern 0 true) =
    [0x10, 0xF10, 0xF10, 0x1800, 0x71800, 0x140C03F8, 0xC76A, 0x9D50, 0x96931F11] ∧
    crc32 testPattern = 0x89CD97CE := by decide +kernel

/-- The changes noticed: one bit, and two bytes across a word. -/
example : calcChecksum .crc16 [1, 2, 3] 0 true = 0xA110 ∧ calcChecksum .crc16 [1, 3, 3] 0 true = 0x3111 ∧
    calcChecksum .crc16 [1, 0x85, 0xC3] 0 true ≠ 0xA110 := by decide +kernel

/-- A change that CRC_32 as written does not notice, and the correct one does. -/
example : calcChecksum .crc32 [1, 2, 3, 4] 0 true = calcChecksum .crc32 [0, 0xB5, 3, 4] 0 true ∧
    crc32 [1, 2, 3, 4] ≠ crc32 [0, 0xB5, 3, 4] := by decide +kernel

end Xcp
