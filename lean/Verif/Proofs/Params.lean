import Verif.Proofs.Answer
import Verif.Spec.Params
/-
Decoding of packet parameters.
-/
set_option autoImplicit false
namespace Xcp
open Spec

theorem enc_two (m : Bool) (v : Nat) : enc m 2 v =
    if m then [UInt8.ofNat (v / 256), UInt8.ofNat v] else [UInt8.ofNat v, UInt8.ofNat (v / 256)] := by
  cases m <;> simp [enc, List.range_succ]

theorem enc_four (m : Bool) (v : Nat) : enc m 4 v =
    if m then [UInt8.ofNat (v / 16777216), UInt8.ofNat (v / 65536), UInt8.ofNat (v / 256), UInt8.ofNat v]
    else [UInt8.ofNat v, UInt8.ofNat (v / 256), UInt8.ofNat (v / 65536), UInt8.ofNat (v / 16777216)] := by
  cases m <;> simp [enc, List.range_succ]

theorem byte_of_take {p : Pdu} {off n i : Nat} {l : List UInt8} (h : (p.buf.drop off).take n = l) {b : UInt8}
    (hb : l[i]? = some b) : p.byte (off + i) = .ok b := by
  apply byte_eq
  subst h
  rw [List.getElem?_take] at hb
  split at hb
  · simpa using hb
  · cases hb

theorem Spec.Param.word {m : Bool} {p : Pdu} {off v : Nat} (h : Param m p off 2 v) : p.word m off = .ok v := by
  obtain ⟨hv, h⟩ := h
  rw [enc_two] at h
  unfold Pdu.word
  cases m
  · rw [show p.byte off = _ from byte_of_take (i := 0) h rfl, show p.byte (off + 1) = _ from byte_of_take (i := 1) h rfl]
    simp
    omega
  · rw [show p.byte off = _ from byte_of_take (i := 0) h rfl, show p.byte (off + 1) = _ from byte_of_take (i := 1) h rfl]
    simp
    omega

theorem byte_ok {p : Pdu} {i : Nat} {b : UInt8} (h : p.byte i = .ok b) : p.buf[i]? = some b := by
  unfold Pdu.byte at h
  cases hx : p.buf[i]? with
  | none => rw [hx] at h; cases h
  | some y => rw [hx] at h; cases h; rfl

theorem take_two {l : List UInt8} {i : Nat} {a b : UInt8} (ha : l[i]? = some a) (hb : l[i + 1]? = some b) :
    (l.drop i).take 2 = [a, b] := by
  apply List.ext_getElem?
  intro j
  rw [List.getElem?_take, List.getElem?_drop]
  match j with
  | 0 => simpa using ha
  | 1 => simpa using hb
  | j + 2 => simp; omega

/-- The number the slave reads is the one the packet contains. -/
theorem param_of_word {m : Bool} {p : Pdu} {off v : Nat} (h : p.word m off = .ok v) : Param m p off 2 v := by
  unfold Pdu.word at h
  cases ha : p.byte off with
  | error e => rw [ha] at h; cases h
  | ok a =>
    cases hb : p.byte (off + 1) with
    | error e => rw [ha, hb] at h; cases h
    | ok b =>
      rw [ha, hb] at h
      simp only [ok_bind, pure_eq_ok, Except.ok.injEq] at h
      have h1 := a.toNat_lt
      have h2 := b.toNat_lt
      unfold Param
      rw [take_two (byte_ok ha) (byte_ok hb), enc_two]
      cases m with
      | true =>
        simp only [if_true] at h ⊢
        subst h
        refine ⟨by omega, ?_⟩
        rw [show (a.toNat * 256 + b.toNat) / 256 = a.toNat by omega]
        congr 1
        · simp
        · congr 1
          apply UInt8.toNat_inj.mp
          simp
      | false =>
        simp only [Bool.false_eq_true, if_false] at h ⊢
        subst h
        refine ⟨by omega, ?_⟩
        rw [show (b.toNat * 256 + a.toNat) / 256 = b.toNat by omega]
        congr 1
        · apply UInt8.toNat_inj.mp
          simp
        · simp

theorem Spec.Param.halves {m : Bool} {p : Pdu} {off v : Nat} (h : Param m p off 4 v) :
    Param m p off 2 (if m then v / 65536 else v % 65536) ∧
    Param m p (off + 2) 2 (if m then v % 65536 else v / 65536) := by
  obtain ⟨hv, h⟩ := h
  have hv' : v < 4294967296 := hv
  have h1 : (p.buf.drop off).take 2 = (enc m 4 v).take 2 := by rw [← h]; simp [List.take_take]
  have h2 : (p.buf.drop (off + 2)).take 2 = (enc m 4 v).drop 2 := by
    rw [← h, List.drop_take, List.drop_drop]
  have e1 : UInt8.ofNat (v % 65536) = UInt8.ofNat v := by
    apply UInt8.toNat_inj.mp; simp
  have e2 : UInt8.ofNat (v % 65536 / 256) = UInt8.ofNat (v / 256) := by
    apply UInt8.toNat_inj.mp; simp; omega
  have e3 : v / 65536 / 256 = v / 16777216 := by omega
  rw [enc_four] at h1 h2
  cases m
  · refine ⟨⟨by simp; omega, ?_⟩, ⟨by simp; omega, ?_⟩⟩
    · rw [h1, enc_two]; simp [e1, e2]
    · rw [h2, enc_two]; simp [e3]
  · refine ⟨⟨by simp; omega, ?_⟩, ⟨by simp; omega, ?_⟩⟩
    · rw [h1, enc_two]; simp [e3]
    · rw [h2, enc_two]; simp [e1, e2]

theorem Spec.Param.dword {m w : Bool} {p : Pdu} {off v : Nat} (h : Param m p off 4 v) (hw : w = true ∨ v < 2 ^ 31) :
    p.dword m w off = .ok (UInt32.ofNat v) := by
  obtain ⟨h1, h2⟩ := h.halves
  have hv : v < 4294967296 := h.1
  unfold Pdu.dword
  rw [h1.word, h2.word]
  have hh : (if m then (if m then v / 65536 else v % 65536) else (if m then v % 65536 else v / 65536)) = v / 65536 := by
    cases m <;> rfl
  have hl : (if m then (if m then v % 65536 else v / 65536) else (if m then v / 65536 else v % 65536)) = v % 65536 := by
    cases m <;> rfl
  simp only [ok_bind, hh, hl]
  have hsum : v / 65536 * 65536 + v % 65536 = v := by omega
  rw [hsum]
  rcases hw with hw | hw
  · simp [hw]
  · rw [if_neg (by omega)]; rfl

theorem Spec.Param.dword_overflow {m : Bool} {p : Pdu} {off v : Nat} (h : Param m p off 4 v) (hw : 2 ^ 31 ≤ v) :
    p.dword m false off = .error .intOverflow := by
  obtain ⟨h1, h2⟩ := h.halves
  have hv : v < 4294967296 := h.1
  unfold Pdu.dword
  rw [h1.word, h2.word]
  have hh : (if m then (if m then v / 65536 else v % 65536) else (if m then v % 65536 else v / 65536)) = v / 65536 := by
    cases m <;> rfl
  simp only [ok_bind, hh]
  rw [if_pos (by simp; omega)]
  rfl

theorem wordBytes_eq (m : Bool) (v : Nat) : wordBytes m v = enc m 2 v := by
  rw [enc_two]; rfl

theorem dwordBytes_eq (m : Bool) (v : Nat) : dwordBytes m v = enc m 4 v := by
  have e1 : UInt8.ofNat (v % 65536) = UInt8.ofNat v := by
    apply UInt8.toNat_inj.mp; simp
  have e2 : UInt8.ofNat (v % 65536 / 256) = UInt8.ofNat (v / 256) := by
    apply UInt8.toNat_inj.mp; simp; omega
  have e3 : UInt8.ofNat (v / 65536 % 65536) = UInt8.ofNat (v / 65536) := by
    apply UInt8.toNat_inj.mp; simp
  have e4 : UInt8.ofNat (v / 65536 % 65536 / 256) = UInt8.ofNat (v / 16777216) := by
    apply UInt8.toNat_inj.mp; simp; omega
  rw [enc_four]
  cases m <;> simp [dwordBytes, wordBytes, e1, e2, e3, e4]

end Xcp
