import Verif.Proofs.Crc
import Verif.Proofs.Memory
import Verif.Proofs.Params
import Verif.Spec.Params
import Verif.Spec.Transport
/-
BUILD_CHECKSUM, and the composition of checksums of adjacent blocks.
-/
set_option autoImplicit false
namespace Xcp
open Spec

/-- A BUILD_CHECKSUM of `n` bytes that the memory hook permits and that is within the
configured maximum. -/
structure Spec.ChecksumOk (cfg : Cfg) (env : Env) (m : Mta) (p : Pdu) (n : Nat) : Prop where
  code : Spec.code p = some 0xF3
  size : Param cfg.motorola p 4 4 n
  range : cfg.wrapv = true ∨ n < 2 ^ 31
  limit : cfg.maxBlock = 0 ∨ n ≤ cfg.maxBlock
  allowed : cfg.memCheck = true → env.memCheck m n .read false = true

theorem Spec.ChecksumOk.lt {cfg : Cfg} {env : Env} {m : Mta} {p : Pdu} {n : Nat} (h : ChecksumOk cfg env m p n) :
    n < 2 ^ 32 := by simpa using h.size.1

theorem buildChecksum_eq {cfg : Cfg} (hsup : cfg.supports .buildChecksum = true) (env : Env) {s : St} (hr : Ready s)
    (hpg : s.pgm ≠ .active) {p : Pdu} {n : Nat} (hp : ChecksumOk cfg env s.mta p n) :
    step cfg env s (.cmd p) =
      if cfg.chunked = true ∧ cfg.chunkSize < n then startChecksum (bumpReceived cfg s) s.mta.addr n
      else .ok (checksumResponse cfg (bumpReceived cfg s)
        (calcChecksum cfg.ckMethod (bytesAt s.mem s.mta.addr n) 0 true)) := by
  have hn : (UInt32.ofNat n).toNat = n := by
    simpa using Nat.mod_eq_of_lt hp.lt
  rw [hr.step env hp.code (c := .buildChecksum) rfl hsup]
  simp only [handler, buildChecksumRes, hp.size.dword hp.range, ok_bind, hn]
  rw [assertPgmIdle_pass (by simpa using hpg), checkMem_pass (by simpa using hp.allowed),
    if_neg (by have := hp.limit; omega)]
  simp [read_eq]

theorem leBytes_enc (n v : Nat) : leBytes n v = enc false n v := rfl

theorem buildChecksum_direct {cfg : Cfg} (hs : ShortOk cfg) (hsup : cfg.supports .buildChecksum = true) (env : Env)
    {s : St} (hr : Ready s) (hpg : s.pgm ≠ .active) {p : Pdu} {n : Nat} (hp : ChecksumOk cfg env s.mta p n)
    (hd : cfg.chunked = false ∨ n ≤ cfg.chunkSize) {v : Nat}
    (hv : calcChecksum cfg.ckMethod (bytesAt s.mem s.mta.addr n) 0 true = v) :
    ∃ s', step cfg env s (.cmd p) = .ok s' ∧ Answers cfg s s' ([0xFF, cfg.ckMethod.code, 0, 0] ++ enc false 4 v) ∧
      SameCore s s' := by
  refine ⟨_, (buildChecksum_eq hsup env hr hpg hp).trans (if_neg ?_), ?_, ?_⟩
  · rintro ⟨h1, h2⟩; rcases hd with hd | hd
    · simp [hd] at h1
    · omega
  · rw [hv]
    unfold checksumResponse
    rw [← leBytes_enc]
    exact send8_answers hs (by simp [leBytes_length]) (by simp)
  · exact (bumpReceived_same cfg s).trans (send8_same ..)

/-! Values -/

theorem calc_citt (l : List UInt8) (st : Nat) : calcChecksum .crc16citt l st true = crcCitt l := by
  unfold crcCitt crc
  simp only [calcChecksum, if_true, Bool.false_eq_true, if_false, Nat.xor_zero]
  rw [polyRem_word, vbits_digits, ofDigits_digits _ _ (BitVec.isLt _)]
  have h := crc16_foldl tab16_citt l 0xFFFF
  rw [← UInt16.toNat_toBitVec, h]
  congr 2

theorem calc_arc (l : List UInt8) (st : Nat) : calcChecksum .crc16 l st true = crcArc l := by
  unfold crcArc crc
  simp only [calcChecksum, if_true, Nat.xor_zero, reflect16]
  rw [polyRem_word, vbits_digits, ← reflect_ofDigits]
  have h := crc16_foldl tab16_arc (l.map reflect8) 0
  rw [List.foldl_map, List.flatMap_map] at h
  simp only [reflect8_digits] at h
  rw [← UInt16.toNat_toBitVec (List.foldl _ _ _), h]
  simpa using Nat.mod_eq_of_lt (reflect_lt _ 16)

/-! Sums -/

theorem sumMod_eq (m start : Nat) (l : List Nat) (hm : 0 < m) (h : start < m) : sumMod m start l = (start + l.sum) % m := by
  unfold sumMod
  induction l generalizing start with
  | nil => simp [Nat.mod_eq_of_lt h]
  | cons a l ih =>
    rw [List.foldl_cons, ih _ (Nat.mod_lt _ hm), List.sum_cons, Nat.mod_add_mod, Nat.add_assoc]

theorem groups_cons (k : Nat) (hk : 0 < k) (a l : List UInt8) (ha : a.length = k) :
    groups k (a ++ l) = leVal a :: groups k l := by
  unfold groups
  have : (a ++ l).length / k = l.length / k + 1 := by
    rw [List.length_append, ha, Nat.add_comm, Nat.add_div_right _ hk]
  rw [this, List.range_succ_eq_map]
  simp only [List.map_cons, List.map_map, Nat.mul_zero, List.drop_zero]
  congr 1
  · rw [List.take_append_of_le_length (by omega), List.take_of_length_le (by omega)]
  · apply List.map_congr_left
    intro i _
    simp only [Function.comp]
    rw [List.drop_append, List.drop_eq_nil_of_le (by rw [ha, Nat.mul_succ]; omega), List.nil_append, ha]
    rw [Nat.mul_succ, Nat.add_sub_cancel]

theorem groups_short (k : Nat) (l : List UInt8) (h : l.length < k) : groups k l = [] := by
  simp [groups, Nat.div_eq_of_lt h]

theorem words16_eq : ∀ l : List UInt8, words16 l = groups 2 l
  | [] => rfl
  | [a] => by rw [groups_short _ _ (by simp)]; rfl
  | a :: b :: rest => by
      rw [show a :: b :: rest = [a, b] ++ rest from rfl, groups_cons 2 (by omega) [a, b] rest rfl, ← words16_eq rest]
      rfl

theorem words32_eq : ∀ l : List UInt8, words32 l = groups 4 l
  | [] => rfl
  | [a] => by rw [groups_short _ _ (by simp)]; rfl
  | [a, b] => by rw [groups_short _ _ (by simp)]; rfl
  | [a, b, c] => by rw [groups_short _ _ (by simp)]; rfl
  | a :: b :: c :: d :: rest => by
      rw [show a :: b :: c :: d :: rest = [a, b, c, d] ++ rest from rfl,
        groups_cons 4 (by omega) [a, b, c, d] rest rfl, ← words32_eq rest]
      simp only [List.cons_append, List.nil_append, words32, leVal]
      congr 1
      omega

theorem groups_one (l : List UInt8) : groups 1 l = l.map UInt8.toNat := by
  induction l with
  | nil => rfl
  | cons a l ih =>
    rw [show a :: l = [a] ++ l from rfl, groups_cons 1 (by omega) [a] l rfl, ih]
    simp [leVal]

theorem groups_append (k : Nat) (hk : 0 < k) (a l : List UInt8) (ha : k ∣ a.length) :
    groups k (a ++ l) = groups k a ++ groups k l := by
  obtain ⟨q, hq⟩ := ha
  induction q generalizing a with
  | zero =>
    have : a = [] := by simpa using hq
    subst this
    rw [groups_short k [] (by simpa using hk)]; rfl
  | succ q ih =>
    rw [Nat.mul_succ] at hq
    have e := List.take_append_drop k a
    have h1 : (a.take k).length = k := by simp; omega
    rw [← e, List.append_assoc, groups_cons k hk _ _ h1, groups_cons k hk _ _ h1,
      ih (a.drop k) (by rw [List.length_drop]; omega)]
    rfl

/-- Bytes per summand and bytes of the sum of the ADD methods. -/
def Spec.addSizes : CkMethod → Option (Nat × Nat)
  | .add11 => some (1, 1)
  | .add12 => some (1, 2)
  | .add14 => some (1, 4)
  | .add22 => some (2, 2)
  | .add24 => some (2, 4)
  | .add44 => some (4, 4)
  | _ => none

theorem calc_add {m : CkMethod} {k j : Nat} (h : addSizes m = some (k, j)) (l : List UInt8) (st : Nat) (first : Bool)
    (hst : st < 256 ^ j) :
    calcChecksum m l st first = ((if first then 0 else st) + (groups k l).sum) % 256 ^ j := by
  have h0 : (if first then 0 else st) < 256 ^ j := by
    split
    · exact Nat.pow_pos (by omega)
    · exact hst
  have h1 : ∀ l : List Nat, sumMod (256 ^ j) (if first then 0 else st) l = ((if first then 0 else st) + l.sum) % 256 ^ j :=
    fun l => sumMod_eq _ _ _ (Nat.pow_pos (by omega)) h0
  cases m <;> simp only [addSizes, Option.some.injEq, Prod.mk.injEq, reduceCtorEq] at h <;> obtain ⟨rfl, rfl⟩ := h <;>
    simp only [calcChecksum, ← words16_eq, ← words32_eq, groups_one] <;> exact h1 _

end Xcp
