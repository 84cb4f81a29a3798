import Verif.Proofs.Memory
import Verif.Proofs.Params
import Verif.Model.Example
/-
C46: MODIFY_BITS computes (A & ~(~MA << S)) ^ (MX << S).

The code computes A & (~(~MA << S) ^ (MX << S)) instead: a pair of parentheses is in the
wrong place.  `C46_computes` says what is stored for all operands.  That is the standard's
value exactly when all bits to be toggled are set in A (`C46_modify_bits_partial`,
`C46_fails`), so MODIFY_BITS never sets a bit (`C46_fails_never_sets`).  Shifts by 32 or more
and shifts into the sign bit are undefined (`C46_fails_shift`, `C46_fails_overflow`).
-/
set_option autoImplicit false
namespace Xcp
open Spec

/-- What the code computes. -/
def Spec.codeModify (A : BitVec 32) (MA MX : BitVec 16) (S : Nat) : BitVec 32 :=
  A &&& (~~~((~~~MA).zeroExtend 32 <<< S) ^^^ (MX.zeroExtend 32 <<< S))

/-- A MODIFY_BITS packet with shift `S`, masks `MA` and `MX`, executed on the value `A`. -/
structure Spec.ModifyOk (cfg : Cfg) (env : Env) (s : St) (p : Pdu) (A : BitVec 32) (MA MX : BitVec 16) (S : UInt8) :
    Prop where
  code : Spec.code p = some 0xEC
  shift : p.buf[1]? = some S
  and : Param cfg.motorola p 2 2 MA.toNat
  xor : Param cfg.motorola p 4 2 MX.toNat
  allowed : cfg.memCheck = true → env.memCheck s.mta 2 .write false = true
  value : bytesAt s.mem s.mta.addr 4 = enc false 4 A.toNat

theorem load32_eq {m : Mem} {a : UInt32} {v : Nat} (hv : v < 2 ^ 32) (h : bytesAt m a 4 = enc false 4 v) :
    m.load32 a = UInt32.ofNat v := by
  rw [enc_four] at h
  simp only [bytesAt, List.range_succ, List.range_zero, List.map_cons, List.map_nil, List.nil_append,
    List.cons_append, Bool.false_eq_true, if_false, List.cons.injEq, and_true] at h
  obtain ⟨h0, h1, h2, h3⟩ := h
  unfold Mem.load32
  simp only [show a + UInt32.ofNat 0 = a by simp, show UInt32.ofNat 1 = 1 from rfl, show UInt32.ofNat 2 = 2 from rfl,
    show UInt32.ofNat 3 = 3 from rfl] at h0 h1 h2 h3
  rw [h0, h1, h2, h3]
  apply UInt32.toNat_inj.mp
  simp only [UInt32.toNat_add, UInt32.toNat_mul, UInt8.toNat_toUInt32, UInt8.toNat_ofNat', UInt32.toNat_ofNat',
    UInt32.reduceToNat]
  omega

theorem shlInt_eq {w : Bool} {n : Nat} (x : BitVec 16) (hn : n < 32) (hw : w = true ∨ x.toNat * 2 ^ n < 2 ^ 31) :
    shlInt w x.toNat n = .ok ⟨x.zeroExtend 32 <<< n⟩ := by
  unfold shlInt
  rw [if_neg (by omega), if_neg]
  · congr 1
    apply UInt32.toBitVec_inj.mp
    apply BitVec.eq_of_toNat_eq
    have hx := x.isLt
    simp only [UInt32.toBitVec_ofNat', BitVec.toNat_ofNat, BitVec.toNat_shiftLeft, BitVec.truncate_eq_setWidth,
      BitVec.toNat_setWidth, Nat.shiftLeft_eq]
    rw [Nat.mod_eq_of_lt (show x.toNat < 2 ^ 32 by omega)]
  · rintro ⟨h1, h2⟩
    rcases hw with h | h
    · simp [h] at h1
    · omega

theorem not_toNat (x : BitVec 16) : 65535 - x.toNat = (~~~x).toNat := by
  rw [BitVec.toNat_not]

/-- What MODIFY_BITS does, for all operands for which the C expression is defined. -/
theorem C46_computes {cfg : Cfg} (hs : ShortOk cfg) (hsup : cfg.supports .modifyBits = true) (env : Env) {s : St}
    (hr : Ready s) {p : Pdu} {A : BitVec 32} {MA MX : BitVec 16} {S : UInt8} (hp : ModifyOk cfg env s p A MA MX S)
    (hS : S.toNat < 32) (hA : cfg.wrapv = true ∨ (~~~MA).toNat * 2 ^ S.toNat < 2 ^ 31)
    (hX : cfg.wrapv = true ∨ MX.toNat * 2 ^ S.toNat < 2 ^ 31) :
    ∃ s', step cfg env s (.cmd p) = .ok s' ∧ Answers cfg s s' [0xFF] ∧
      StoredAt s.mem s'.mem s.mta.addr (enc false 4 (codeModify A MA MX S.toNat).toNat) ∧
      SameCore { s with mem := s'.mem } s' := by
  have hsame := bumpReceived_same cfg s
  have htx := bumpReceived_tx cfg s
  rw [hr.step env hp.code (c := .modifyBits) rfl hsup]
  generalize bumpReceived cfg s = b at *
  simp only [handler, modifyBitsRes, byte_eq hp.shift, hp.and.word, hp.xor.word, ok_bind]
  rw [checkMem_pass (by rw [hsame.mta]; exact hp.allowed), not_toNat, shlInt_eq _ hS hA, shlInt_eq _ hS hX]
  simp only [ok_bind, pure_eq_ok, hsame.mem, hsame.mta]
  rw [load32_eq A.isLt hp.value]
  refine ⟨_, rfl, send8_answers hs (by simp) htx, ?_, ?_⟩
  · have e : ((UInt32.ofNat A.toNat) &&& (~~~(⟨(~~~MA).zeroExtend 32 <<< S.toNat⟩ : UInt32) ^^^
        ⟨MX.zeroExtend 32 <<< S.toNat⟩)).toNat = (codeModify A MA MX S.toNat).toNat := by
      rw [← UInt32.toNat_toBitVec]
      congr 1
      simp [codeModify]
    show StoredAt s.mem (Mem.write s.mem _ _) _ _
    rw [e, show leBytes 4 (codeModify A MA MX S.toNat).toNat = enc false 4 (codeModify A MA MX S.toNat).toNat from rfl]
    exact write_stored _ _ (by rw [enc_four]; simp)
  · constructor
    all_goals first | exact hsame.connected | exact hsame.busy | exact hsame.daq | exact hsame.pgm | exact hsame.resProt | exact hsame.seedReq | exact hsame.mta | exact hsame.slaveBlk | exact hsame.masterBlk | exact hsame.ck | rfl

theorem modify_iff (A : BitVec 32) (MA MX : BitVec 16) (S : Nat) :
    codeModify A MA MX S = stdModify A MA MX S ↔ A &&& (MX.zeroExtend 32 <<< S) = MX.zeroExtend 32 <<< S := by
  unfold codeModify stdModify
  generalize MX.zeroExtend 32 <<< S = X
  generalize ~~~((~~~MA).zeroExtend 32 <<< S) = N
  constructor
  · intro h
    apply BitVec.eq_of_getLsbD_eq
    intro i hi
    have := congrArg (fun v => v.getLsbD i) h
    simp only [BitVec.getLsbD_and, BitVec.getLsbD_xor] at this ⊢
    revert this
    generalize A.getLsbD i = a; generalize N.getLsbD i = n; generalize X.getLsbD i = x
    revert a n x; decide
  · intro h
    apply BitVec.eq_of_getLsbD_eq
    intro i hi
    have := congrArg (fun v => v.getLsbD i) h
    simp only [BitVec.getLsbD_and, BitVec.getLsbD_xor] at this ⊢
    revert this
    generalize A.getLsbD i = a; generalize N.getLsbD i = n; generalize X.getLsbD i = x
    revert a n x; decide

/-- C46 when all bits to be toggled are set in `A`: the value required by the standard is
stored, and nothing else changes. -/
theorem C46_modify_bits_partial {cfg : Cfg} (hs : ShortOk cfg) (hsup : cfg.supports .modifyBits = true) (env : Env)
    {s : St} (hr : Ready s) {p : Pdu} {A : BitVec 32} {MA MX : BitVec 16} {S : UInt8}
    (hp : ModifyOk cfg env s p A MA MX S)
    (hS : S.toNat < 32) (hA : cfg.wrapv = true ∨ (~~~MA).toNat * 2 ^ S.toNat < 2 ^ 31)
    (hX : cfg.wrapv = true ∨ MX.toNat * 2 ^ S.toNat < 2 ^ 31)
    (hset : A &&& (MX.zeroExtend 32 <<< S.toNat) = MX.zeroExtend 32 <<< S.toNat) :
    ∃ s', step cfg env s (.cmd p) = .ok s' ∧ Answers cfg s s' [0xFF] ∧
      StoredAt s.mem s'.mem s.mta.addr (enc false 4 (stdModify A MA MX S.toNat).toNat) ∧
      SameCore { s with mem := s'.mem } s' := by
  rw [← (modify_iff A MA MX S.toNat).mpr hset]
  exact C46_computes hs hsup env hr hp hS hA hX

theorem enc_inj {a b : Nat} (ha : a < 2 ^ 32) (hb : b < 2 ^ 32) (h : enc false 4 a = enc false 4 b) : a = b := by
  simp only [enc_four, Bool.false_eq_true, if_false, List.cons.injEq, and_true, ← UInt8.toNat_inj,
    UInt8.toNat_ofNat'] at h
  omega

/-- C46 fails in all other cases: some bit to be toggled is clear in `A`, and the value
stored is not the one the standard requires. -/
theorem C46_fails {cfg : Cfg} (hs : ShortOk cfg) (hsup : cfg.supports .modifyBits = true) (env : Env)
    {s : St} (hr : Ready s) {p : Pdu} {A : BitVec 32} {MA MX : BitVec 16} {S : UInt8}
    (hp : ModifyOk cfg env s p A MA MX S)
    (hS : S.toNat < 32) (hA : cfg.wrapv = true ∨ (~~~MA).toNat * 2 ^ S.toNat < 2 ^ 31)
    (hX : cfg.wrapv = true ∨ MX.toNat * 2 ^ S.toNat < 2 ^ 31)
    (hset : A &&& (MX.zeroExtend 32 <<< S.toNat) ≠ MX.zeroExtend 32 <<< S.toNat) :
    ∃ s', step cfg env s (.cmd p) = .ok s' ∧ Answers cfg s s' [0xFF] ∧
      bytesAt s'.mem s.mta.addr 4 ≠ enc false 4 (stdModify A MA MX S.toNat).toNat := by
  obtain ⟨s', h1, h2, h3, _⟩ := C46_computes hs hsup env hr hp hS hA hX
  refine ⟨s', h1, h2, ?_⟩
  have h4 := StoredAt_bytes h3
  rw [show (enc false 4 (codeModify A MA MX S.toNat).toNat).length = 4 by rw [enc_four]; rfl] at h4
  rw [h4]
  intro h
  exact hset ((modify_iff ..).mp (BitVec.eq_of_toNat_eq (enc_inj (BitVec.isLt _) (BitVec.isLt _) h)))

/-- MODIFY_BITS never sets a bit that is clear. -/
theorem C46_fails_never_sets (A : BitVec 32) (MA MX : BitVec 16) (S : Nat) :
    codeModify A MA MX S &&& ~~~A = 0#32 := by
  unfold codeModify
  generalize (~~~((~~~MA).zeroExtend 32 <<< S) ^^^ (MX.zeroExtend 32 <<< S)) = N
  apply BitVec.eq_of_getLsbD_eq
  intro i hi
  simp only [BitVec.getLsbD_and, BitVec.getLsbD_not, hi, decide_true, Bool.true_and, BitVec.getLsbD_zero]
  generalize A.getLsbD i = a; generalize N.getLsbD i = n
  revert a n; decide

/-- Shifts by 32 or more are undefined. -/
theorem C46_fails_shift {cfg : Cfg} (hsup : cfg.supports .modifyBits = true) (env : Env)
    {s : St} (hr : Ready s) {p : Pdu} {A : BitVec 32} {MA MX : BitVec 16} {S : UInt8}
    (hp : ModifyOk cfg env s p A MA MX S) (hS : 32 ≤ S.toNat) :
    step cfg env s (.cmd p) = .error .shiftOob := by
  rw [hr.step env hp.code (c := .modifyBits) rfl hsup]
  simp only [handler, modifyBitsRes, byte_eq hp.shift, hp.and.word, hp.xor.word, ok_bind]
  rw [checkMem_pass (by simpa using hp.allowed), shlInt, if_pos hS]
  rfl

/-- So is shifting a mask into the sign bit, without -fwrapv: every command that clears bit
31, the highest bit a shift by 16 reaches. -/
theorem C46_fails_overflow {cfg : Cfg} (hsup : cfg.supports .modifyBits = true) (env : Env)
    {s : St} (hr : Ready s) {p : Pdu} {A : BitVec 32} {MA MX : BitVec 16} {S : UInt8}
    (hp : ModifyOk cfg env s p A MA MX S) (hw : cfg.wrapv = false) (hS : S.toNat < 32)
    (hA : 2 ^ 31 ≤ (~~~MA).toNat * 2 ^ S.toNat) :
    step cfg env s (.cmd p) = .error .intOverflow := by
  rw [hr.step env hp.code (c := .modifyBits) rfl hsup]
  simp only [handler, modifyBitsRes, byte_eq hp.shift, hp.and.word, hp.xor.word, ok_bind]
  rw [checkMem_pass (by simpa using hp.allowed), not_toNat, shlInt, if_neg (by omega), if_pos ⟨hw, hA⟩]
  rfl

/-- Witness: at address 0x10 there is 0x13121110; MODIFY_BITS with MA = 0xFFFF, MX = 0x00FF
has to toggle the low byte to 0xEF, and stores 0x00. -/
theorem C46_fails_witness :
    (Ex.frames Ex.sec [Ex.c [0xFF], Ex.c [0xF6, 0, 0, 0, 0x10, 0, 0, 0], Ex.c [0xEC, 0, 0xFF, 0xFF, 0xFF, 0, 0, 0],
      Ex.c [0xF5, 4]]).map (·.drop 2) =
      some [[1, 0, 2, 0, 0xFF], [5, 0, 3, 0, 0xFF, 0x00, 0x11, 0x12, 0x13]] ∧
    stdModify 0x13121110 0xFFFF 0x00FF 0 = 0x131211EF := by decide +kernel

/-- Clearing bits works: MA = 0xFFEF clears bit 4. -/
example : (Ex.frames Ex.sec [Ex.c [0xFF], Ex.c [0xF6, 0, 0, 0, 0x10, 0, 0, 0], Ex.c [0xEC, 0, 0xEF, 0xFF, 0, 0, 0, 0],
      Ex.c [0xF5, 4]]).map (·.drop 3) = some [[5, 0, 3, 0, 0xFF, 0x00, 0x11, 0x12, 0x13]] ∧
    stdModify 0x13121110 0xFFEF 0 0 = 0x13121100 := by decide +kernel

end Xcp
