import Verif.Spec.Can
import Verif.Model.Example
import Verif.Proofs.Answer
/-
C63: on CAN the slave executes the messages addressed to it and no others.
-/
set_option autoImplicit false
namespace Xcp
open Spec

theorem and_high (n : Nat) (h : n < 2 ^ 32) : n &&& 2147483648 = if 2 ^ 31 ≤ n then 2147483648 else 0 := by
  apply Nat.eq_of_testBit_eq
  intro i
  rw [Nat.testBit_and, show (2147483648 : Nat) = 2 ^ 31 from rfl, Nat.testBit_two_pow]
  by_cases hi : 31 = i
  · subst hi
    split
    · next hle =>
      rw [Nat.testBit_two_pow_self, Nat.testBit_eq_decide_div_mod_eq]
      simp; omega
    · next hlt => rw [Nat.testBit_lt_two_pow (by omega)]; simp
  · split
    · rw [Nat.testBit_two_pow_of_ne hi]; simp [hi]
    · simp [hi]

theorem canIsExt_eq (i : UInt32) : canIsExt i = decide (2 ^ 31 ≤ i.toNat) := by
  unfold canIsExt
  rw [Bool.eq_iff_iff, beq_iff_eq, ← UInt32.toNat_inj, UInt32.toNat_and, decide_eq_true_iff]
  rw [show (0x80000000 : UInt32).toNat = 2147483648 from rfl, and_high _ i.toNat_lt]
  split <;> simp_all

theorem canStrip_eq (i : UInt32) : (canStrip i).toNat = i.toNat % 2 ^ 31 := by
  unfold canStrip
  rw [UInt32.toNat_and, show (~~~(0x80000000 : UInt32)).toNat = 2 ^ 31 - 1 from rfl, Nat.and_two_pow_sub_one_eq_mod]

theorem rawId_toNat {m : CanMsg} (h : MsgOk m) : (rawId m).toNat =
    m.id + (if m.ext then 0x80000000 else 0) + (if m.rtr then 0x40000000 else 0) := by
  unfold rawId
  unfold MsgOk at h
  rw [UInt32.toNat_ofNat']
  apply Nat.mod_eq_of_lt
  by_cases he : m.ext = true <;> by_cases hr : m.rtr = true <;> simp [he, hr] at h ⊢ <;> omega

theorem filter_std {i : UInt32} (hi : i.toNat < 2 ^ 11) {m : CanMsg} (h : MsgOk m) :
    filterPass i (socketMask i) (rawId m) = true ↔ m.id % 2 ^ 11 = i.toNat := by
  unfold filterPass socketMask
  rw [canIsExt_eq, if_neg (by simp; omega), beq_iff_eq, ← UInt32.toNat_inj, UInt32.toNat_and, UInt32.toNat_and,
    show (0x7FF : UInt32).toNat = 2 ^ 11 - 1 from rfl, Nat.and_two_pow_sub_one_eq_mod, Nat.and_two_pow_sub_one_eq_mod, rawId_toNat h,
    Nat.mod_eq_of_lt hi]
  split <;> split <;> omega

theorem filter_ext {i : UInt32} (hi : 2 ^ 31 ≤ i.toNat) {m : CanMsg} (h : MsgOk m) :
    filterPass i (socketMask i) (rawId m) = true ↔ m.ext = true := by
  unfold filterPass socketMask
  rw [canIsExt_eq, if_pos (by simpa using hi), beq_iff_eq, ← UInt32.toNat_inj, UInt32.toNat_and, UInt32.toNat_and,
    show (0x80000000 : UInt32).toNat = 2147483648 from rfl, and_high _ i.toNat_lt, if_pos hi, and_high _ (rawId m).toNat_lt, rawId_toNat h]
  unfold MsgOk at h
  by_cases he : m.ext = true
  · rw [if_pos he] at h ⊢
    rw [if_pos (by split <;> omega)]
    exact ⟨fun _ => he, fun _ => rfl⟩
  · rw [if_neg he] at h ⊢
    rw [if_neg (by split <;> omega)]
    exact ⟨fun h => absurd h (by decide), fun h => absurd h he⟩

/-- C63, Linux, standard identifiers: a standard data message passes the filter exactly if it is
addressed to the slave.  Missing: extended and remote messages, see `C63_socket_exact`, and
extended identifiers, see `C63_socket_extended_fails`. -/
theorem C63_socket_partial {inb bc : UInt32} (hi : inb.toNat < 2 ^ 11) (hb : bc.toNat < 2 ^ 11) {m : CanMsg} (h : MsgOk m)
    (hs : m.ext = false) (hr : m.rtr = false) :
    socketPass inb bc m = true ↔ Addressed inb m ∨ Addressed bc m := by
  unfold socketPass
  rw [Bool.or_eq_true, filter_std hi h, filter_std hb h]
  unfold MsgOk at h
  unfold Addressed
  simp only [hs, hr] at h ⊢
  simp at h ⊢
  omega

/-- What the filter for standard identifiers lets pass: remote and extended messages, too, if the
low 11 bits agree. -/
theorem C63_socket_exact {inb bc : UInt32} (hi : inb.toNat < 2 ^ 11) (hb : bc.toNat < 2 ^ 11) {m : CanMsg} (h : MsgOk m) :
    socketPass inb bc m = true ↔ m.id % 2 ^ 11 = inb.toNat ∨ m.id % 2 ^ 11 = bc.toNat := by
  unfold socketPass
  rw [Bool.or_eq_true, filter_std hi h, filter_std hb h]

/-- With an extended identifier the slave receives every extended message on the bus. -/
theorem C63_socket_extended_fails {inb bc : UInt32} (hi : 2 ^ 31 ≤ inb.toNat) {m : CanMsg} (h : MsgOk m) (he : m.ext = true) :
    socketPass inb bc m = true := by
  unfold socketPass
  rw [Bool.or_eq_true]
  exact Or.inl ((filter_ext hi h).mpr he)

/-- The addressed messages are not lost by the filter, whatever the identifiers. -/
theorem C63_socket_complete {inb bc : UInt32} (hi : IdOk inb) {m : CanMsg} (h : MsgOk m) (ha : Addressed inb m) :
    socketPass inb bc m = true := by
  unfold socketPass
  rw [Bool.or_eq_true]
  left
  obtain ⟨hr, hid, he⟩ := ha
  rcases hi with h1 | ⟨h1, -⟩
  · rw [filter_std h1 h]; omega
  · rw [filter_ext h1 h]; exact he.mpr h1

/-- C63, Linux, whole histories: what the slave does on a bus with standard data messages (of at most
the buffer's size) is what it does when it receives, in this order, the non-empty messages
addressed to it.  The packets carry exactly the messages' data. -/
theorem C63_socket_history_partial {cfg : Cfg} {inb bc : UInt32} (hi : inb.toNat < 2 ^ 11) (hb : bc.toNat < 2 ^ 11)
    (ms : List (Env × CanMsg)) (x : CanSys)
    (hm : ∀ m ∈ ms, MsgOk m.2 ∧ m.2.ext = false ∧ m.2.rtr = false ∧ m.2.data.length ≤ x.buf.length) :
    ∃ ps : List (Env × Pdu),
      (ps.map fun p => (p.1, p.2.buf.take p.2.len)) =
        (ms.filter fun m => decide ((Addressed inb m.2 ∨ Addressed bc m.2) ∧ m.2.data ≠ [])).map (fun m => (m.1, m.2.data)) ∧
      (socketRun cfg inb bc x ms).map CanSys.s = run cfg x.s (ps.map fun p => (p.1, .cmd p.2)) := by
  induction ms generalizing x with
  | nil => exact ⟨[], rfl, rfl⟩
  | cons m ms ih =>
    obtain ⟨hok, he, hr, hl⟩ := hm m List.mem_cons_self
    have hp := C63_socket_partial hi hb hok he hr
    unfold socketRun socketRx
    by_cases ha : (Addressed inb m.2 ∨ Addressed bc m.2) ∧ m.2.data ≠ []
    · rw [List.filter_cons_of_pos (by simpa using ha)]
      have hd : ¬ m.2.data.length = 0 := by simpa using ha.2
      rw [if_pos (hp.mpr ha.1), if_neg hd, if_neg (by omega)]
      have hlen : (storeAt x.buf 0 m.2.data).length = x.buf.length := by simp [storeAt]; omega
      have htake : (storeAt x.buf 0 m.2.data).take m.2.data.length = m.2.data := by simp [storeAt]
      cases hs : step cfg m.1 x.s (.cmd ⟨m.2.data.length, storeAt x.buf 0 m.2.data⟩) with
      | error f =>
        obtain ⟨ps, h1, h2⟩ := ih ⟨x.s, storeAt x.buf 0 m.2.data⟩ (fun k hk => by
          rw [hlen]; exact hm k (List.mem_cons_of_mem _ hk))
        refine ⟨(m.1, ⟨m.2.data.length, storeAt x.buf 0 m.2.data⟩) :: ps, ?_, ?_⟩
        · simp only [List.map_cons, h1, htake]
        · simp only [List.map_cons, run, hs, error_bind]
          rfl
      | ok s' =>
        obtain ⟨ps, h1, h2⟩ := ih ⟨s', storeAt x.buf 0 m.2.data⟩ (fun k hk => by
          rw [hlen]; exact hm k (List.mem_cons_of_mem _ hk))
        refine ⟨(m.1, ⟨m.2.data.length, storeAt x.buf 0 m.2.data⟩) :: ps, ?_, ?_⟩
        · simp only [List.map_cons, h1, htake]
        · simp only [List.map_cons, run, hs, ok_bind, pure_eq_ok]
          exact h2
    · rw [List.filter_cons_of_neg (by simpa using ha)]
      have hskip : (if socketPass inb bc m.2 = true then if m.2.data.length = 0 then .ok x
          else if x.buf.length < m.2.data.length then .error .bufOob
          else do
            let buf := storeAt x.buf 0 m.2.data
            let s ← step cfg m.1 x.s (.cmd ⟨m.2.data.length, buf⟩)
            return ⟨s, buf⟩ else .ok x : Except Fault CanSys) = .ok x := by
        by_cases h1 : socketPass inb bc m.2 = true
        · have : m.2.data = [] := by
            cases hd : m.2.data with
            | nil => rfl
            | cons a t => exact absurd ⟨hp.mp h1, by rw [hd]; simp⟩ ha
          rw [if_pos h1, if_pos (by simp [this])]
        · rw [if_neg h1]
      rw [hskip, ok_bind]
      exact ih x (fun k hk => hm k (List.mem_cons_of_mem _ hk))

/-- A message longer than the buffer (CAN-FD has up to 64 bytes) is stored outside of it. -/
theorem C63_socket_fails_fd {cfg : Cfg} {inb bc : UInt32} (env : Env) {x : CanSys} {m : CanMsg} (hi : IdOk inb) (h : MsgOk m)
    (ha : Addressed inb m) (hl : x.buf.length < m.data.length) : socketRx cfg inb bc env x m = .error .bufOob := by
  unfold socketRx
  rw [if_pos (C63_socket_complete hi h ha), if_neg (by omega), if_pos hl]

/-- The simulator on CAN (0x102, broadcast 0x103): CONNECT, a message for somebody else, an empty one,
SYNCH.  Two answers. -/
example : ((socketRun Ex.can 0x102 0x103 ⟨St.init Ex.can Ex.mem, List.replicate 8 0⟩
      [(Ex.env, ⟨0x102, false, false, [0xFF, 0]⟩), (Ex.env, ⟨0x104, false, false, [0xFE]⟩),
       (Ex.env, ⟨0x102, false, false, []⟩), (Ex.env, ⟨0x102, false, false, [0xFC]⟩)]).toOption.map
      fun x => x.s.tx.map Frame.bytes) =
    some [[0xFF, 0x15, 0xC0, 8, 8, 0, 1, 1], [0xFE, 0]] := by decide +kernel

/-- The extended message 0x12345902 is executed by the slave with standard identifier 0x102, and
so is a remote request. -/
example : socketPass 0x102 0x103 ⟨0x12345902, true, false, [0xFF]⟩ = true ∧
    socketPass 0x102 0x103 ⟨0x102, false, true, [0xFF]⟩ = true ∧
    socketPass (0x80000000 + 0x102) (0x80000000 + 0x103) ⟨0x1FFFFFFF, true, false, [0xFF]⟩ = true := by decide

theorem kv_bits (a b x : BitVec 32) (hx : ∀ i : Nat, a.getLsbD i = true → x.getLsbD i = true) :
    ((a &&& b) ^^^ a) &&& (((a ||| b) ^^^ (a &&& b)) ^^^ x) = 0 := by
  apply BitVec.eq_of_getLsbD_eq
  intro i hi
  have := hx i
  simp only [BitVec.getLsbD_and, BitVec.getLsbD_xor, BitVec.getLsbD_or]
  cases ha : a.getLsbD i <;> cases b.getLsbD i <;> simp_all

theorem mask_bits {a : BitVec 32} {k : Nat} (ha : a.toNat < 2 ^ k) (hk : k < 32) (i : Nat) (h : a.getLsbD i = true) :
    (BitVec.ofNat 32 (2 ^ k - 1)).getLsbD i = true := by
  have hi : i < k := by
    rcases Nat.lt_or_ge i k with h' | h'
    · exact h'
    · rw [BitVec.getLsbD, Nat.testBit_lt_two_pow (Nat.lt_of_lt_of_le ha (Nat.pow_le_pow_right (by omega) h'))] at h
      cases h
  rw [BitVec.getLsbD_ofNat, Nat.testBit_two_pow_sub_one]
  simp [hi]; omega

/-- The acceptance filter lets the identifiers pass for which it was made. -/
theorem kv_filter {a b : UInt32} {k : Nat} (ha : a.toNat < 2 ^ k) (hk : k < 32) :
    (((a &&& b) ^^^ a) &&& (((a ||| b) ^^^ (a &&& b)) ^^^ UInt32.ofNat (2 ^ k - 1))) = 0 := by
  have := kv_bits a.toBitVec b.toBitVec (BitVec.ofNat 32 (2 ^ k - 1)) (mask_bits ha hk)
  exact UInt32.toBitVec_inj.mp this

theorem ofNat_strip {i : UInt32} {n : Nat} (hn : n = i.toNat % 2 ^ 31) : UInt32.ofNat n = canStrip i := by
  rw [← UInt32.toNat_inj, UInt32.toNat_ofNat', canStrip_eq, hn]
  omega

theorem kvAccept_of {inb bc : UInt32} (hi : IdOk inb) {m : CanMsg} (hid : m.id = inb.toNat % 2 ^ 31) : kvAccept inb bc m = true := by
  unfold kvAccept kvFilter
  simp only
  rw [ofNat_strip hid]
  have h29 : (canStrip inb).toNat < 2 ^ 29 := by rw [canStrip_eq]; rcases hi with h | h <;> omega
  by_cases hx : (canIsExt inb || canIsExt bc) = true
  · rw [if_pos hx]
    simp only [Bool.or_eq_true, beq_iff_eq]
    exact Or.inr (kv_filter h29 (by omega))
  · rw [if_neg hx]
    simp only [Bool.or_eq_true, beq_iff_eq]
    right
    apply kv_filter (k := 11) _ (by omega)
    rw [canStrip_eq]
    rcases hi with h | h
    · omega
    · exfalso; apply hx; rw [canIsExt_eq]; simp; exact Or.inl h.1

theorem kv_exact {a b d : UInt32} {k : Nat} (ha : a.toNat < 2 ^ k) (hb : b.toNat < 2 ^ k) (hd : d.toNat < 2 ^ k) (hk : k < 32) :
    ((a &&& b) ^^^ d) &&& (((a ||| b) ^^^ (a &&& b)) ^^^ UInt32.ofNat (2 ^ k - 1)) = 0 ↔
      ∀ i, a.toNat.testBit i = b.toNat.testBit i → d.toNat.testBit i = a.toNat.testBit i := by
  rw [← UInt32.toNat_inj]
  simp only [UInt32.toNat_and, UInt32.toNat_xor, UInt32.toNat_or, UInt32.toNat_ofNat']
  rw [Nat.mod_eq_of_lt (Nat.lt_of_lt_of_le (Nat.sub_lt (Nat.two_pow_pos k) (by omega)) (Nat.pow_le_pow_right (by omega) (Nat.le_of_lt hk)))]
  show _ = 0 ↔ _
  have key : ∀ i, (((a.toNat &&& b.toNat) ^^^ d.toNat) &&& (((a.toNat ||| b.toNat) ^^^ (a.toNat &&& b.toNat)) ^^^ (2 ^ k - 1))).testBit i = false ↔
      (a.toNat.testBit i = b.toNat.testBit i → d.toNat.testBit i = a.toNat.testBit i) := by
    intro i
    simp only [Nat.testBit_and, Nat.testBit_xor, Nat.testBit_or, Nat.testBit_two_pow_sub_one]
    by_cases hi : i < k
    · simp only [hi, decide_true]
      cases a.toNat.testBit i <;> cases b.toNat.testBit i <;> cases d.toNat.testBit i <;> simp
    · have hle : 2 ^ k ≤ 2 ^ i := Nat.pow_le_pow_right (by omega) (by omega)
      rw [Nat.testBit_lt_two_pow (Nat.lt_of_lt_of_le ha hle), Nat.testBit_lt_two_pow (Nat.lt_of_lt_of_le hb hle),
        Nat.testBit_lt_two_pow (Nat.lt_of_lt_of_le hd hle)]
      simp [hi]
  constructor
  · intro h i
    rw [← key i, h]
    simp
  · intro h
    apply Nat.eq_of_testBit_eq
    intro i
    rw [(key i).mpr (h i)]
    simp

/-- C63, Kvaser: of the messages of the configured kind, standard or extended, the filter in the interface lets those pass whose
identifiers have the bits that the two configured identifiers have in common. -/
theorem C63_kvaser_filter {inb bc : UInt32} (hi : IdOk inb) (hb : IdOk bc) {m : CanMsg} (h : MsgOk m) (hk : m.ext = true ↔ 2 ^ 31 ≤ inb.toNat)
    (hk' : m.ext = true ↔ 2 ^ 31 ≤ bc.toNat) :
    kvAccept inb bc m = true ↔
      ∀ i < 31, inb.toNat.testBit i = bc.toNat.testBit i → m.id.testBit i = inb.toNat.testBit i := by
  have hkind : (canIsExt inb || canIsExt bc) = m.ext := by
    rw [canIsExt_eq, canIsExt_eq]
    cases he : m.ext <;> simp_all
  have hid : m.id < 2 ^ 29 := by
    unfold MsgOk at h
    split at h <;> omega
  have hd : (UInt32.ofNat m.id).toNat = m.id := by
    rw [UInt32.toNat_ofNat']
    omega
  have hbit : ∀ (x : UInt32) (i : Nat), i < 31 → (canStrip x).toNat.testBit i = x.toNat.testBit i := by
    intro x i hi
    rw [canStrip_eq, Nat.testBit_mod_two_pow]
    simp [hi]
  have hzero : ∀ i, 31 ≤ i → (canStrip inb).toNat.testBit i = false ∧ m.id.testBit i = false := by
    intro i hi
    have hle : 2 ^ 31 ≤ 2 ^ i := Nat.pow_le_pow_right (by omega) hi
    refine ⟨Nat.testBit_lt_two_pow ?_, Nat.testBit_lt_two_pow (by omega)⟩
    rw [canStrip_eq]
    have := Nat.mod_lt inb.toNat (Nat.two_pow_pos 31)
    omega
  have hfin : (∀ i, (canStrip inb).toNat.testBit i = (canStrip bc).toNat.testBit i → (UInt32.ofNat m.id).toNat.testBit i = (canStrip inb).toNat.testBit i) ↔
      ∀ i < 31, inb.toNat.testBit i = bc.toNat.testBit i → m.id.testBit i = inb.toNat.testBit i := by
    rw [hd]
    constructor
    · intro hh i hi
      have := hh i
      rwa [hbit _ i hi, hbit _ i hi] at this
    · intro hh i
      by_cases hi : i < 31
      · rw [hbit _ i hi, hbit _ i hi]
        exact hh i hi
      · intro _
        rw [(hzero i (by omega)).1, (hzero i (by omega)).2]
  rw [← hfin]
  unfold kvAccept kvFilter
  simp only [hkind]
  cases he : m.ext with
  | true =>
    simp only [if_true, bne_self_eq_false, Bool.false_or, beq_iff_eq]
    refine kv_exact (k := 29) ?_ ?_ ?_ (by omega)
    · rw [canStrip_eq]; rcases hi with h | h <;> omega
    · rw [canStrip_eq]; rcases hb with h | h <;> omega
    · omega
  | false =>
    simp only [Bool.false_eq_true, if_false, bne_self_eq_false, Bool.false_or, beq_iff_eq]
    simp only [he, Bool.false_eq_true, false_iff] at hk hk'
    simp only [MsgOk, he, Bool.false_eq_true, if_false] at h
    refine kv_exact (k := 11) ?_ ?_ ?_ (by omega)
    · rw [canStrip_eq]; rcases hi with h | h <;> omega
    · rw [canStrip_eq]; rcases hb with h | h <;> omega
    · omega

/-- Extended identifiers 0x18FF0102 and 0x18FF0103: the filter lets these two pass and not 0x18FF0104. -/
example : [0x18FF0102, 0x18FF0103, 0x18FF0104].map (fun i => kvAccept 0x98FF0102 0x98FF0103 ⟨i, true, false, [0xFF]⟩) = [true, true, false] := by decide

/-- C63, Kvaser: a data message is executed exactly if it is addressed to the slave, not empty, and has
the required length.  Missing: remote requests, see `C63_kvaser_fails`. -/
theorem C63_kvaser_partial {cfg : Cfg} {inb bc : UInt32} (hi : IdOk inb) {m : CanMsg} (h : MsgOk m) (hr : m.rtr = false) :
    kvDispatches cfg inb bc m = true ↔
      Addressed inb m ∧ m.data ≠ [] ∧ (cfg.maxDlc = true → m.data.length = cfg.maxCto) := by
  have hm : kvMatching inb (UInt32.ofNat m.id) (kvFlags m) = true ↔ Addressed inb m := by
    unfold kvMatching kvFlags Addressed
    rw [Bool.and_eq_true, beq_iff_eq, beq_iff_eq, canIsExt_eq, ← UInt32.toNat_inj, canStrip_eq, UInt32.toNat_ofNat']
    have : m.id < 2 ^ 32 := by
      unfold MsgOk at h
      split at h <;> omega
    rw [Nat.mod_eq_of_lt this]
    simp only [hr]
    cases m.ext <;> simp <;> omega
  unfold kvDispatches
  rw [Bool.and_eq_true, Bool.and_eq_true, Bool.and_eq_true, hm]
  constructor
  · rintro ⟨⟨⟨-, h1⟩, h2⟩, h3⟩
    refine ⟨h3, ?_, ?_⟩
    · intro hd; simp [hd] at h2
    · intro hd; simpa [hd] using h1
  · rintro ⟨h1, h2, h3⟩
    refine ⟨⟨⟨kvAccept_of hi h1.2.1, ?_⟩, ?_⟩, h1⟩
    · cases hd : cfg.maxDlc
      · simp
      · simp [h3 hd]
    · simpa using h2

/-- With a standard identifier a remote request is executed, even an extended one. -/
theorem C63_kvaser_fails {cfg : Cfg} {inb bc : UInt32} (hi : inb.toNat < 2 ^ 11) {m : CanMsg} (hr : m.rtr = true)
    (hid : m.id = inb.toNat) (hd : m.data ≠ []) (hl : cfg.maxDlc = true → m.data.length = cfg.maxCto) :
    kvDispatches cfg inb bc m = true := by
  have hid' : m.id = inb.toNat % 2 ^ 31 := by omega
  unfold kvDispatches
  rw [Bool.and_eq_true, Bool.and_eq_true, Bool.and_eq_true]
  refine ⟨⟨⟨kvAccept_of (Or.inl hi) hid', ?_⟩, ?_⟩, ?_⟩
  · cases hm : cfg.maxDlc
    · simp
    · simp [hl hm]
  · simpa using hd
  · unfold kvMatching kvFlags
    rw [ofNat_strip hid', canIsExt_eq]
    cases m.ext <;> simp [hr] <;> omega

/-- Slave 0x102 with broadcast 0x103: its data message, the neighbour's, the broadcast, the extended
message with the same number, a remote request. -/
example : [⟨0x102, false, false, [0xFF, 0]⟩, ⟨0x104, false, false, [0xFF, 0]⟩, ⟨0x103, false, false, [0xFF, 0]⟩,
    ⟨0x102, true, false, [0xFF, 0]⟩, ⟨0x102, true, true, [0xFF, 0]⟩].map (kvDispatches Ex.can 0x102 0x103) =
    [true, false, false, false, true] := by decide

end Xcp
