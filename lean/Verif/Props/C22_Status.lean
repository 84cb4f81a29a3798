import Verif.Props.C18_LockedDaq
import Verif.Props.C19_LockedPgm
import Verif.Props.C17_LockedCal
/-
C22: GET_STATUS reports the protection that is enforced.

True for DAQ and PGM.  The CAL/PAG bit is reported but not enforced, see C17
(`C22_fails_cal`).
-/
set_option autoImplicit false
namespace Xcp
open Spec

/-- No packet sent between the two states is an ERR_ACCESS_LOCKED. -/
def Spec.NoLockedErr (cfg : Cfg) (s s' : St) : Prop :=
  ∃ fs : List Frame, s'.tx = s.tx ++ fs ∧ ∀ f ∈ fs, (payload cfg f).take 2 ≠ [0xFE, 0x25]

/-- GET_STATUS answers with the protection mask. -/
theorem C22_get_status {cfg : Cfg} (hs : ShortOk cfg) (env : Env) {s : St} (hr : Ready s) {p : Pdu}
    (hp : code p = some 0xFD) :
    ∃ s' mask, step cfg env s (.cmd p) = .ok s' ∧ Answers cfg s s' [0xFF, 0, mask, 0, 0, 0] ∧ SameCore s s' ∧
      (∀ r, r ≠ 0 → (mask &&& r = r ↔ isProtected cfg s r = true)) := by
  refine ⟨send8 cfg (bumpReceived cfg s) [0xFF, 0, if cfg.resourceProtection then s.resProt else 0, 0, 0, 0],
    if cfg.resourceProtection then s.resProt else 0, ?_, ?_, ?_, ?_⟩
  · rw [hr.stepc env .getStatus hp rfl]
    simp only [handler, getStatusRes, bumpReceived_resProt]
  · exact send8_answers hs (by simp) (by simp)
  · exact (bumpReceived_same cfg s).trans (send8_same ..)
  · intro r hr
    unfold isProtected
    cases cfg.resourceProtection
    · simp
      exact fun h => hr h.symm
    · simp

/-- Without GET_SEED or without UNLOCK there is no protection, and GET_STATUS says so (inc/xcp.h:150-159). -/
theorem C22_without {cfg : Cfg} (hs : ShortOk cfg) (env : Env) {s : St} (hr : Ready s) {p : Pdu} (hp : code p = some 0xFD)
    (hoff : cfg.on .getSeed = false ∨ cfg.on .unlock = false) :
    (∀ r, isProtected cfg s r = false) ∧
      ∃ s', step cfg env s (.cmd p) = .ok s' ∧ Answers cfg s s' [0xFF, 0, 0, 0, 0, 0] ∧ SameCore s s' := by
  have hn : cfg.resourceProtection = false := by
    unfold Cfg.resourceProtection
    rcases hoff with h | h <;> simp [h]
  refine ⟨fun r => by simp [isProtected, hn], send8 cfg (bumpReceived cfg s) [0xFF, 0, 0, 0, 0, 0], ?_, ?_, ?_⟩
  · rw [hr.stepc env .getStatus hp rfl]
    simp [handler, getStatusRes, hn]
  · exact send8_answers hs (by simp) (by simp)
  · exact (bumpReceived_same cfg s).trans (send8_same ..)

/-- With both of them, what is not yet unlocked is protected. -/
theorem C22_with {cfg : Cfg} (h1 : cfg.on .getSeed = true) (h2 : cfg.on .unlock = true) (s : St) (r : UInt8) :
    isProtected cfg s r = true ↔ s.resProt &&& r = r := by
  simp [isProtected, Cfg.resourceProtection, h1, h2]

/-- UNLOCK with an accepted key answers with the new protection mask. -/
theorem C22_unlock {cfg : Cfg} (hs : ShortOk cfg) (hrp : cfg.resourceProtection = true) (env : Env) {s : St}
    {p : Pdu} {len : UInt8} (hx : executes cfg s p .unlock) (hpg : s.pgm ≠ .active) (hl : p.buf[1]? = some len)
    (hseed : s.seedReq ≠ 0) (hacc : env.unlock s.seedReq (p.buf.drop 2) len.toNat = true) :
    ∃ s' mask, step cfg env s (.cmd p) = .ok s' ∧ Answers cfg s s' [0xFF, mask] ∧
      (∀ r, mask &&& r = r ↔ isProtected cfg s' r = true) ∧
      (∀ r, isProtected cfg s r = true → s.seedReq &&& r = 0 → isProtected cfg s' r = true) := by
  obtain ⟨b, hb⟩ : ∃ b, b = bumpReceived cfg s := ⟨_, rfl⟩
  have e1 : b.pgm = s.pgm := by rw [hb]; simp
  have e2 : b.seedReq = s.seedReq := by rw [hb]; simp
  have e3 : b.resProt = s.resProt := by rw [hb]; simp
  have e4 : b.tx = s.tx := by rw [hb]; simp
  rw [← e1] at hpg
  rw [← e2] at hseed hacc ⊢
  refine ⟨{ send8 cfg { b with resProt := b.resProt &&& ~~~b.seedReq } [0xFF, b.resProt &&& ~~~b.seedReq] with
    seedReq := 0 }, b.resProt &&& ~~~b.seedReq, ?_, ?_, ?_, ?_⟩
  · rw [executes_step env hx, ← hb]
    simp only [handler, unlockRes, byte_eq hl, ok_bind, assertPgmIdle]
    rw [if_neg hpg, if_neg hseed, if_pos hacc]
  · obtain ⟨f, h1, h2⟩ := send8_answers (cfg := cfg) (s := { b with resProt := b.resProt &&& ~~~b.seedReq }) (s0 := s)
      (bs := [0xFF, b.resProt &&& ~~~b.seedReq]) hs (by simp) e4
    exact ⟨f, h1, h2⟩
  · intro r
    simp [isProtected, hrp]
  · intro r h1 h2
    simp only [isProtected, hrp, Bool.true_and, beq_iff_eq, ← e3] at h1 ⊢
    exact u8_keep h1 h2

theorem Spec.NoLockedErr.refl (cfg : Cfg) (s : St) : NoLockedErr cfg s s := ⟨[], by simp, by simp⟩

theorem Spec.NoLockedErr.send8 {cfg : Cfg} (hs : ShortOk cfg) {s0 s : St} {bs : List UInt8} (h : NoLockedErr cfg s0 s)
    (h8 : bs.length ≤ 8) (hb : bs.head? = some 0xFF ∨ ∃ e, bs = [0xFE, e] ∧ e ≠ 0x25) :
    NoLockedErr cfg s0 (Xcp.send8 cfg s bs) := by
  obtain ⟨fs, h1, h2⟩ := h
  obtain ⟨f, g1, -, g2, g3⟩ := send8_answers (cfg := cfg) (s := s) (s0 := s) (bs := bs) hs h8 rfl
  refine ⟨fs ++ [f], by rw [g1, h1, List.append_assoc], ?_⟩
  intro f' hf
  rcases List.mem_append.mp hf with hf | hf
  · exact h2 f' hf
  · simp only [List.mem_singleton] at hf
    subst hf
    intro he
    rcases hb with hb | ⟨e, rfl, hne⟩
    · match bs, hb with
      | a :: rest, hb =>
        simp only [List.head?_cons, Option.some.injEq] at hb
        subst hb
        cases hp : payload cfg f' with
        | nil => rw [hp] at he; simp at he
        | cons b tl => rw [hp] at g2 he; simp at g2 he; rw [g2.1] at he; exact absurd he.1 (by decide)
    · rw [show ([0xFE, e] : List UInt8).length = 2 from rfl, he] at g2
      simp at g2
      exact hne g2.symm

theorem Spec.NoLockedErr.sent {cfg : Cfg} (hs : ShortOk cfg) {s0 s t : St} {bs : List UInt8} (h : NoLockedErr cfg s0 s)
    (ht : t.tx = s.tx) (h8 : bs.length ≤ 8) (hb : bs.head? = some 0xFF ∨ ∃ e, bs = [0xFE, e] ∧ e ≠ 0x25) :
    NoLockedErr cfg s0 (Xcp.send8 cfg t bs) := by
  obtain ⟨fs, h1, h2⟩ := h
  exact NoLockedErr.send8 hs ⟨fs, by rw [ht, h1], h2⟩ h8 hb

theorem allocDaq_code (cfg : Cfg) (d : Daq) (n : Nat) : (allocDaq cfg d n).2 ≠ 0x25 := by
  unfold allocDaq; repeat' split
  all_goals (dsimp only; decide)
theorem allocOdt_code (cfg : Cfg) (d : Daq) (l n : Nat) : Post (allocOdt cfg d l n) (fun r => r.2 ≠ 0x25) := by
  unfold allocOdt
  post
  all_goals (dsimp only; decide)
theorem allocOdtEntry_code (cfg : Cfg) (d : Daq) (l o n : Nat) : Post (allocOdtEntry cfg d l o n) (fun r => r.2 ≠ 0x25) := by
  unfold allocOdtEntry
  post
  all_goals (dsimp only; decide)
theorem daqFree_code (d : Daq) : daqFreeResult d ≠ 0x25 := by
  unfold daqFreeResult; split <;> decide

theorem result_ok {c : UInt8} (h : c ≠ 0x25) :
    (if c = ERR_SUCCESS then [0xFF] else [0xFE, c]).head? = some 0xFF ∨
      ∃ e, (if c = ERR_SUCCESS then [0xFF] else [0xFE, c]) = [0xFE, e] ∧ e ≠ 0x25 := by
  split
  · left; rfl
  · right; exact ⟨c, rfl, h⟩

theorem result_len (c : UInt8) : (if c = ERR_SUCCESS then [0xFF] else [0xFE, c]).length ≤ 8 := by split <;> simp

theorem unlocked_daq_handler {cfg : Cfg} (hs : ShortOk cfg) (env : Env) {s : St} (hu : isProtected cfg s RES_DAQ = false)
    (p : Pdu) (c : Cmd) (hc : c.group = .daq) : Post (handler cfg env s p c) (NoLockedErr cfg s) := by
  have h0 := NoLockedErr.refl cfg s
  cases c <;> first | (simp [Cmd.group] at hc; done) | skip
  all_goals unfold_handlers
  all_goals post
  all_goals first
    | exact absurd ‹isProtected cfg s RES_DAQ = true› (by rw [hu]; decide)
    | skip
  all_goals first
    | exact h0.sent hs rfl (by simp [leBytes_two, leBytes_four]) (Or.inl rfl)
    | exact h0.sent hs rfl (by simp) (Or.inr ⟨_, rfl, by decide⟩)
    | exact (h0.sent hs rfl (by simp) (Or.inr ⟨_, rfl, by decide⟩)).sent hs rfl (by simp) (Or.inl rfl)
    | exact (h0.sent hs rfl (by simp) (Or.inr ⟨_, rfl, by decide⟩)).sent hs rfl (by simp) (Or.inr ⟨_, rfl, by decide⟩)
    | exact h0.sent hs rfl (result_len _) (result_ok (by decide))
    | exact h0.sent hs rfl (result_len _) (result_ok (daqFree_code _))
    | exact h0.sent hs rfl (result_len _) (result_ok (allocDaq_code _ _ _))
    | exact h0.sent hs rfl (result_len _) (result_ok (allocOdt_code _ _ _ _ _ ‹_›))
    | exact h0.sent hs rfl (result_len _) (result_ok (allocOdtEntry_code _ _ _ _ _ _ ‹_›))
    | skip

theorem unlocked_pgm_handler {cfg : Cfg} (hs : ShortOk cfg) (env : Env) {s : St} (hu : isProtected cfg s RES_PGM = false)
    (p : Pdu) : Post (handler cfg env s p .programStart) (NoLockedErr cfg s) := by
  have h0 := NoLockedErr.refl cfg s
  unfold_handlers
  post
  all_goals first
    | exact absurd ‹isProtected cfg s RES_PGM = true› (by rw [hu]; decide)
    | exact h0.sent hs rfl (by simp) (Or.inl rfl)
    | exact h0.sent hs rfl (by simp) (Or.inr ⟨_, rfl, by decide⟩)

theorem Spec.NoLockedErr.of_bump {cfg : Cfg} {s s' : St} (h : NoLockedErr cfg (bumpReceived cfg s) s') :
    NoLockedErr cfg s s' := by
  obtain ⟨fs, h1, h2⟩ := h
  exact ⟨fs, by simpa using h1, h2⟩

theorem isProtected_bump (cfg : Cfg) (s : St) (r : UInt8) : isProtected cfg (bumpReceived cfg s) r = isProtected cfg s r := by
  simp [isProtected]

theorem status_locked {cfg : Cfg} {s : St} {r : UInt8} (h : isProtected cfg s r = true) : Locked cfg s r := by
  simpa [isProtected, Locked] using h

/-- C22 for the DAQ resource: the bit of the GET_STATUS response says whether the DAQ
commands are refused with ERR_ACCESS_LOCKED (READ_DAQ is not implemented; WRITE_DAQ_MULTIPLE
checks its element count first). -/
theorem C22_daq {cfg : Cfg} (hs : ShortOk cfg) (env : Env) {s t : St} {mask : UInt8} {p q : Pdu} (hr : Ready s)
    (hp : code p = some 0xFD) (ht : step cfg env s (.cmd p) = .ok t) (ha : Answers cfg s t [0xFF, 0, mask, 0, 0, 0])
    {env' : Env} {c : Cmd} (hx : executes cfg t q c) (hc : daqCode (cmdCode c)) {u : St}
    (hu : step cfg env' t (.cmd q) = .ok u) :
    (mask &&& 4 = 4 → t.pgm ≠ .active → t.daq.running = false → c ≠ .writeDaqMultiple → c ≠ .readDaq →
      Refused cfg t u 0x25) ∧
    (mask &&& 4 ≠ 4 → NoLockedErr cfg t u) := by
  obtain ⟨t', mask', h1, h2, h3, h4⟩ := C22_get_status hs env hr hp
  rw [ht] at h1
  cases h1
  have hm : mask' = mask := by
    obtain ⟨f, e1, -, e2, -⟩ := ha
    obtain ⟨g, e3, -, e4, -⟩ := h2
    rw [e1] at e3
    have : f = g := by simpa using e3
    subst this
    rw [show ([0xFF, 0, mask, 0, 0, 0] : List UInt8).length = 6 from rfl] at e2
    rw [show ([0xFF, 0, mask', 0, 0, 0] : List UInt8).length = 6 from rfl, e2] at e4
    simpa using e4.symm
  subst hm
  have hprot : isProtected cfg t RES_DAQ = isProtected cfg s RES_DAQ := by simp [isProtected, h3.resProt]
  constructor
  · intro hbit hpg hrun hc1 hc2
    exact C18_access_locked hs env' (status_locked (hprot.trans ((h4 4 (by decide)).mp hbit))) hpg hrun hx hc hc1 hc2 hu
  · intro hbit
    have hf : isProtected cfg t RES_DAQ = false := by
      rw [hprot]
      exact Bool.eq_false_iff.mpr (fun h => hbit ((h4 4 (by decide)).mpr h))
    rw [executes_step env' hx] at hu
    exact (unlocked_daq_handler hs env' (by rw [isProtected_bump]; exact hf) q c (group_of_daqCode hc) u hu).of_bump

/-- C22 for the PGM resource. -/
theorem C22_pgm {cfg : Cfg} (hs : ShortOk cfg) (env : Env) {s t : St} {mask : UInt8} {p q : Pdu} (hr : Ready s)
    (hp : code p = some 0xFD) (ht : step cfg env s (.cmd p) = .ok t) (ha : Answers cfg s t [0xFF, 0, mask, 0, 0, 0])
    {env' : Env} (hx : executes cfg t q .programStart) {u : St} (hu : step cfg env' t (.cmd q) = .ok u) :
    (mask &&& 16 = 16 → Refused cfg t u 0x25) ∧ (mask &&& 16 ≠ 16 → NoLockedErr cfg t u) := by
  obtain ⟨t', mask', h1, h2, h3, h4⟩ := C22_get_status hs env hr hp
  rw [ht] at h1
  cases h1
  have hm : mask' = mask := by
    obtain ⟨f, e1, -, e2, -⟩ := ha
    obtain ⟨g, e3, -, e4, -⟩ := h2
    rw [e1] at e3
    have : f = g := by simpa using e3
    subst this
    rw [show ([0xFF, 0, mask, 0, 0, 0] : List UInt8).length = 6 from rfl] at e2
    rw [show ([0xFF, 0, mask', 0, 0, 0] : List UInt8).length = 6 from rfl, e2] at e4
    simpa using e4.symm
  subst hm
  have hprot : isProtected cfg t RES_PGM = isProtected cfg s RES_PGM := by simp [isProtected, h3.resProt]
  constructor
  · intro hbit
    obtain ⟨u', h5, h6⟩ := C19_start_refused hs env'
      (status_locked (hprot.trans ((h4 16 (by decide)).mp hbit))) hx
    rw [hu] at h5
    cases h5
    exact h6
  · intro hbit
    have hf : isProtected cfg t RES_PGM = false := by
      rw [hprot]
      exact Bool.eq_false_iff.mpr (fun h => hbit ((h4 16 (by decide)).mpr h))
    rw [executes_step env' hx] at hu
    exact (unlocked_pgm_handler hs env' (by rw [isProtected_bump]; exact hf) q u hu).of_bump

/-- The statement for the calibration resource is false: bit 0 is reported as protected and
DOWNLOAD is accepted. -/
theorem C22_fails_cal :
    ∃ s t, run Ex.sec (St.init Ex.sec Ex.mem) [Ex.c [0xFF], Ex.c [0xF6, 0, 0, 0, 0, 0x10, 0, 0], Ex.c [0xFD]] = .ok s ∧
      step Ex.sec Ex.env s (.cmd (Ex.pkt [0xF0, 1, 77])) = .ok t ∧
      s.tx.map Frame.bytes = [[8, 0, 0, 0, 0xFF, 0x15, 0x80, 64, 64, 0, 1, 1], [1, 0, 1, 0, 0xFF],
        [6, 0, 2, 0, 0xFF, 0, 0x1D, 0, 0, 0]] ∧
      (t.tx.map Frame.bytes).getLast? = some [1, 0, 3, 0, 0xFF] := by
  refine ⟨_, _, rfl, rfl, ?_, ?_⟩ <;> decide +kernel

/-- After unlocking DAQ, GET_STATUS shows the remaining protection and DAQ commands are
accepted. -/
example : Ex.frames Ex.sec [Ex.c [0xFF], Ex.c [0xD6], Ex.c [0xF8, 0, 4], Ex.c [0xF7, 4, 1, 2, 3, 4], Ex.c [0xFD],
    Ex.c [0xD6], Ex.c [0xD2]] =
    some [[8, 0, 0, 0, 0xFF, 0x15, 0x80, 64, 64, 0, 1, 1], [2, 0, 1, 0, 0xFE, 0x25], [6, 0, 2, 0, 0xFF, 4, 1, 2, 3, 4],
      [2, 0, 3, 0, 0xFF, 0x19], [6, 0, 4, 0, 0xFF, 0, 0x19, 0, 0, 0], [1, 0, 5, 0, 0xFF], [2, 0, 6, 0, 0xFE, 0x25]] := by
  decide +kernel

end Xcp
