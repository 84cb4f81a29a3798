import Verif.Props.C74_PredefSession
import Verif.Props.C08_Unknown
import Verif.Props.C06_Busy
/-
C97: with predefined lists, DAQ commands are refused while they may not be executed, with the error of the standard.
-/
set_option autoImplicit false
namespace Xcp
open Spec

/-- Commands that change what a list measures or when. -/
def Spec.configuresList : Cmd → Bool
  | .setDaqPtr | .writeDaq | .writeDaqMultiple | .setDaqListMode => true
  | _ => false

/-- Commands of measurements with predefined lists. -/
def Spec.usesLists : Cmd → Bool
  | .startStopDaqList | .startStopSynch | .getDaqProcessorInfo | .getDaqListInfo => true
  | c => configuresList c

/-- Why a command is refused, if it is: a measurement runs (DAQ_ACTIVE 0x11), a flash session is active (PGM_ACTIVE 0x12; also for
DISCONNECT and UNLOCK), measurement is locked (ACCESS_LOCKED 0x25). -/
def Spec.gateError (running programming locked : Bool) (c : Cmd) : Option UInt8 :=
  if configuresList c && running then some 0x11
  else if (usesLists c || c == .disconnect || c == .unlock) && programming then some 0x12
  else if usesLists c && locked then some 0x25
  else none

theorem pbind_ok {α β : Type} {r : Except Fault α} {f : α → Except Fault β} {b : β} (h : (r >>= f) = .ok b) : ∃ a, r = .ok a ∧ f a = .ok b := by
  cases r with
  | error e => cases h
  | ok a => exact ⟨a, rfl, h⟩

/-- C97: a command that is executed while one of the reasons holds is refused with that error; nothing changes, also not the
modes of the lists.  (WRITE_DAQ_MULTIPLE with more elements than fit in a packet is refused with OUT_OF_RANGE before.) -/
theorem C97_gates {cfg : PCfg} (hs : ShortOk cfg.base) (env : Env) {s s' : PSt} (hr : Ready s.st) {p : Pdu} {c : Cmd}
    (hp : code p = some (cmdCode c)) (hsup : cfg.base.supports c = true) {e : UInt8}
    (hg : gateError s.st.daq.running (s.st.pgm == .active) (cfg.base.resourceProtection && (s.st.resProt &&& 4 == 4)) c = some e)
    (hm : c = .writeDaqMultiple → ∀ n, p.buf[1]? = some n → n.toNat * 8 + 2 ≤ cfg.base.maxCto)
    (h : pStep cfg env s (.cmd p) = .ok s') : Refused cfg.base s.st s'.st e ∧ s'.modes = s.modes := by
  rw [hr.pstep env c hp hsup] at h
  have hb := bumpReceived_same cfg.base s.st
  suffices ∀ b : St, b.daq.running = s.st.daq.running → b.pgm = s.st.pgm → b.resProt = s.st.resProt →
      pHandler cfg env ⟨b, s.modes⟩ p c = .ok s' → s' = ⟨send8 cfg.base b [0xFE, e], s.modes⟩ by
    rw [this _ (by rw [hb.daq]) hb.pgm hb.resProt h]
    exact ⟨Refused.of_bump (refused_send8 hs _ _), rfl⟩
  intro b b1 b2 b3 h
  have hprot : isProtected cfg.base b RES_DAQ = (cfg.base.resourceProtection && (s.st.resProt &&& 4 == 4)) := by rw [isProtected, b3]; rfl
  rw [← b1, ← b2, ← hprot] at hg
  clear hprot b1 b2 b3 hb
  -- the three checks in their order
  have gates3 : ∀ k : PR, configuresList c = true → pDaqStopped cfg ⟨b, s.modes⟩ (pPgmIdle cfg ⟨b, s.modes⟩ (pUnlocked cfg ⟨b, s.modes⟩ k)) = .ok s' →
      s' = ⟨send8 cfg.base b [0xFE, e], s.modes⟩ := by
    intro k hc hk
    have hu : usesLists c = true := by cases c <;> first | rfl | cases hc
    simp only [pDaqStopped, pPgmIdle, pUnlocked] at hk
    simp only [gateError, hc, hu, Bool.true_and, Bool.true_or] at hg
    by_cases r1 : b.daq.running = true
    · rw [if_pos r1] at hk hg
      cases hg; cases hk; rfl
    · rw [if_neg r1] at hk hg
      by_cases r2 : b.pgm = .active
      · rw [if_pos r2] at hk; rw [if_pos (by simp [r2])] at hg
        cases hg; cases hk; rfl
      · rw [if_neg r2] at hk; rw [if_neg (by simpa using r2)] at hg
        split at hg
        · rename_i r3
          rw [if_pos r3] at hk
          cases hg; cases hk; rfl
        · cases hg
  have gates2 : ∀ k : PR, configuresList c = false → usesLists c = true → pPgmIdle cfg ⟨b, s.modes⟩ (pUnlocked cfg ⟨b, s.modes⟩ k) = .ok s' →
      s' = ⟨send8 cfg.base b [0xFE, e], s.modes⟩ := by
    intro k hc hu hk
    simp only [pPgmIdle, pUnlocked] at hk
    simp only [gateError, hc, hu, Bool.true_and, Bool.true_or, Bool.false_and, Bool.false_eq_true, if_false] at hg
    by_cases r2 : b.pgm = .active
    · rw [if_pos r2] at hk; rw [if_pos (by simp [r2])] at hg
      cases hg; cases hk; rfl
    · rw [if_neg r2] at hk; rw [if_neg (by simpa using r2)] at hg
      split at hg
      · rename_i r3
        rw [if_pos r3] at hk
        cases hg; cases hk; rfl
      · cases hg
  have gates1 : ∀ k : PR, usesLists c = false → configuresList c = false → pPgmIdle cfg ⟨b, s.modes⟩ k = .ok s' →
      s' = ⟨send8 cfg.base b [0xFE, e], s.modes⟩ := by
    intro k hu hc hk
    simp only [pPgmIdle] at hk
    simp only [gateError, hc, hu, Bool.false_and, Bool.false_or, Bool.false_eq_true, if_false] at hg
    split at hg
    · rename_i r2
      rw [if_pos (by simp at r2; exact r2.2)] at hk
      cases hg; cases hk; rfl
    · cases hg
  cases c <;> first | (simp [gateError, configuresList, usesLists] at hg; done) | skip
  case disconnect => exact gates1 _ rfl rfl h
  case unlock =>
    obtain ⟨_, -, h⟩ := pbind_ok h
    exact gates1 _ rfl rfl h
  case setDaqPtr => exact gates3 _ rfl h
  case writeDaq =>
    obtain ⟨_, -, h⟩ := pbind_ok h
    obtain ⟨_, -, h⟩ := pbind_ok h
    obtain ⟨_, -, h⟩ := pbind_ok h
    obtain ⟨_, -, h⟩ := pbind_ok h
    exact gates3 _ rfl h
  case setDaqListMode =>
    obtain ⟨_, -, h⟩ := pbind_ok h
    obtain ⟨_, -, h⟩ := pbind_ok h
    obtain ⟨_, -, h⟩ := pbind_ok h
    obtain ⟨_, -, h⟩ := pbind_ok h
    obtain ⟨_, -, h⟩ := pbind_ok h
    exact gates3 _ rfl h
  case writeDaqMultiple =>
    obtain ⟨n, hn, h⟩ := pbind_ok h
    have hb : p.buf[1]? = some n := by
      unfold Pdu.byte at hn
      split at hn
      · cases hn; assumption
      · cases hn
    have := hm rfl n hb
    rw [if_neg (by omega)] at h
    exact gates3 _ rfl h
  case startStopDaqList =>
    obtain ⟨_, -, h⟩ := pbind_ok h
    obtain ⟨_, -, h⟩ := pbind_ok h
    exact gates2 _ rfl rfl h
  case startStopSynch =>
    obtain ⟨_, -, h⟩ := pbind_ok h
    exact gates2 _ rfl rfl h
  case getDaqProcessorInfo => exact gates2 _ rfl rfl h
  case getDaqListInfo =>
    obtain ⟨_, -, h⟩ := pbind_ok h
    exact gates2 _ rfl rfl h

/-- While a measurement runs the mode of a list cannot be changed; while a flash session is active not even DISCONNECT is executed. -/
example : Ex.pans [[0xDE, 2, 0, 0], [0xDD, 1], [0xE0, 0, 1, 0, 2, 0, 1, 0]] = some [[0xFF, 0, 0, 0, 0, 0, 0, 0], [0xFF], [0xFE, 0x11]] := by decide +kernel

example : (Ex.pans [[0xD2], [0xFE], [0xDD, 1], [0xE2, 0, 0, 0, 0, 0]]).map (·.drop 1) = some [[0xFE, 0x12], [0xFE, 0x12], [0xFE, 0x12]] := by decide +kernel

/-- A running measurement is the first reason. -/
example : gateError true true true .setDaqPtr = some 0x11 ∧ gateError true true true .startStopSynch = some 0x12 ∧
    gateError true false true .startStopSynch = some 0x25 ∧ gateError true true true .getStatus = none := by decide

/-- C97: an accepted key takes exactly the locks away for which seeds were asked for, also with predefined lists; the answer tells the
locks that remain, the seed is used up, and nothing else changes. -/
theorem C97_unlock {cfg : PCfg} (hs : ShortOk cfg.base) (env : Env) {s : PSt} (hr : Ready s.st) {p : Pdu} {len : UInt8}
    (hp : code p = some 0xF7) (hsup : cfg.base.supports .unlock = true) (hpg : s.st.pgm ≠ .active) (hl : p.buf[1]? = some len)
    (hseed : s.st.seedReq ≠ 0) (hacc : env.unlock s.st.seedReq (p.buf.drop 2) len.toNat = true) :
    ∃ s' mask, pStep cfg env s (.cmd p) = .ok s' ∧ Answers cfg.base s.st s'.st [0xFF, mask] ∧ mask = s.st.resProt &&& ~~~s.st.seedReq ∧
      s'.st.resProt = mask ∧ s'.st.seedReq = 0 ∧ s'.modes = s.modes ∧ s'.st.daq = s.st.daq ∧ s'.st.mem = s.st.mem ∧ s'.st.connected = true := by
  rw [hr.pstep env .unlock hp hsup]
  have hb := bumpReceived_same cfg.base s.st
  obtain ⟨b, e⟩ : ∃ b, b = bumpReceived cfg.base s.st := ⟨_, rfl⟩
  rw [← e] at hb ⊢
  rw [← hb.pgm] at hpg
  rw [← hb.seedReq] at hseed hacc ⊢
  rw [← hb.resProt]
  refine ⟨⟨{ send8 cfg.base { b with resProt := b.resProt &&& ~~~b.seedReq } [0xFF, b.resProt &&& ~~~b.seedReq] with seedReq := 0 }, s.modes⟩,
    b.resProt &&& ~~~b.seedReq, ?_, ?_, rfl, ?_, rfl, rfl, ?_, ?_, ?_⟩
  · simp only [pHandler, pUnlockRes, byte_eq hl, ok_bind, pPgmIdle]
    rw [if_neg hpg, if_neg hseed, if_pos hacc]
  · obtain ⟨f, h1, h2⟩ := send8_answers (cfg := cfg.base) (s := { b with resProt := b.resProt &&& ~~~b.seedReq }) (s0 := s.st)
      (bs := [0xFF, b.resProt &&& ~~~b.seedReq]) hs (by simp) (by rw [e]; simp)
    exact ⟨f, h1, h2⟩
  · simp
  · simp [hb.daq]
  · simp [hb.mem]
  · simp [hb.connected, hr.1]

/-- C97: a wrong key is answered with ACCESS_LOCKED; the locks are those of the start, the seed is used up, the measurement stops and
the modes of the lists are cleared. -/
theorem C97_wrong_key {cfg : PCfg} (hc : Consistent cfg) (hs : ShortOk cfg.base) (hrp : cfg.base.resourceProtection = true) (env : Env) {s : PSt}
    (hr : Ready s.st) (hm : s.modes.length = cfg.lists.length) {p : Pdu} {len : UInt8}
    (hp : code p = some 0xF7) (hsup : cfg.base.supports .unlock = true) (hpg : s.st.pgm ≠ .active) (hl : p.buf[1]? = some len)
    (hseed : s.st.seedReq ≠ 0) (hrej : env.unlock s.st.seedReq (p.buf.drop 2) len.toNat = false) :
    ∃ s', pStep cfg env s (.cmd p) = .ok s' ∧ Answers cfg.base s.st s'.st [0xFE, 0x25] ∧
      (∀ r, isProtected cfg.base s'.st r = isProtected cfg.base (St.init cfg.base s.st.mem) r) ∧ s'.st.seedReq = 0 ∧
      s'.st.daq.running = false ∧ (∀ m ∈ s'.modes, m = 0) ∧ s'.modes.length = cfg.lists.length ∧
      s'.st.mem = s.st.mem ∧ s'.st.connected = true := by
  rw [hr.pstep env .unlock hp hsup]
  have hb := bumpReceived_same cfg.base s.st
  obtain ⟨b, e⟩ : ∃ b, b = bumpReceived cfg.base s.st := ⟨_, rfl⟩
  rw [← e] at hb ⊢
  rw [← hb.pgm] at hpg
  rw [← hb.seedReq] at hseed hrej
  have hd := pDaqInit_ok hc (s := ⟨{ errorResp cfg.base b ERR_ACCESS_LOCKED with resProt := defaultProt cfg.base, seedReq := 0 }, s.modes⟩) hm
  have h : pHandler cfg env ⟨b, s.modes⟩ p .unlock = .ok ⟨{ errorResp cfg.base b ERR_ACCESS_LOCKED with
      resProt := defaultProt cfg.base, seedReq := 0,
      daq := { (errorResp cfg.base b ERR_ACCESS_LOCKED).daq with running := false, ptr := ⟨0, 0, 0⟩, queue := queueInit } },
      List.replicate cfg.lists.length 0⟩ := by
    simp only [pHandler, pUnlockRes, byte_eq hl, ok_bind, pPgmIdle]
    rw [if_neg hpg, if_neg hseed, hrej]
    simp only [Bool.false_eq_true, if_false, pDisconnect, defaultResourceProtection, hrp, if_true]
    rw [hd]
    rfl
  refine ⟨_, h, ?_, ?_, rfl, rfl, ?_, ?_, ?_, ?_⟩
  · obtain ⟨f, h1, h2⟩ := send8_answers (cfg := cfg.base) (s := b) (s0 := s.st) (bs := [0xFE, 0x25]) hs (by simp) (by rw [e]; simp)
    exact ⟨f, h1, h2⟩
  · intro r
    simp [isProtected, St.init, hrp]
  · intro m hm
    exact List.eq_of_mem_replicate hm
  · simp
  · simp [hb.mem]
  · simp [hb.connected, hr.1]

/-- C97: also with predefined lists, a command that is not compiled in is refused as unknown (CMD_UNKNOWN 0x20) and changes nothing. -/
theorem C97_unknown {cfg : PCfg} (hs : ShortOk cfg.base) {s : PSt} (hr : Ready s.st) (env : Env) {p : Pdu} {b : UInt8} (hp : code p = some b)
    (hb : 0xC7 ≤ b.toNat) (hun : Disabled cfg.base b) :
    ∃ s', pStep cfg env s (.cmd p) = .ok s' ∧ Refused cfg.base s.st s'.st 0x20 ∧ s'.modes = s.modes := by
  obtain ⟨c, hc, hbc⟩ := table_hi hb
  have hoff : cfg.base.supports c = false := by
    cases h : cfg.base.supports c with
    | false => rfl
    | true => exact absurd (hbc ▸ hun) ((C08_offered cfg.base c).mp h)
  refine ⟨⟨send8 cfg.base (bumpReceived cfg.base s.st) [0xFE, ERR_CMD_UNKNOWN], s.modes⟩, ?_, ⟨send8_answers hs (by simp) (by simp),
    (bumpReceived_same cfg.base s.st).trans (send8_same ..)⟩, rfl⟩
  simp only [pStep, pDispatch, byte_of_code hp, ok_bind, hr.conn, hr.idle, hc, hoff]
  rfl

/-- C97: while a block upload or a checksum is in progress every command is refused as busy (CMD_BUSY 0x10). -/
theorem C97_busy {cfg : PCfg} (hs : ShortOk cfg.base) {s : PSt} (hc : s.st.connected = true) (hb : s.st.busy = true) (env : Env) {p : Pdu} (hp : p.buf ≠ []) :
    ∃ s', pStep cfg env s (.cmd p) = .ok s' ∧ Refused cfg.base s.st s'.st 0x10 ∧ s'.modes = s.modes := by
  obtain ⟨t, h1, h2⟩ := busy_refuses hs env hc hb hp
  refine ⟨⟨t, s.modes⟩, ?_, h2, rfl⟩
  obtain ⟨b, l, hl⟩ := List.exists_cons_of_ne_nil hp
  have e : p.byte 0 = .ok b := by simp [Pdu.byte, hl]
  simp only [step, dispatch, e, ok_bind, hc, hb] at h1
  cases h1
  simp only [pStep, pDispatch, e, ok_bind, hc, hb]
  rfl

/-- C97: before CONNECT no other command has an answer or an effect. -/
theorem C97_silent {cfg : PCfg} {s : PSt} (hc : s.st.connected = false) (env : Env) {p : Pdu} {b : UInt8} (hp : code p = some b) (hb : b ≠ 0xFF) :
    ∃ s', pStep cfg env s (.cmd p) = .ok s' ∧ s'.st.tx = s.st.tx ∧ SameCore s.st s'.st ∧ s'.modes = s.modes := by
  refine ⟨⟨bumpReceived cfg.base s.st, s.modes⟩, ?_, bumpReceived_tx .., bumpReceived_same .., rfl⟩
  simp only [pStep, pDispatch, byte_of_code hp, ok_bind, hc, hb]
  rfl

/-- The configuration of the examples with a lock on measurements. -/
def Ex.preSec : PCfg := { Ex.pre with base := Ex.sec }

/-- Measurement is locked; after the right key a list can be selected, a wrong key locks again. -/
example : Ex.pobs Ex.preSec ([[0xFF], [0xDE, 2, 0, 0], [0xF8, 0, 4], [0xF7, 4, 1, 2, 3, 4], [0xDE, 2, 0, 0], [0xF8, 0, 4], [0xF7, 4, 1, 2, 3, 5],
      [0xDE, 2, 0, 0]].map Ex.c) (fun s => ((s.st.tx.map fun f => f.bytes.drop 4).drop 1, s.modes)) =
    some ([[0xFE, 0x25], [0xFF, 4, 1, 2, 3, 4], [0xFF, 0x19], [0xFF, 0, 0, 0, 0, 0, 0, 0], [0xFF, 0], [0xFE, 0x25], [0xFE, 0x25]], [0, 0]) := by decide +kernel

/-- GET_SEED is off in the simulator. -/
example : Ex.pobs Ex.pre ([[0xFD], [0xFF], [0xF8, 0, 4]].map Ex.c) (fun s => (s.st.tx.map fun f => f.bytes.drop 4).drop 1) =
    some [[0xFE, 0x20]] := by decide +kernel

end Xcp
