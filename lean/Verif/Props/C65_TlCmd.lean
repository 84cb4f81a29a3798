import Verif.Proofs.TxHandlers
import Verif.Proofs.Params
import Verif.Proofs.Refuse
import Verif.Proofs.Ck
import Verif.Model.Example
/-
C65: the transport layer commands on CAN tell the identifiers in use.
-/
set_option autoImplicit false
namespace Xcp
open Spec

/-- C65, GET_SLAVE_ID: the bytes of "XCP", inverted in mode 1, and the identifier the slave sends with. -/
theorem C65_slave_id {cfg : Cfg} (hs : ShortOk cfg) (hsup : cfg.supports .transportLayerCmd = true)
    (hon : cfg.canGetSlaveId = true) (env : Env) {s : St} (hr : Ready s) (hpg : s.pgm ≠ .active) {p : Pdu} {b mode : UInt8}
    (hp : code p = some 0xF2) (h1 : p.buf[1]? = some 0xFF) (h2 : p.buf[2]? = some b) (h5 : p.buf[5]? = some mode) :
    ∃ (s' : St) (x c p' : UInt8), step cfg env s (.cmd p) = .ok s' ∧
      Answers cfg s s' ([0xFF, x, c, p'] ++ enc false 4 cfg.canOutId) ∧ SameCore s s' ∧
      (mode ≠ 1 → [x, c, p'] = ("XCP".toList.map fun k => UInt8.ofNat k.toNat)) ∧
      (mode = 1 → [x, c, p'] = "XCP".toList.map fun k => UInt8.ofNat (255 - k.toNat)) := by
  have key : step cfg env s (.cmd p) = .ok (send8 cfg (bumpReceived cfg s)
      ([0xFF, 0x58 ^^^ (if mode = 1 then 0xFF else 0), 0x43 ^^^ (if mode = 1 then 0xFF else 0), 0x50 ^^^ (if mode = 1 then 0xFF else 0)] ++
        leBytes 4 cfg.canOutId)) := by
    rw [hr.stepc env .transportLayerCmd hp hsup]
    simp only [handler, transportLayerCmdRes]
    rw [assertPgmIdle_pass (by simpa using hpg), byte_eq h1, ok_bind, if_pos ⟨hon, rfl⟩]
    simp only [getSlaveIdRes, byte_eq h2, byte_eq h5, ok_bind]
    rfl
  by_cases hm : mode = 1
  · refine ⟨_, 0xA7, 0xBC, 0xAF, key, ?_, (bumpReceived_same cfg s).trans (send8_same ..), fun h => absurd hm h,
      fun _ => by decide +kernel⟩
    rw [if_pos hm, ← leBytes_enc]
    exact send8_answers hs (by simp [leBytes_length]) (by simp)
  · refine ⟨_, 0x58, 0x43, 0x50, key, ?_, (bumpReceived_same cfg s).trans (send8_same ..), fun _ => by decide +kernel,
      fun h => absurd h hm⟩
    rw [if_neg hm, ← leBytes_enc]
    exact send8_answers hs (by simp [leBytes_length]) (by simp)

/-- C65, GET_DAQ_ID of an existing number: the identifier (fixed). -/
theorem C65_daq_id {cfg : Cfg} (hs : ShortOk cfg) (hsup : cfg.supports .transportLayerCmd = true)
    (hon : cfg.canGetDaqId = true) (env : Env) {s : St} (hr : Ready s) (hpg : s.pgm ≠ .active) {p : Pdu} {n : UInt8} {v : Nat}
    (hp : code p = some 0xF2) (h1 : p.buf[1]? = some 0xFE) (h2 : p.buf[2]? = some n) (hv : cfg.canDaqIds[n.toNat]? = some v) :
    ∃ s', step cfg env s (.cmd p) = .ok s' ∧ Answers cfg s s' ([0xFF, 1, 0, 0] ++ enc false 4 v) ∧ SameCore s s' := by
  refine ⟨send8 cfg (bumpReceived cfg s) ([0xFF, 1, 0, 0] ++ leBytes 4 v), ?_, ?_, (bumpReceived_same cfg s).trans (send8_same ..)⟩
  · rw [hr.stepc env .transportLayerCmd hp hsup]
    simp only [handler, transportLayerCmdRes]
    rw [assertPgmIdle_pass (by simpa using hpg), byte_eq h1, ok_bind, if_neg (by simp), if_pos ⟨hon, rfl⟩]
    simp only [getDaqIdRes, byte_eq h2, ok_bind, hv]
    rfl
  · rw [← leBytes_enc]
    exact send8_answers hs (by simp [leBytes_length]) (by simp)

/-- C65, GET_DAQ_ID of another number: refused. -/
theorem C65_daq_id_refused {cfg : Cfg} (hs : ShortOk cfg) (hsup : cfg.supports .transportLayerCmd = true)
    (hon : cfg.canGetDaqId = true) (env : Env) {s : St} (hr : Ready s) (hpg : s.pgm ≠ .active) {p : Pdu} {n : UInt8}
    (hp : code p = some 0xF2) (h1 : p.buf[1]? = some 0xFE) (h2 : p.buf[2]? = some n) (hv : cfg.canDaqIds.length ≤ n.toNat) :
    ∃ s', step cfg env s (.cmd p) = .ok s' ∧ Refused cfg s s' 0x22 := by
  refine ⟨_, ?_, Refused.of_bump (refused_send8 hs _ _)⟩
  rw [hr.stepc env .transportLayerCmd hp hsup]
  simp only [handler, transportLayerCmdRes]
  rw [assertPgmIdle_pass (by simpa using hpg), byte_eq h1, ok_bind, if_neg (by simp), if_pos ⟨hon, rfl⟩]
  simp only [getDaqIdRes, byte_eq h2, ok_bind, List.getElem?_eq_none hv]
  rfl

/-- C65: other subcommands are refused as unknown. -/
theorem C65_unknown {cfg : Cfg} (hs : ShortOk cfg) (hsup : cfg.supports .transportLayerCmd = true) (env : Env) {s : St}
    (hr : Ready s) (hpg : s.pgm ≠ .active) {p : Pdu} {b : UInt8} (hp : code p = some 0xF2) (h1 : p.buf[1]? = some b)
    (hb : (b = 0xFF → cfg.canGetSlaveId = false) ∧ (b = 0xFE → cfg.canGetDaqId = false) ∧ (b = 0xFD → cfg.canSetDaqId = false)) :
    ∃ s', step cfg env s (.cmd p) = .ok s' ∧ Refused cfg s s' 0x20 := by
  refine ⟨_, ?_, Refused.of_bump (refused_send8 hs _ _)⟩
  rw [hr.stepc env .transportLayerCmd hp hsup]
  simp only [handler, transportLayerCmdRes]
  rw [assertPgmIdle_pass (by simpa using hpg), byte_eq h1, ok_bind, if_neg, if_neg, if_neg]
  · rfl
  · rintro ⟨h, h'⟩; rw [hb.2.2 h'] at h; cases h
  · rintro ⟨h, h'⟩; rw [hb.2.1 h'] at h; cases h
  · rintro ⟨h, h'⟩; rw [hb.1 h'] at h; cases h

/-- SET_DAQ_ID is neither executed nor answered. -/
theorem C65_set_fails {cfg : Cfg} (hsup : cfg.supports .transportLayerCmd = true) (hon : cfg.canSetDaqId = true) (env : Env)
    {s : St} (hr : Ready s) (hpg : s.pgm ≠ .active) {p : Pdu} (hp : code p = some 0xF2) (h1 : p.buf[1]? = some 0xFD) :
    ∃ s', step cfg env s (.cmd p) = .ok s' ∧ s'.tx = s.tx ∧ SameCore s s' := by
  refine ⟨bumpReceived cfg s, ?_, bumpReceived_tx cfg s, bumpReceived_same cfg s⟩
  rw [hr.stepc env .transportLayerCmd hp hsup]
  simp only [handler, transportLayerCmdRes]
  rw [assertPgmIdle_pass (by simpa using hpg), byte_eq h1, ok_bind, if_neg (by simp), if_neg (by simp), if_pos ⟨hon, rfl⟩]
  rfl

/-- GET_SLAVE_ID in both modes, GET_DAQ_ID of numbers 1 and 2, and the same unconnected: a master that looks for
slaves with GET_SLAVE_ID (a broadcast before any CONNECT) gets no answer. -/
theorem C65_discovery_fails :
    Ex.frames Ex.can [Ex.c [0xF2, 0xFF, 0x58, 0x43, 0x50, 0]] = some [] ∧
    Ex.frames Ex.can [Ex.c [0xFF], Ex.c [0xF2, 0xFF, 0x58, 0x43, 0x50, 0], Ex.c [0xF2, 0xFF, 0x58, 0x43, 0x50, 1],
        Ex.c [0xF2, 0xFE, 1], Ex.c [0xF2, 0xFE, 2]] =
      some [[0xFF, 0x15, 0xC0, 8, 8, 0, 1, 1], [0xFF, 0x58, 0x43, 0x50, 1, 3, 0, 0], [0xFF, 0xA7, 0xBC, 0xAF, 1, 3, 0, 0],
        [0xFF, 1, 0, 0, 2, 3, 0, 0], [0xFE, 0x22]] := by decide +kernel

end Xcp
