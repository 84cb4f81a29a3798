import Verif.Proofs.Table
import Verif.Proofs.Busy
import Verif.Model.Example
/-
C09: DISCONNECT ends the session.

The slave does stop and free data acquisition and restores the default protection
(`C09_disconnect_partial`), but it stays connected and goes on executing commands
(`C09_fails_still_connected`, for every configuration and state).
-/
set_option autoImplicit false
namespace Xcp
open Spec

/-- The part of C09 that holds: acquisition stopped and freed, default protection back. -/
theorem C09_disconnect_partial {cfg : Cfg} (hs : ShortOk cfg) {s : St} (hr : Ready s) (env : Env) {p : Pdu}
    (hp : code p = some (cmdCode .disconnect)) (hpg : s.pgm ≠ .active) :
    ∃ s', step cfg env s (.cmd p) = .ok s' ∧ Answers cfg s s' [0xFF] ∧
      (cfg.daq = true → s'.daq.running = false ∧ s'.daq.listCount = 0 ∧ s'.daq.entityCount = 0) ∧
      (cfg.resourceProtection = true → s'.seedReq = 0 ∧
        (∀ r, isProtected cfg s' r = isProtected cfg (St.init cfg (fun _ => 0)) r)) ∧
      s'.mem = s.mem := by
  refine ⟨apiDisconnect cfg (positive cfg (bumpReceived cfg s)), ?_, ?_, ?_, ?_, ?_⟩
  · rw [hr.stepc env .disconnect hp rfl]
    simp [handler, disconnectRes, assertPgmIdle, hpg]
  · obtain ⟨f, h1, h2⟩ := send8_answers (cfg := cfg) (s := bumpReceived cfg s) (s0 := s) (bs := [0xFF]) hs
      (by simp) (by simp)
    exact ⟨f, by simpa using h1, h2⟩
  · intro hd
    simp [apiDisconnect, hd, daqInit, daqFree, allocOk]
  · intro hrp
    simp [apiDisconnect, defaultResourceProtection, hrp, isProtected, St.init]
    split <;> simp
  · simp

/-- C09 fails: after the DISCONNECT the slave is still connected, and not busy, so that it
executes the next command whatever it is. -/
theorem C09_fails_still_connected {cfg : Cfg} {s : St} (hr : Ready s) (env : Env) {p : Pdu}
    (hp : code p = some (cmdCode .disconnect)) :
    ∃ s', step cfg env s (.cmd p) = .ok s' ∧ Ready s' := by
  rw [hr.stepc env .disconnect hp rfl]
  simp only [handler, disconnectRes, assertPgmIdle]
  split
  · exact ⟨_, rfl, by constructor <;> simp [hr.conn, hr.idle]⟩
  · exact ⟨_, rfl, by constructor <;> simp [hr.conn, hr.idle]⟩

/-- C09 fails: on the simulator memory can be read after DISCONNECT. -/
theorem C09_fails_upload_after_disconnect :
    Ex.frames Ex.sim [Ex.c [0xFF], Ex.c [0xFE], Ex.c [0xF4, 2, 0, 0, 0x34, 0x12, 0, 0]] =
      some [[8, 0, 0, 0, 0xFF, 0x15, 0x80, 64, 64, 0, 1, 1], [1, 0, 1, 0, 0xFF], [3, 0, 2, 0, 0xFF, 0x34, 0x35]] := by
  decide +kernel

/-- The partial theorem applied: a configured and running acquisition is gone after
DISCONNECT. -/
example : Ex.obs Ex.sim [Ex.c [0xFF], Ex.c [0xD6], Ex.c [0xD5, 0, 1, 0], Ex.c [0xDD, 1]]
      (fun s => (s.daq.running, s.daq.listCount)) = some (true, 1) ∧
    Ex.obs Ex.sim [Ex.c [0xFF], Ex.c [0xD6], Ex.c [0xD5, 0, 1, 0], Ex.c [0xDD, 1], Ex.c [0xFE]]
      (fun s => (s.daq.running, s.daq.listCount)) = some (false, 0) := by decide +kernel

end Xcp
