import Verif.Proofs.Refuse
import Verif.Model.Example
/-
C21: a wrong key costs the session's privileges.
-/
set_option autoImplicit false
namespace Xcp
open Spec

/-- C21.  The UNLOCK packet is executed after a GET_SEED (some seed is pending), and the hook
rejects the key. -/
theorem C21_wrong_key {cfg : Cfg} (hs : ShortOk cfg) (hrp : cfg.resourceProtection = true) (env : Env) {s : St}
    {p : Pdu} {len : UInt8} (hx : executes cfg s p .unlock) (hpg : s.pgm ≠ .active) (hl : p.buf[1]? = some len)
    (hseed : s.seedReq ≠ 0) (hrej : env.unlock s.seedReq (p.buf.drop 2) len.toNat = false) :
    ∃ s', step cfg env s (.cmd p) = .ok s' ∧ Answers cfg s s' [0xFE, 0x25] ∧
      (∀ r, isProtected cfg s' r = isProtected cfg (St.init cfg s.mem) r) ∧
      s'.seedReq = 0 ∧
      (cfg.daq = true → s'.daq.running = false ∧ s'.daq.listCount = 0 ∧ s'.daq.entityCount = 0 ∧ s'.daq.odtCount = 0) ∧
      s'.mem = s.mem ∧ s'.mta = s.mta ∧ s'.connected = true := by
  refine ⟨{ apiDisconnect cfg (errorResp cfg (bumpReceived cfg s) ERR_ACCESS_LOCKED) with seedReq := 0 }, ?_, ?_, ?_, rfl, ?_, ?_, ?_, ?_⟩
  · rw [executes_step env hx]
    simp only [handler, unlockRes, byte_eq hl, ok_bind, assertPgmIdle, bumpReceived_pgm, bumpReceived_seedReq, hrej]
    rw [if_neg hpg, if_neg hseed]
    rfl
  · obtain ⟨f, h1, h2⟩ := send8_answers (cfg := cfg) (s := bumpReceived cfg s) (s0 := s) (bs := [0xFE, 0x25]) hs
      (by simp) (by simp)
    exact ⟨f, by simpa [ERR_ACCESS_LOCKED] using h1, h2⟩
  · intro r
    show (cfg.resourceProtection && ((apiDisconnect cfg _).resProt &&& r == r)) = _
    rw [apiDisconnect_resProt _ hrp]
    simp [isProtected, St.init, hrp]
  · intro hd
    show (apiDisconnect cfg _).daq.running = false ∧ (apiDisconnect cfg _).daq.listCount = 0 ∧
      (apiDisconnect cfg _).daq.entityCount = 0 ∧ (apiDisconnect cfg _).daq.odtCount = 0
    rw [apiDisconnect_daq, if_pos hd]
    simp [daqInit, daqFree, allocOk]
  · simp
  · simp
  · simpa using hx.1

/-- The slave had DAQ unlocked and an acquisition running; a wrong key for PGM ends both. -/
example :
    let h := [Ex.c [0xFF], Ex.c [0xF8, 0, 4], Ex.c [0xF7, 4, 1, 2, 3, 4], Ex.c [0xD6], Ex.c [0xD5, 0, 1, 0], Ex.c [0xDD, 1]]
    Ex.obs Ex.sec h (fun s => (s.resProt, s.daq.running, s.daq.listCount)) = some (0x19, true, 1) ∧
    Ex.obs Ex.sec (h ++ [Ex.c [0xF8, 0, 0x10], Ex.c [0xF7, 4, 1, 2, 3, 5]])
      (fun s => (s.resProt, s.daq.running, s.daq.listCount, s.seedReq, (s.tx.map Frame.bytes).getLast?)) =
      some (0x1D, false, 0, 0, some [2, 0, 7, 0, 0xFE, 0x25]) := by decide +kernel

end Xcp
