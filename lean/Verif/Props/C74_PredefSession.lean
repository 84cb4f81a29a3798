import Verif.Props.C73_PredefInfo
/-
C74: with predefined lists a session does not see the DAQ state of the one before.

DISCONNECT stops the acquisition and resets modes, DAQ pointer and queue.  The assignment of lists to events survives
(`C74_fails_events`).
-/
set_option autoImplicit false
namespace Xcp
open Spec

/-- C74, partial: after DISCONNECT nothing is acquired, no list is selected or started, the DAQ pointer is reset, and
the queue is empty.  The event assignments and the memory stay. -/
theorem C74_disconnect_partial {cfg : PCfg} (hc : Consistent cfg) (hs : ShortOk cfg.base) (env : Env) {s : PSt} (hr : Ready s.st)
    (hi : PInv cfg s) (hsup : cfg.base.supports .disconnect = true) (hpgm : s.st.pgm ≠ .active) {p : Pdu} (hp : code p = some 0xFE) :
    ∃ s', pStep cfg env s (.cmd p) = .ok s' ∧ Answers cfg.base s.st s'.st [0xFF] ∧ s'.st.daq.running = false ∧
      (∀ m ∈ s'.modes, m = 0) ∧ s'.modes.length = cfg.lists.length ∧ s'.st.daq.ptr = ⟨0, 0, 0⟩ ∧ Holds s'.st.daq.queue [] 0 ∧
      s'.st.daq.listForEvent = s.st.daq.listForEvent ∧ s'.st.mem = s.st.mem := by
  have hb := bumpReceived_same cfg.base s.st
  have ha := send8_answers (cfg := cfg.base) (s := bumpReceived cfg.base s.st) (s0 := s.st) (bs := [0xFF]) hs (by simp) (bumpReceived_tx cfg.base s.st)
  have hstep : pStep cfg env s (.cmd p) = pDisconnect cfg ⟨positive cfg.base (bumpReceived cfg.base s.st), s.modes⟩ := by
    rw [hr.pstep env .disconnect hp hsup]
    simp only [pHandler, pDisconnectRes, pPgmIdle]
    rw [if_neg (by rw [hb.pgm]; exact hpgm)]
  rw [hstep]
  unfold pDisconnect
  rw [pDaqInit_ok hc (s := ⟨defaultResourceProtection cfg.base (positive cfg.base (bumpReceived cfg.base s.st)), s.modes⟩) hi.modes]
  refine ⟨_, rfl, ?_, rfl, ?_, List.length_replicate .., rfl, holds_init, ?_, ?_⟩
  · obtain ⟨f, h1, h2⟩ := ha
    refine ⟨f, ?_, h2⟩
    show (defaultResourceProtection cfg.base _).tx = _
    rw [← h1]
    unfold defaultResourceProtection
    split <;> rfl
  · intro m hm
    exact List.eq_of_mem_replicate hm
  · show (defaultResourceProtection cfg.base _).daq.listForEvent = _
    unfold defaultResourceProtection
    split <;> exact congrArg Daq.listForEvent hb.daq
  · show (defaultResourceProtection cfg.base _).mem = _
    unfold defaultResourceProtection
    split <;> exact hb.mem

/-- List 1 is selected and started, then DISCONNECT. -/
example : Ex.pobs Ex.pre [Ex.c [0xFF], Ex.c [0xE2, 0, 1, 0, 0, 0], Ex.c [0xDE, 2, 1, 0], Ex.c [0xDD, 1], Ex.c [0xFE]]
    (fun s => (s.modes, s.st.daq.running, s.st.daq.ptr)) = some ([0, 0], false, ⟨0, 0, 0⟩) := by decide +kernel

/-- C74 is false: list 1 was assigned to event 2 in the first session; in the second, which assigns nothing, event 2
sends its packet, whereas it sends those of list 0 in a first session. -/
theorem C74_fails_events :
    Ex.pdto Ex.pre [Ex.c [0xE0, 0, 1, 0, 2, 0, 1, 0], Ex.c [0xFE], Ex.c [0xFF], Ex.c [0xDD, 1], (Ex.env, .trigger 2)] = some [[2, 0x0C]] ∧
    Ex.pdto Ex.pre [Ex.c [0xDD, 1], (Ex.env, .trigger 2)] = some [[0, 0, 4, 5], [1, 8, 9, 0xA, 0xB]] := by
  refine ⟨?_, ?_⟩ <;> decide +kernel

end Xcp
