import Verif.Props.C19_LockedPgm
import Verif.Proofs.History
/-
C24: programming commands need PROGRAM_START.
-/
set_option autoImplicit false
namespace Xcp
open Spec

/-- A PROGRAM_START packet that is accepted: PGM is not protected and no acquisition runs. -/
def Spec.startsPgm (cfg : Cfg) (s : St) (x : Env × Op) : Prop :=
  ∃ p, x.2 = .cmd p ∧ executes cfg s p .programStart ∧ ¬ Locked cfg s RES_PGM ∧ s.daq.running = false

/-- A PROGRAM_RESET packet. -/
def Spec.endsPgm (cfg : Cfg) (s : St) (x : Env × Op) : Prop := ∃ p, x.2 = .cmd p ∧ executes cfg s p .programReset

theorem pgm_step {cfg : Cfg} (x : Env × Op) (s s' : St) (h : step cfg x.1 s x.2 = .ok s') (ha : s'.pgm = .active) :
    (s.pgm = .active ∧ ¬ endsPgm cfg s x) ∨ startsPgm cfg s x := by
  by_cases he : endsPgm cfg s x
  · obtain ⟨p, hp, hx⟩ := he
    rw [hp, executes_step x.1 hx] at h
    exfalso
    revert s'
    suffices Post (handler cfg x.1 (bumpReceived cfg s) p .programReset) (fun t => t.pgm ≠ .active) from
      fun s' ha h => this s' h ha
    unfold_handlers
    post
    · simp_all
    · simp_all
  · rcases step_pgm x.1 x.2 s' h with h1 | ⟨p, h1, ⟨h2, h3, h4, -⟩ | ⟨h2, -⟩⟩
    · exact Or.inl ⟨by rw [← h1, ha], he⟩
    · exact Or.inr ⟨p, h1, h2, h3, h4⟩
    · exact absurd ⟨p, h1, h2⟩ he

/-- C24: unless a PROGRAM_START was accepted and no PROGRAM_RESET came since, a programming
command is answered ERR_SEQUENCE and does nothing. -/
theorem C24_sequence {cfg : Cfg} (hs : ShortOk cfg) {mem : Mem} {h : List (Env × Op)} {s s' : St}
    (hr : run cfg (St.init cfg mem) h = .ok s)
    (hno : ¬ SinceIn cfg (startsPgm cfg) (endsPgm cfg) (St.init cfg mem) h)
    {env : Env} {p : Pdu} {c : Cmd} (hx : executes cfg s p c) (hc : pgmAction (cmdCode c))
    (h' : step cfg env s (.cmd p) = .ok s') : Refused cfg s s' 0x29 := by
  have hi := origin_none (Q := fun s => s.pgm = .active) pgm_step hr (by simp [St.init]) hno
  exact executes_refused hx (pgm_inactive_handler hs env (by simpa using hi) p c hc) s' h'

/-- C24: a PROGRAM_START is refused while an acquisition runs, with ERR_ACCESS_LOCKED if PGM is
protected and with ERR_DAQ_ACTIVE otherwise. -/
theorem C24_start_running {cfg : Cfg} (hs : ShortOk cfg) (env : Env) {s : St} (hrun : s.daq.running = true) {p : Pdu}
    (hx : executes cfg s p .programStart) :
    ∃ s', step cfg env s (.cmd p) = .ok s' ∧
      (Locked cfg s RES_PGM → Refused cfg s s' 0x25) ∧ (¬ Locked cfg s RES_PGM → Refused cfg s s' 0x11) := by
  by_cases hl : Locked cfg s RES_PGM
  · obtain ⟨s', h1, h2⟩ := C19_start_refused hs env hl hx
    exact ⟨s', h1, fun _ => h2, fun h => absurd hl h⟩
  · refine ⟨send8 cfg (bumpReceived cfg s) [0xFE, 0x11], ?_, fun h => absurd h hl,
      fun _ => Refused.of_bump (refused_send8 hs _ _)⟩
    have hp : ¬ isProtected cfg (bumpReceived cfg s) RES_PGM = true := by simpa [isProtected, Locked] using hl
    rw [executes_step env hx]
    simp only [handler, programStartRes, assertUnlocked, assertDaqStopped, bumpReceived_daq]
    rw [if_neg hp, if_pos hrun]
    rfl

/-- C24: an accepted PROGRAM_START starts programming, and it stays so until PROGRAM_RESET. -/
theorem C24_active {cfg : Cfg} {mem : Mem} {h : List (Env × Op)} {s : St}
    (hr : run cfg (St.init cfg mem) h = .ok s)
    (hin : SinceIn cfg (startsPgm cfg) (endsPgm cfg) (St.init cfg mem) h) : s.pgm = .active := by
  obtain ⟨h1, x, h2, s1, s2, e, hr1, ⟨p, hp, hx, hl, hrun⟩, h3, hw⟩ := hin
  have ha : s2.pgm = .active := by
    rw [hp, executes_step x.1 hx] at h3
    have hpr : ¬ isProtected cfg (bumpReceived cfg s1) RES_PGM = true := by simpa [isProtected, Locked] using hl
    simp only [handler, programStartRes, assertUnlocked, assertDaqStopped, bumpReceived_daq] at h3
    rw [if_neg hpr, if_neg (by simp [hrun])] at h3
    cases h3
    rfl
  subst e
  obtain ⟨t, h5, h6⟩ := run_append_ok hr
  rw [hr1] at h5
  cases h5
  obtain ⟨u, h7, h8⟩ := run_cons_ok h6
  rw [h3] at h7
  cases h7
  refine persists (Q := fun s => s.pgm = .active) (E := endsPgm cfg) ?_ h8 ha hw
  intro y t t' hy ht hn
  rcases step_pgm y.1 y.2 t' hy with g1 | ⟨q, g1, ⟨-, -, -, g2⟩ | ⟨g2, -, -⟩⟩
  · rw [g1]; exact ht
  · exact g2
  · exact absurd ⟨q, g1, g2⟩ hn

/-- PROGRAM is accepted between PROGRAM_START and PROGRAM_RESET only. -/
example : Ex.frames Ex.sim [Ex.c [0xFF], Ex.c [0xD0, 1, 7], Ex.c [0xD2], Ex.c [0xD0, 1, 7], Ex.c [0xCF], Ex.c [0xD0, 1, 7],
    Ex.c [0xDD, 1], Ex.c [0xD2]] =
    some [[8, 0, 0, 0, 0xFF, 0x15, 0x80, 64, 64, 0, 1, 1], [2, 0, 1, 0, 0xFE, 0x29], [7, 0, 2, 0, 0xFF, 0, 0, 64, 0, 0, 0],
      [1, 0, 3, 0, 0xFF], [1, 0, 4, 0, 0xFF], [2, 0, 5, 0, 0xFE, 0x29], [1, 0, 6, 0, 0xFF], [2, 0, 7, 0, 0xFE, 0x11]] := by
  decide +kernel

end Xcp
