import Verif.Proofs.Refuse
import Verif.Model.Example
/-
C19: locked programming cannot be started.

The two commands that only return information (GET_PGM_PROCESSOR_INFO, GET_SECTOR_INFO) are
answered whether programming is active or not, so "every other programming command" holds
for the commands that act on memory (`C19_fails_info`).
-/
set_option autoImplicit false
namespace Xcp
open Spec

/-- Programming commands that act on memory: PROGRAM_CLEAR, PROGRAM, PROGRAM_RESET,
PROGRAM_PREPARE, PROGRAM_FORMAT, PROGRAM_NEXT, PROGRAM_MAX, PROGRAM_VERIFY. -/
def Spec.pgmAction (b : UInt8) : Prop :=
  b = 0xD1 ∨ b = 0xD0 ∨ b = 0xCF ∨ b = 0xCC ∨ b = 0xCB ∨ b = 0xCA ∨ b = 0xC9 ∨ b = 0xC8

/-- C19: PROGRAM_START is refused with ERR_ACCESS_LOCKED while PGM is protected. -/
theorem C19_start_refused {cfg : Cfg} (hs : ShortOk cfg) (env : Env) {s : St} (hl : Locked cfg s RES_PGM)
    {p : Pdu} (hx : executes cfg s p .programStart) :
    ∃ s', step cfg env s (.cmd p) = .ok s' ∧ Refused cfg s s' 0x25 := by
  refine ⟨send8 cfg (bumpReceived cfg s) [0xFE, 0x25], ?_, Refused.of_bump (refused_send8 hs _ _)⟩
  rw [executes_step env hx]
  simp only [handler, programStartRes, assertUnlocked]
  rw [if_pos (Spec.Locked.isProtected (by simpa [Locked] using hl))]
  rfl

theorem pgm_inactive_handler {cfg : Cfg} (hs : ShortOk cfg) (env : Env) {s : St} (hi : s.pgm ≠ .active) (p : Pdu)
    (c : Cmd) (hc : pgmAction (cmdCode c)) : Post (handler cfg env s p c) (fun t => Refused cfg s t 0x29) := by
  unfold pgmAction at hc
  cases c <;> first | (exfalso; revert hc; decide) | skip
  all_goals unfold_handlers
  all_goals post
  all_goals first
    | contradiction
    | exact refused_send8 hs _ _

/-- The programming state changes only by PROGRAM_START and PROGRAM_RESET. -/
theorem step_pgm {cfg : Cfg} (env : Env) {s : St} (op : Op) :
    Post (step cfg env s op) (fun t => t.pgm = s.pgm ∨
      ∃ p, op = .cmd p ∧ (executes cfg s p .programStart ∧ ¬ Locked cfg s RES_PGM ∧ s.daq.running = false ∧ t.pgm = .active ∨
        executes cfg s p .programReset ∧ s.pgm = .active ∧ t.pgm = .idle)) := by
  cases op with
  | cmd p =>
    apply Post.cmd
    · intro t h1 _; exact Or.inl h1.pgm
    · intro _ t _ h1 _; exact Or.inl h1.pgm
    · intro c hx
      by_cases h1 : c = .programStart
      · subst h1
        show Post (programStartRes _ _) _
        unfold programStartRes
        post
        · simp
        · simp
        · rename_i hp hr
          refine Or.inr ⟨p, rfl, Or.inl ⟨hx, ?_, by simpa using hr, rfl⟩⟩
          intro hl
          rw [Spec.Locked.isProtected (by simpa [Locked] using hl)] at hp
          cases hp
      · by_cases h2 : c = .programReset
        · subst h2
          show Post (programResetRes _ _) _
          unfold programResetRes
          post
          · simp
          · rename_i ha
            exact Or.inr ⟨p, rfl, Or.inr ⟨hx, by simpa using ha, rfl⟩⟩
        · refine (handler_pgm env p c h1 h2).mono ?_
          intro t ht; left; simpa using ht
  | main => exact (main_eff env).mono (fun t ht => Or.inl ht.pgm)
  | trigger ev =>
    unfold step
    apply Post.ite
    · intro _; exact (trigger_eff env _).mono (fun t ht => Or.inl ht.pgm)
    · intro _; exact Post.ok (Or.inl rfl)
  | eventPkt code data => exact special_eff.mono (fun t ht => Or.inl ht.same.pgm)
  | servPkt code data => exact special_eff.mono (fun t ht => Or.inl ht.same.pgm)
  | appWrite a b => exact Post.ok (Or.inl rfl)
  | apiDisconnect => exact Post.ok (Or.inl (by simp))

/-- C19, histories: with PGM protection configured, as long as no key for PGM is accepted,
programming never becomes active. -/
theorem C19_history {cfg : Cfg} (hrp : cfg.resourceProtection = true) (hp : cfg.protPgm = true)
    {mem : Mem} {h : List (Env × Op)} (hk : ∀ x ∈ h, NoKey RES_PGM x.1) {s : St}
    (hr : run cfg (St.init cfg mem) h = .ok s) : s.pgm ≠ .active ∧ Locked cfg s RES_PGM := by
  refine run_induction' (I := fun s => s.pgm ≠ .active ∧ Locked cfg s RES_PGM) (H := fun x => NoKey RES_PGM x.1) ?_ hk
    ⟨by simp [St.init], init_locked hrp (default_pgm hp) mem⟩ hr
  rintro x s s' hx ⟨h1, h2⟩ h'
  refine ⟨?_, step_locked (default_pgm hp) hx h2 x.2 s' h'⟩
  rcases step_pgm x.1 x.2 s' h' with h3 | ⟨p, -, ⟨-, h4, -⟩ | ⟨-, h4, -⟩⟩
  · rw [h3]; exact h1
  · exact absurd h2 h4
  · exact absurd h4 h1

/-- C19, histories: every programming command that acts on memory is refused with
ERR_SEQUENCE. -/
theorem C19_commands_refused_partial {cfg : Cfg} (hs : ShortOk cfg) (hrp : cfg.resourceProtection = true)
    (hp : cfg.protPgm = true) {mem : Mem} {h : List (Env × Op)} (hk : ∀ x ∈ h, NoKey RES_PGM x.1) {s s' : St}
    (hr : run cfg (St.init cfg mem) h = .ok s) {env : Env} {p : Pdu} {c : Cmd} (hx : executes cfg s p c)
    (hc : pgmAction (cmdCode c)) (h' : step cfg env s (.cmd p) = .ok s') : Refused cfg s s' 0x29 := by
  have hi := (C19_history hrp hp hk hr).1
  exact executes_refused hx (pgm_inactive_handler hs env (by simpa using hi) p c hc) s' h'

/-- GET_PGM_PROCESSOR_INFO and GET_SECTOR_INFO are answered positively on a locked slave. -/
theorem C19_fails_info :
    Ex.frames Ex.sec [Ex.c [0xFF], Ex.c [0xD2], Ex.c [0xCE], Ex.c [0xCD, 0, 1]] =
      some [[8, 0, 0, 0, 0xFF, 0x15, 0x80, 64, 64, 0, 1, 1], [2, 0, 1, 0, 0xFE, 0x25],
        [3, 0, 2, 0, 0xFF, 1, 32], [8, 0, 3, 0, 0xFF, 2, 3, 0, 0, 0, 0, 0]] := by decide +kernel

/-- A locked slave refuses PROGRAM_START, and then PROGRAM and PROGRAM_CLEAR; an unlocked one
accepts them. -/
example : Ex.frames Ex.sec [Ex.c [0xFF], Ex.c [0xD2], Ex.c [0xD0, 1, 7], Ex.c [0xD1, 0, 0, 0, 1]] =
      some [[8, 0, 0, 0, 0xFF, 0x15, 0x80, 64, 64, 0, 1, 1], [2, 0, 1, 0, 0xFE, 0x25], [2, 0, 2, 0, 0xFE, 0x29],
        [2, 0, 3, 0, 0xFE, 0x29]] ∧
    Ex.frames Ex.sec [Ex.c [0xFF], Ex.c [0xF8, 0, 0x10], Ex.c [0xF7, 4, 1, 2, 3, 4], Ex.c [0xD2], Ex.c [0xD0, 1, 7]] =
      some [[8, 0, 0, 0, 0xFF, 0x15, 0x80, 64, 64, 0, 1, 1], [6, 0, 1, 0, 0xFF, 4, 1, 2, 3, 4], [2, 0, 2, 0, 0xFF, 0x0D],
        [7, 0, 3, 0, 0xFF, 0, 0, 64, 0, 0, 0], [1, 0, 4, 0, 0xFF]] := by decide +kernel

end Xcp
