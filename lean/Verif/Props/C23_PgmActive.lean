import Verif.Proofs.History
import Verif.Props.C19_LockedPgm
import Verif.Props.C18_LockedDaq
/-
C23: during programming other commands are refused.

False for MODIFY_BITS, which writes memory, for SET_MTA, and for GET_DAQ_EVENT_INFO
(`C23_fails`).  True for every other command that reads or writes memory or touches DAQ.
-/
set_option autoImplicit false
namespace Xcp
open Spec

/-- Commands that read or write memory, except MODIFY_BITS: uploads, BUILD_CHECKSUM and
downloads. -/
def Spec.memCode (b : UInt8) : Prop :=
  b = 0xF5 ∨ b = 0xF4 ∨ b = 0xF3 ∨ b = 0xF0 ∨ b = 0xEF ∨ b = 0xEE ∨ b = 0xED

/-- How a command is refused while programming is active.  FREE_DAQ looks at the protection
first, WRITE_DAQ_MULTIPLE at its element count, and READ_DAQ is not implemented. -/
def Spec.pgmErr (c : Cmd) (e : UInt8) : Prop :=
  e = 0x12 ∨ (c = .freeDaq ∧ e = 0x25) ∨ (c = .writeDaqMultiple ∧ e = 0x22) ∨ (c = .readDaq ∧ e = 0x20)

/-- Programming and acquisition exclude each other. -/
def Spec.PgmExcl (s : St) : Prop := s.pgm = .active → s.daq.running = false

theorem handler_excl {cfg : Cfg} (env : Env) {s : St} (hI : PgmExcl s) (p : Pdu) (c : Cmd) :
    Post (handler cfg env s p c) PgmExcl := by
  unfold PgmExcl at hI
  by_cases h1 : c = .programStart
  · subst h1
    unfold_handlers
    post
    · exact hI
    · exact hI
    · unfold PgmExcl; intro _; assumption
  by_cases h2 : c = .programReset
  · subst h2
    unfold_handlers
    post
    · exact hI
    · unfold PgmExcl; intro h; cases h
  refine Post.mono (Post.and (handler_pgm env p c h1 h2)
    (?_ : Post _ (fun t : St => s.pgm = .active → t.daq.running = true → s.daq.running = true))) ?_
  · cases hd : changesDaq c
    · exact (handler_daq env p c hd).mono (fun t ht _ => by rw [ht]; exact id)
    · cases c <;> first | (simp [changesDaq] at hd; done) | skip
      all_goals unfold_handlers
      all_goals post
      all_goals first
        | contradiction
        | assumption
        | (rename_i h; simp [daqFree, allocOk] at h; simp_all; done)
  · rintro t ⟨h3, h4⟩ h5
    rw [h3] at h5
    have := hI h5
    exact Bool.eq_false_iff.mpr (fun h => by rw [h4 h5 h] at this; cases this)

theorem step_excl {cfg : Cfg} (env : Env) {s s' : St} (hI : PgmExcl s) (op : Op) (h : step cfg env s op = .ok s') :
    PgmExcl s' := by
  revert s'
  change Post _ PgmExcl
  unfold PgmExcl at hI
  cases op with
  | cmd p =>
    apply Post.cmd
    · intro t h1 _; unfold PgmExcl; rw [h1.pgm, h1.daq]; exact hI
    · intro _ t _ h1 _; unfold PgmExcl; rw [h1.pgm, h1.daq]; exact hI
    · intro c _; exact handler_excl env (by unfold PgmExcl; simpa using hI) p c
  | main => exact (main_eff env).mono (fun t ht => by unfold PgmExcl; rw [ht.pgm, ht.daq]; exact hI)
  | trigger ev =>
    unfold step
    apply Post.ite
    · intro _
      refine (trigger_eff env _).mono (fun t ht => ?_)
      obtain ⟨q, hq⟩ := ht.daq
      unfold PgmExcl; rw [ht.pgm, hq]; exact hI
    · intro _; exact Post.ok hI
  | eventPkt code data => exact special_eff.mono (fun t ht => by unfold PgmExcl; rw [ht.same.pgm, ht.same.daq]; exact hI)
  | servPkt code data => exact special_eff.mono (fun t ht => by unfold PgmExcl; rw [ht.same.pgm, ht.same.daq]; exact hI)
  | appWrite a b => exact Post.ok hI
  | apiDisconnect =>
    refine Post.ok ?_
    unfold PgmExcl
    rw [apiDisconnect_daq]
    simp only [apiDisconnect_pgm]
    intro h
    split
    · rfl
    · exact hI h

/-- In every reachable state, programming and acquisition exclude each other. -/
theorem C23_exclusive {cfg : Cfg} {mem : Mem} {h : List (Env × Op)} {s : St}
    (hr : run cfg (St.init cfg mem) h = .ok s) : ¬ (s.pgm = .active ∧ s.daq.running = true) := by
  have : PgmExcl s := run_induction (fun env op s s' hI h => step_excl env hI op h) (by intro h; cases h) hr
  rintro ⟨h1, h2⟩
  rw [this h1] at h2
  cases h2

theorem pgm_active_handler {cfg : Cfg} (hs : ShortOk cfg) (env : Env) {s : St} (ha : s.pgm = .active)
    (hrun : s.daq.running = false) (p : Pdu) (c : Cmd)
    (hc : memCode (cmdCode c) ∨ daqCode (cmdCode c) ∧ cmdCode c ≠ 0xD7) :
    Post (handler cfg env s p c) (fun t => ∃ e, pgmErr c e ∧ Refused cfg s t e) := by
  have h12 : pgmErr c 0x12 := Or.inl rfl
  unfold memCode daqCode at hc
  cases c <;> first | (exfalso; revert hc; decide) | skip
  all_goals unfold_handlers
  all_goals post
  all_goals first
    | contradiction
    | exact absurd ‹s.daq.running = true› (by rw [hrun]; decide)
    | exact ⟨_, h12, refused_send8 hs _ _⟩
    | exact ⟨_, Or.inr (Or.inl ⟨rfl, rfl⟩), refused_send8 hs _ _⟩
    | exact ⟨_, Or.inr (Or.inr (Or.inl ⟨rfl, rfl⟩)), refused_send8 hs _ _⟩
    | exact ⟨_, Or.inr (Or.inr (Or.inr ⟨rfl, rfl⟩)), refused_send8 hs _ _⟩

/-- C23, all memory commands but MODIFY_BITS and all DAQ commands but GET_DAQ_EVENT_INFO (code
0xD7): while programming is active they are refused and have no effect. -/
theorem C23_refused_partial {cfg : Cfg} (hs : ShortOk cfg) {mem : Mem} {h : List (Env × Op)} {s s' : St}
    (hr : run cfg (St.init cfg mem) h = .ok s) (ha : s.pgm = .active) {env : Env} {p : Pdu} {c : Cmd}
    (hx : executes cfg s p c) (hc : memCode (cmdCode c) ∨ daqCode (cmdCode c) ∧ cmdCode c ≠ 0xD7)
    (h' : step cfg env s (.cmd p) = .ok s') : ∃ e, pgmErr c e ∧ Refused cfg s s' e := by
  have hrun : s.daq.running = false :=
    Bool.eq_false_iff.mpr (fun h => C23_exclusive hr ⟨ha, h⟩)
  rw [executes_step env hx] at h'
  obtain ⟨e, h1, h2⟩ := pgm_active_handler hs env (by simpa using ha) (by simpa using hrun) p c hc s' h'
  exact ⟨e, h1, Refused.of_bump h2⟩

/-- C23 is false in general: while programming is active, SET_MTA and GET_DAQ_EVENT_INFO are
answered and set the MTA, and MODIFY_BITS writes memory.  The slave here is the simulator with
MODIFY_BITS switched on; 0xAB is the low byte of the address 0x10AB. -/
theorem C23_fails :
    let cfg := { Ex.sim with on := fun c => Ex.sim.on c || c == .modifyBits }
    Ex.obs cfg [Ex.c [0xFF], Ex.c [0xD2], Ex.c [0xF6, 0, 0, 0, 0xAB, 0x10, 0, 0], Ex.c [0xEC, 0, 0, 0, 0, 0]]
      (fun s => (s.pgm, (s.tx.map Frame.bytes).drop 2, s.mta, s.mem 0x10AB)) =
      some (.active, [[1, 0, 2, 0, 0xFF], [1, 0, 3, 0, 0xFF]], ⟨0, 0x10AB⟩, 0) ∧
    Ex.obs cfg [Ex.c [0xFF], Ex.c [0xD2], Ex.c [0xD7, 0, 0, 0]]
      (fun s => (s.pgm, (s.tx.map Frame.bytes).drop 2, s.mta)) =
      some (.active, [[7, 0, 2, 0, 0xFF, 0x44, 1, 6, 1, 6, 0]], ⟨0, 0x3000⟩) := by
  refine ⟨?_, ?_⟩ <;> decide +kernel

/-- UPLOAD, DOWNLOAD and SET_DAQ_PTR during programming. -/
example : Ex.frames Ex.sim [Ex.c [0xFF], Ex.c [0xD2], Ex.c [0xF5, 1], Ex.c [0xF0, 1, 7], Ex.c [0xE2, 0, 0, 0, 0, 0],
    Ex.c [0xCF], Ex.c [0xF5, 1]] =
    some [[8, 0, 0, 0, 0xFF, 0x15, 0x80, 64, 64, 0, 1, 1], [7, 0, 1, 0, 0xFF, 0, 0, 64, 0, 0, 0], [2, 0, 2, 0, 0xFE, 0x12],
      [2, 0, 3, 0, 0xFE, 0x12], [2, 0, 4, 0, 0xFE, 0x12], [1, 0, 5, 0, 0xFF], [2, 0, 6, 0, 0xFF, 0]] := by decide +kernel

end Xcp
