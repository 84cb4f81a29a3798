import Verif.Proofs.Refuse
import Verif.Model.Example
/-
C18: locked data acquisition cannot be configured or started.
-/
set_option autoImplicit false
namespace Xcp
open Spec

/-- The commands of the DAQ group, by their codes in the standard. -/
def Spec.daqCode (b : UInt8) : Prop := b = 0xC7 ∨ (0xD3 ≤ b ∧ b ≤ 0xE3)

/-- The frame is a DAQ packet. -/
def Spec.isDto (f : Frame) : Prop := f.kind = .dto

theorem group_of_daqCode {c : Cmd} (h : daqCode (cmdCode c)) : c.group = .daq := by
  unfold daqCode at h
  cases c <;> first | rfl | (exfalso; revert h; decide)

/-- The errors a DAQ command is refused with while DAQ is locked. -/
def Spec.lockedErr (e : UInt8) : Prop := e = 0x11 ∨ e = 0x12 ∨ e = 0x20 ∨ e = 0x22 ∨ e = 0x25

/-- A refusal with one of a set of errors. -/
def Spec.RefusedBy (cfg : Cfg) (s s' : St) (E : UInt8 → Prop) : Prop := ∃ e, E e ∧ Refused cfg s s' e

theorem locked_daq_handler {cfg : Cfg} (hs : ShortOk cfg) (env : Env) {s : St} (hl : Locked cfg s RES_DAQ) (p : Pdu)
    (c : Cmd) (hc : c.group = .daq) : Post (handler cfg env s p c) (fun t => RefusedBy cfg s t lockedErr) := by
  have hp := hl.isProtected
  cases c <;> first | (simp [Cmd.group] at hc; done) | skip
  all_goals unfold_handlers
  all_goals post
  all_goals first
    | exact absurd ‹isProtected cfg s RES_DAQ = false› (by rw [hp]; decide)
    | exact ⟨_, by unfold lockedErr; decide, refused_send8 hs _ _⟩

theorem locked_daq_same {cfg : Cfg} (env : Env) {s : St} (hl : Locked cfg s RES_DAQ) (p : Pdu)
    (c : Cmd) (hc : c.group = .daq) : Post (handler cfg env s p c) (SameCore s) := by
  have hp := hl.isProtected
  cases c <;> first | (simp [Cmd.group] at hc; done) | skip
  all_goals unfold_handlers
  all_goals post
  all_goals first
    | exact absurd ‹isProtected cfg s RES_DAQ = false› (by rw [hp]; decide)
    | exact send8_same ..

/-- C18, one command: while DAQ is protected, a DAQ command that is executed is refused with
an error and changes nothing. -/
theorem C18_locked {cfg : Cfg} (hs : ShortOk cfg) (env : Env) {s s' : St} (hr : Ready s)
    (hl : Locked cfg s RES_DAQ) {p : Pdu} {b : UInt8} (hp : code p = some b) (hb : daqCode b)
    (h : step cfg env s (.cmd p) = .ok s') : RefusedBy cfg s s' lockedErr := by
  have hi : 0xC7 ≤ b.toNat := by
    rcases hb with h | h
    · subst h; decide
    · have := UInt8.le_iff_toNat_le.mp h.1
      exact Nat.le_trans (by decide) this
  obtain ⟨c, hc, rfl⟩ := table_hi hi
  rw [step_cmd env hr.conn hr.idle hp hc] at h
  revert s'
  change Post _ (fun t : St => RefusedBy cfg s t lockedErr)
  apply Post.tableEntry
  · intro hsup
    refine (locked_daq_handler hs env (s := bumpReceived cfg s) (by simpa [Locked] using hl) p c (group_of_daqCode hb)).mono ?_
    rintro t ⟨e, h1, h2⟩
    exact ⟨e, h1, Refused.of_bump h2⟩
  · intro _
    exact ⟨_, by unfold lockedErr; decide, Refused.of_bump (refused_send8 hs _ _)⟩

/-- The error is ERR_ACCESS_LOCKED when neither programming nor acquisition is active, for
all commands but the two that check something else first. -/
theorem C18_access_locked {cfg : Cfg} (hs : ShortOk cfg) (env : Env) {s s' : St} (hl : Locked cfg s RES_DAQ)
    (hpg : s.pgm ≠ .active) (hrun : s.daq.running = false) {p : Pdu} {c : Cmd} (hx : executes cfg s p c)
    (hb : daqCode (cmdCode c)) (hc : c ≠ .writeDaqMultiple) (hc' : c ≠ .readDaq)
    (h : step cfg env s (.cmd p) = .ok s') : Refused cfg s s' 0x25 := by
  revert s'
  change Post _ (fun t : St => Refused cfg s t 0x25)
  apply executes_refused hx
  have hg := group_of_daqCode hb
  have hpr : isProtected cfg (bumpReceived cfg s) RES_DAQ = true := Spec.Locked.isProtected (by simpa [Locked] using hl)
  have hpg : (bumpReceived cfg s).pgm ≠ .active := by simpa using hpg
  have hrun : (bumpReceived cfg s).daq.running = false := by simpa using hrun
  generalize bumpReceived cfg s = t at *
  cases c <;> first | (simp [Cmd.group] at hg; done) | contradiction | skip
  all_goals unfold_handlers
  all_goals post
  all_goals first
    | exact absurd ‹isProtected cfg t RES_DAQ = false› (by rw [hpr]; decide)
    | exact absurd ‹t.pgm = .active› hpg
    | exact absurd ‹t.daq.running = true› (by rw [hrun]; decide)
    | exact refused_send8 hs _ _

/-- What holds in a history without an accepted key for DAQ. -/
structure DaqLockI (cfg : Cfg) (s : St) : Prop where
  locked : Locked cfg s RES_DAQ
  stopped : s.daq.running = false
  lists : s.daq.listCount = 0
  noDto : ∀ f ∈ s.tx, f.kind = .cto

theorem Ctos.noDto {s s' : St} (h : Ctos s s') (h0 : ∀ f ∈ s.tx, f.kind = .cto) : ∀ f ∈ s'.tx, f.kind = .cto := by
  obtain ⟨fs, h1, h2⟩ := h
  intro f hf
  rw [h1] at hf
  rcases List.mem_append.mp hf with hf | hf
  · exact h0 f hf
  · exact h2 f hf

theorem changesDaq_group {c : Cmd} (h : changesDaq c = true) (h1 : c ≠ .unlock) (h2 : c ≠ .disconnect) : c.group = .daq := by
  cases c <;> first | rfl | (simp [changesDaq] at h; done) | contradiction

theorem daqInit_idle (d : Daq) : (daqInit d).running = false ∧ (daqInit d).listCount = 0 ∧ (daqInit d).entityCount = 0 := by
  simp [daqInit, daqFree, allocOk]

theorem step_daqLock {cfg : Cfg} (hp : cfg.protDaq = true) {env : Env} (hk : NoKey RES_DAQ env)
    {s : St} (h : DaqLockI cfg s) (op : Op) : Post (step cfg env s op) (DaqLockI cfg) := by
  have hlk := step_locked (default_daq hp) hk h.locked op
  suffices hh : Post (step cfg env s op) (fun t =>
      (t.daq.running = false ∧ t.daq.listCount = 0) ∧ ∀ f ∈ t.tx, f.kind = .cto) by
    intro t ht
    obtain ⟨⟨h1, h2⟩, h3⟩ := hh t ht
    exact ⟨hlk t ht, h1, h2, h3⟩
  have hd : s.daq.running = false ∧ s.daq.listCount = 0 := ⟨h.stopped, h.lists⟩
  cases op with
  | cmd p =>
    apply Post.cmd
    · intro t h1 h2; rw [h1.daq]; exact ⟨hd, h2.noDto h.noDto⟩
    · intro _ t _ h1 h2; rw [h1.daq]; exact ⟨hd, h2.noDto h.noDto⟩
    · intro c hx
      refine Post.and ?_ ((handler_ctos env p c).mono ?_)
      · by_cases hc : changesDaq c = true
        · by_cases hu : c = .unlock
          · subst hu
            refine (unlock_cases h.locked.1 env p).mono ?_
            rintro t (⟨-, -, h1, -⟩ | ⟨_, -, -, -, -, -, -, h1⟩ | ⟨-, -, h1, -⟩)
            · rw [h1]; simpa using hd
            · rw [h1]; simpa using hd
            · rw [h1]; split
              · exact ⟨(daqInit_idle _).1, (daqInit_idle _).2.1⟩
              · simpa using hd
          · by_cases hdc : c = .disconnect
            · subst hdc
              show Post (disconnectRes _ _) _
              unfold disconnectRes
              post
              · simpa using hd
              · rw [apiDisconnect_daq]; split
                · exact ⟨(daqInit_idle _).1, (daqInit_idle _).2.1⟩
                · simpa using hd
            · refine (locked_daq_same env (s := bumpReceived cfg s) (by simpa [Locked] using h.locked) p c
                (changesDaq_group hc hu hdc)).mono ?_
              intro t h2
              rw [h2.daq]; simpa using hd
        · refine (handler_daq env p c (by simpa using hc)).mono ?_
          intro t ht; rw [ht]; simpa using hd
      · intro t ht
        exact ht.noDto (by simpa using h.noDto)
  | main => exact (main_eff env).mono (fun t ht => by rw [ht.daq]; exact ⟨hd, ht.ctos.noDto h.noDto⟩)
  | trigger ev =>
    simp only [step, trigger_stopped h.stopped]
    apply Post.ite
    · intro _; exact Post.ok ⟨hd, h.noDto⟩
    · intro _; exact Post.ok ⟨hd, h.noDto⟩
  | eventPkt code data => exact special_eff.mono (fun t ht => by rw [ht.same.daq]; exact ⟨hd, ht.ctos.noDto h.noDto⟩)
  | servPkt code data => exact special_eff.mono (fun t ht => by rw [ht.same.daq]; exact ⟨hd, ht.ctos.noDto h.noDto⟩)
  | appWrite a b => exact Post.ok ⟨hd, h.noDto⟩
  | apiDisconnect =>
    refine Post.ok ⟨?_, by simpa using h.noDto⟩
    rw [apiDisconnect_daq]; split
    · exact ⟨(daqInit_idle _).1, (daqInit_idle _).2.1⟩
    · exact hd

/-- C18, histories: with DAQ protection configured, as long as no key for DAQ is accepted no
DAQ packet is ever sent, acquisition never runs and no list exists. -/
theorem C18_history {cfg : Cfg} (hrp : cfg.resourceProtection = true) (hp : cfg.protDaq = true)
    {mem : Mem} {h : List (Env × Op)} (hk : ∀ x ∈ h, NoKey RES_DAQ x.1) {s : St}
    (hr : run cfg (St.init cfg mem) h = .ok s) :
    (∀ f ∈ s.tx, ¬ isDto f) ∧ s.daq.running = false ∧ s.daq.listCount = 0 := by
  have := run_induction' (I := DaqLockI cfg) (H := fun x => NoKey RES_DAQ x.1)
    (fun x s s' hx hs' h' => step_daqLock hp hx hs' x.2 s' h') hk
    ⟨init_locked hrp (default_daq hp) mem, (daqInit_idle _).1, (daqInit_idle _).2.1, by simp [St.init]⟩ hr
  refine ⟨?_, this.stopped, this.lists⟩
  intro f hf hd
  unfold isDto at hd
  rw [this.noDto f hf] at hd
  cases hd

/-- Hooks that accept keys for PGM and CAL/PAG only satisfy the hypothesis. -/
example : NoKey RES_DAQ { Ex.env with unlock := fun m _ _ => m == RES_PGM || m == RES_CAL_PAG } := by
  intro m k n hm
  simp only [Bool.or_eq_false_iff, beq_eq_false_iff_ne]
  constructor <;> (rintro rfl; exact hm (by decide))

/-- On a locked slave the attempts to configure, start and trigger an acquisition, also after
a wrong key, give only errors. -/
example : Ex.frames Ex.sec [Ex.c [0xFF], Ex.c [0xD6], Ex.c [0xD5, 0, 1, 0], Ex.c [0xF8, 0, 4], Ex.c [0xF7, 4, 9, 9, 9, 9],
      Ex.c [0xDD, 1], (Ex.env, .trigger 0)] =
    some [[8, 0, 0, 0, 0xFF, 0x15, 0x80, 64, 64, 0, 1, 1], [2, 0, 1, 0, 0xFE, 0x25], [2, 0, 2, 0, 0xFE, 0x25],
      [6, 0, 3, 0, 0xFF, 4, 1, 2, 3, 4], [2, 0, 4, 0, 0xFE, 0x25], [2, 0, 5, 0, 0xFE, 0x25]] := by decide +kernel

/-- With the right key the same start is accepted. -/
example : Ex.obs Ex.sec [Ex.c [0xFF], Ex.c [0xF8, 0, 4], Ex.c [0xF7, 4, 1, 2, 3, 4], Ex.c [0xDD, 1]]
      (fun s => s.daq.running) = some true := by decide +kernel

end Xcp
