import Verif.Proofs.DaqOps
import Verif.Proofs.History
import Verif.Model.Example
/-
C35: DAQ packets are sent only between start and stop.

Proved for the acquisition as a whole.  False for single lists: a list need not be selected to be
sampled (`C35_fails`), because events do not look whether the list was started.
-/
set_option autoImplicit false
namespace Xcp
open Spec

/-- An accepted START_STOP_SYNCH (start). -/
def Spec.startsDaq (cfg : Cfg) (s : St) (x : Env × Op) : Prop :=
  ∃ p, x.2 = .cmd p ∧ executes cfg s p .startStopSynch ∧ p.buf[1]? = some 1 ∧ s.pgm ≠ .active ∧ ¬ Locked cfg s RES_DAQ

/-- An accepted START_STOP_SYNCH (stop all), a DISCONNECT, a wrong key, or the application ending the session. -/
def Spec.stopsDaq (cfg : Cfg) (s : St) (x : Env × Op) : Prop :=
  x.2 = .apiDisconnect ∨
  ∃ p, x.2 = .cmd p ∧ s.pgm ≠ .active ∧
    ((executes cfg s p .startStopSynch ∧ p.buf[1]? = some 0 ∧ ¬ Locked cfg s RES_DAQ) ∨
     executes cfg s p .disconnect ∨
     (executes cfg s p .unlock ∧ s.seedReq ≠ 0 ∧
      ∃ len : UInt8, p.buf[1]? = some len ∧ x.1.unlock s.seedReq (p.buf.drop 2) len.toNat = false))

theorem daqFree_running (d : Daq) : (daqFree d).running = d.running := by
  unfold daqFree; dsimp only; split <;> rfl

theorem daqInit_running (d : Daq) : (daqInit d).running = false := by
  unfold daqInit; dsimp only; rw [daqFree_running]

theorem reset_running {b : Bool} {d d' : Daq} (h : d' = if b then daqInit d else d) (hr : d'.running = true) : d.running = true := by
  subst h
  split at hr
  · rw [daqInit_running] at hr; cases hr
  · exact hr

/-- Allocation requests never start the acquisition. -/
theorem req_running {cfg : Cfg} {d d' : Daq} {r : AllocReq} {a : UInt8} (h : applyReq cfg d r = .ok (d', a))
    (hr : d'.running = true) : d.running = true := by
  cases r with
  | free => cases h; rw [daqFree_running] at hr; exact hr
  | daq n =>
    simp only [applyReq, allocDaq] at h
    split at h
    · cases h; exact reset_running rfl hr
    · split at h <;> (cases h; exact hr)
  | odt l n =>
    simp only [applyReq, allocOdt, Daq.ent] at h
    split at h
    · cases h; exact reset_running rfl hr
    · split at h
      · split at h
        · cases h; exact hr
        · cases h
      · cases h; exact hr
  | entry l o n =>
    simp only [applyReq, allocOdtEntry, Daq.ent] at h
    split at h
    · cases h; exact reset_running rfl hr
    · split at h
      · split at h
        · simp only [ok_bind] at h
          split at h
          · cases h; exact hr
          · cases h
        · cases h
      · cases h; exact hr

theorem addEvent_running {cfg : Cfg} {d d' : Daq} {l ev : Nat} (h : addEventChannel cfg d l ev = .ok d') : d'.running = d.running := by
  unfold addEventChannel at h
  split at h
  · cases h; rfl
  · cases h

/-- Not started by a command. -/
def Keeps (s t : St) : Prop := t.daq.running = true → s.daq.running = true

theorem multiple_running {cfg : Cfg} {p : Pdu} (l : List Nat) {d : Daq} :
    Post (l.foldlM (writeDaqMultipleBody cfg p) d) (fun d' => d'.running = d.running) := by
  induction l generalizing d with
  | nil => exact Post.ok rfl
  | cons i l ih =>
    have hb : Post (writeDaqMultipleBody cfg p d i) (fun d' => d'.running = d.running) := by
      unfold writeDaqMultipleBody
      apply Post.bindAny; intro _ _
      apply Post.bindAny; intro size _
      apply Post.bindAny; intro addr _
      apply Post.bindAny; intro _ _
      intro d' h
      exact (write_same h).1
    exact Post.bind (hb.mono fun d' h1 => ih.mono fun e he => he.trans h1)

theorem handler_running {cfg : Cfg} (env : Env) {s : St} (p : Pdu) (c : Cmd) (hc : c ≠ .startStopSynch) :
    Post (handler cfg env s p c) (Keeps s) := by
  rcases Bool.eq_false_or_eq_true (changesDaq c) with hd | hd
  · cases c <;> first | (simp [changesDaq] at hd; done) | (exact absurd rfl hc) | skip
    all_goals unfold_handlers
    all_goals post
    all_goals unfold Keeps
    all_goals simp only [send8_daq, apiDisconnect_daq]
    all_goals first
      | exact id
      | (intro h; split at h
         · rw [daqInit_running] at h; cases h
         · exact h)
      | (rename_i hd; rw [(write_same hd).1]; exact id)
      | (rename_i hd; rw [multiple_running _ _ hd]; exact id)
      | (rename_i hd; rw [addEvent_running hd]; exact id)
      | (rw [daqFree_running]; exact id)
      | (intro h; exact req_running (r := .daq _) rfl h)
      | (rename_i hd; intro h; exact req_running (r := .odt _ _) hd h)
      | (rename_i hd; intro h; exact req_running (r := .entry _ _ _) hd h)
  · exact (handler_daq env p c hd).mono (fun t h ht => by rw [h] at ht; exact ht)

/-- Started by START_STOP_SYNCH (start) only. -/
def Synched (cfg : Cfg) (s : St) (p : Pdu) (t : St) : Prop :=
  t.daq.running = true → s.daq.running = true ∨ (p.buf[1]? = some 1 ∧ s.pgm ≠ .active ∧ ¬ Locked cfg s RES_DAQ)

theorem synch_running {cfg : Cfg} (env : Env) {s : St} (p : Pdu) :
    Post (handler cfg env s p .startStopSynch) (Synched cfg s p) := by
  unfold_handlers
  post
  all_goals unfold Synched
  all_goals simp only [send8_daq]
  all_goals first
    | exact Or.inl
    | (intro h; cases h; done)
    | skip
  rename_i b hb hp hl h1
  intro _
  refine Or.inr ⟨?_, hp, fun h => by rw [h.isProtected] at hl; cases hl⟩
  subst h1
  unfold Pdu.byte at hb
  cases hx : p.buf[1]? with
  | none => rw [hx] at hb; cases hb
  | some y => rw [hx] at hb; cases hb; rfl

theorem locked_bump {cfg : Cfg} {s : St} {r : UInt8} : Locked cfg (bumpReceived cfg s) r ↔ Locked cfg s r := by
  unfold Locked; rw [bumpReceived_resProt]

/-- Where a running acquisition comes from. -/
theorem running_step {cfg : Cfg} (x : Env × Op) (s s' : St) (h : step cfg x.1 s x.2 = .ok s') (hr : s'.daq.running = true) :
    s.daq.running = true ∨ startsDaq cfg s x := by
  obtain ⟨env, op⟩ := x
  have keep : ∀ t : St, t.daq = s.daq → t.daq.running = true → s.daq.running = true ∨ startsDaq cfg s (env, op) :=
    fun t h ht => Or.inl (by rw [← h]; exact ht)
  revert s'
  suffices Post (step cfg env s op) (fun t : St => t.daq.running = true → s.daq.running = true ∨ startsDaq cfg s (env, op)) from
    fun s' hr h => this s' h hr
  cases op with
  | cmd p =>
    apply Post.cmd
    · intro t h1 h2; exact keep t (h1.daq)
    · intro _ t _ h1 h2; exact keep t (h1.daq)
    · intro c hx
      by_cases hc : c = .startStopSynch
      · subst hc
        refine (synch_running env p).mono (fun t ht hr => ?_)
        rcases ht hr with h | ⟨h1, h2, h3⟩
        · exact Or.inl (by simpa using h)
        · exact Or.inr ⟨p, rfl, hx, h1, by simpa using h2, fun h => h3 (locked_bump.mpr h)⟩
      · exact (handler_running env p c hc).mono (fun t ht hr => Or.inl (by simpa using ht hr))
  | main => exact (main_eff env).mono (fun t ht => keep t ht.daq)
  | trigger ev =>
    unfold step
    apply Post.ite
    · intro _
      refine (trigger_eff env _).mono (fun t ht hr => Or.inl ?_)
      obtain ⟨q, h⟩ := ht.daq
      rw [h] at hr; exact hr
    · intro _; exact Post.ok Or.inl
  | eventPkt code data => exact special_eff.mono (fun t ht => keep t ht.same.daq)
  | servPkt code data => exact special_eff.mono (fun t ht => keep t ht.same.daq)
  | appWrite a data => exact Post.ok (keep _ rfl)
  | apiDisconnect =>
    refine Post.ok ?_
    rw [apiDisconnect_daq]
    intro h
    split at h
    · rw [daqInit_running] at h; cases h
    · exact Or.inl h

/-- What ends the acquisition. -/
theorem stops_step {cfg : Cfg} (hd : cfg.daq = true) (x : Env × Op) (s s' : St) (h : step cfg x.1 s x.2 = .ok s')
    (hx : stopsDaq cfg s x) : s'.daq.running = false := by
  obtain ⟨env, op⟩ := x
  have hapi : ∀ t : St, (apiDisconnect cfg t).daq.running = false := fun t => by
    rw [apiDisconnect_daq, if_pos hd, daqInit_running]
  rcases hx with hx | ⟨p, hp, hpg, hx⟩
  · dsimp only at hx h
    subst hx
    cases h
    exact hapi s
  · dsimp only at hp hx h
    subst hp
    rcases hx with ⟨hx, h1, hl⟩ | hx | ⟨hx, hseed, len, h1, hrej⟩
    · rw [executes_step env hx] at h
      simp only [handler, startStopSynchRes, byte_eq h1, ok_bind, assertPgmIdle, assertUnlocked, bumpReceived_pgm] at h
      rw [if_neg hpg, if_neg (by simpa [isProtected, Locked] using hl), if_neg (by decide), if_pos trivial] at h
      cases h
      rfl
    · rw [executes_step env hx] at h
      simp only [handler, disconnectRes, assertPgmIdle, bumpReceived_pgm] at h
      rw [if_neg hpg] at h
      cases h
      exact hapi _
    · rw [executes_step env hx] at h
      simp only [handler, unlockRes, byte_eq h1, ok_bind, assertPgmIdle, bumpReceived_pgm, bumpReceived_seedReq, hrej] at h
      rw [if_neg hpg, if_neg hseed] at h
      cases h
      exact hapi _

/-- Packets other than responses are sent by events only. -/
theorem dto_step {cfg : Cfg} (x : Env × Op) (s s' : St) (h : step cfg x.1 s x.2 = .ok s') :
    Ctos s s' ∨ (∃ ev, x.2 = .trigger ev ∧ cfg.daq = true ∧ s.daq.running = true) := by
  obtain ⟨env, op⟩ := x
  revert s'
  suffices Post (step cfg env s op) (fun t : St => Ctos s t ∨ (∃ ev, op = .trigger ev ∧ cfg.daq = true ∧ s.daq.running = true)) from
    fun s' h => this s' h
  cases op with
  | cmd p =>
    apply Post.cmd
    · intro t h1 h2; exact Or.inl h2
    · intro _ t _ h1 h2; exact Or.inl h2
    · intro c hx
      refine (handler_ctos env p c).mono (fun t ht => Or.inl ?_)
      exact (Ctos.of_eq (by simp)).trans ht
  | main => exact (main_eff env).mono (fun t ht => Or.inl ht.ctos)
  | trigger ev =>
    cases hd : cfg.daq with
    | false => simp only [step, hd]; exact Post.ok (Or.inl (Ctos.refl s))
    | true =>
      cases hr : s.daq.running with
      | false => simp only [step, hd, if_true, trigger_stopped hr]; exact Post.ok (Or.inl (Ctos.refl s))
      | true => exact fun t _ => Or.inr ⟨ev, rfl, rfl, rfl⟩
  | eventPkt code data => exact special_eff.mono (fun t ht => Or.inl ht.ctos)
  | servPkt code data => exact special_eff.mono (fun t ht => Or.inl ht.ctos)
  | appWrite a data => exact Post.ok (Or.inl (Ctos.of_eq rfl))
  | apiDisconnect => exact Post.ok (Or.inl (Ctos.apiDisconnect (Ctos.refl s)))

/-- C35, partial: whenever an operation sends a DAQ packet, it is an event, and before it a
START_STOP_SYNCH (start) was accepted that was not followed by START_STOP_SYNCH (stop all), DISCONNECT,
a wrong key or the end of the session. -/
theorem C35_between_partial {cfg : Cfg} {mem : Mem} {h : List (Env × Op)} {s s' : St} {x : Env × Op}
    (hr : run cfg (St.init cfg mem) h = .ok s) (hx : step cfg x.1 s x.2 = .ok s') {f : Frame} {n : Nat}
    (hf : s'.tx[n]? = some f) (hnew : s.tx.length ≤ n) (hk : f.kind = .dto) :
    (∃ ev, x.2 = .trigger ev) ∧ SinceIn cfg (startsDaq cfg) (stopsDaq cfg) (St.init cfg mem) h := by
  rcases dto_step x s s' hx with ⟨fs, htx, hall⟩ | ⟨ev, h1, hd, hrun⟩
  · exfalso
    rw [htx, List.getElem?_append_right hnew] at hf
    have := hall f (List.mem_of_getElem? hf)
    rw [hk] at this
    cases this
  · refine ⟨⟨ev, h1⟩, ?_⟩
    have hstep : ∀ x s s', step cfg x.1 s x.2 = .ok s' → s'.daq.running = true →
        (s.daq.running = true ∧ ¬ stopsDaq cfg s x) ∨ startsDaq cfg s x := by
      intro x s s' h hr
      rcases running_step x s s' h hr with h1 | h1
      · refine Or.inl ⟨h1, fun he => ?_⟩
        rw [stops_step hd x s s' h he] at hr
        cases hr
      · exact Or.inr h1
    rcases origin (Q := fun s => s.daq.running = true) hstep hr hrun with ⟨h2, -⟩ | h2
    · exfalso
      have : (St.init cfg mem).daq.running = false := daqInit_running _
      rw [this] at h2
      cases h2
    · exact h2

/-- C35 is false for single lists: no list is selected, yet list 0 is sampled after the start; and it
is still sampled after START_STOP_SYNCH (stop selected) of that list. -/
theorem C35_fails :
    let h := [Ex.c [0xFF], Ex.c [0xD6], Ex.c [0xD5, 0, 1, 0], Ex.c [0xD4, 0, 0, 0, 1], Ex.c [0xE0, 0, 0, 0, 0, 0, 1, 0]]
    let dtos := fun s : St => (s.tx.filter (·.kind == .dto)).map fun f => f.bytes.drop 4
    Ex.obs Ex.sim (h ++ [Ex.c [0xDD, 1], (Ex.env, .trigger 0)]) dtos = some [[0]] ∧
    Ex.obs Ex.sim (h ++ [Ex.c [0xDE, 2, 0, 0], Ex.c [0xDD, 1], Ex.c [0xDE, 2, 0, 0], Ex.c [0xDD, 2], (Ex.env, .trigger 0)]) dtos =
      some [[0]] := by decide +kernel

/-- Start, event, stop all, event: one packet. -/
example : Ex.obs Ex.sim [Ex.c [0xFF], Ex.c [0xD6], Ex.c [0xD5, 0, 1, 0], Ex.c [0xD4, 0, 0, 0, 1], Ex.c [0xE0, 0, 0, 0, 0, 0, 1, 0],
    (Ex.env, .trigger 0), Ex.c [0xDE, 2, 0, 0], Ex.c [0xDD, 1], (Ex.env, .trigger 0), Ex.c [0xDD, 0], (Ex.env, .trigger 0)]
    (fun s => (s.tx.filter (·.kind == .dto)).map fun f => f.bytes.drop 4) = some [[0]] := by decide +kernel

end Xcp
