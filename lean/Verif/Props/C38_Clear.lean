import Verif.Props.C35_StartStop
import Verif.Props.C30_SetDaqPtr
/-
C38: FREE_DAQ and disconnect clear the DAQ configuration.
-/
set_option autoImplicit false
namespace Xcp
open Spec

/-- An accepted FREE_DAQ, a DISCONNECT, a wrong key, or the application ending the session. -/
def Spec.clearsDaq (cfg : Cfg) (s : St) (x : Env × Op) : Prop :=
  x.2 = .apiDisconnect ∨
  ∃ p, x.2 = .cmd p ∧ s.pgm ≠ .active ∧
    ((executes cfg s p .freeDaq ∧ ¬ Locked cfg s RES_DAQ) ∨
     executes cfg s p .disconnect ∨
     (executes cfg s p .unlock ∧ s.seedReq ≠ 0 ∧
      ∃ len : UInt8, p.buf[1]? = some len ∧ x.1.unlock s.seedReq (p.buf.drop 2) len.toNat = false))

/-- C38: afterwards there are no lists, ODTs or entries, and the whole pool is free and zero. -/
theorem C38_cleared {cfg : Cfg} (hd : cfg.daq = true) {x : Env × Op} {s s' : St} (h : step cfg x.1 s x.2 = .ok s')
    (hx : clearsDaq cfg s x) : Empty s'.daq ∧ Rep cfg s'.daq [] := by
  suffices he : Empty s'.daq from ⟨he, (held_empty (cfg := cfg) he).rep⟩
  obtain ⟨env, op⟩ := x
  have hapi : ∀ t : St, Empty (apiDisconnect cfg t).daq := fun t => by
    rw [apiDisconnect_daq, if_pos hd]; exact empty_init _
  rcases hx with hx | ⟨p, hp, hpg, hx⟩
  · dsimp only at hx h
    subst hx
    cases h
    exact hapi s
  · dsimp only at hp hx h
    subst hp
    rcases hx with ⟨hx, hl⟩ | hx | ⟨hx, hseed, len, h1, hrej⟩
    · rw [executes_step env hx] at h
      simp only [handler, freeDaqRes, assertPgmIdle, assertUnlocked, bumpReceived_pgm] at h
      rw [if_neg (by simpa [isProtected, Locked] using hl), if_neg hpg] at h
      cases h
      rw [sendResult_eq, send8_daq]
      exact empty_free _
    · rw [executes_step env hx] at h
      simp only [handler, disconnectRes, assertPgmIdle, bumpReceived_pgm] at h
      rw [if_neg hpg] at h
      cases h
      exact hapi _
    · rw [executes_step env hx] at h
      simp only [handler, unlockRes, byte_eq h1, ok_bind, assertPgmIdle, bumpReceived_pgm, bumpReceived_seedReq, hrej] at h
      rw [if_neg hpg, if_neg hseed] at h
      cases h
      exact hapi _

/-! ### Until the next ALLOC_DAQ there are no lists -/

theorem init_lists (d : Daq) : (daqInit d).listCount = 0 := (empty_init d).lists

/-- The number of lists stays, or there are none. -/
def ListsKept (s t : St) : Prop := t.daq.listCount = s.daq.listCount ∨ t.daq.listCount = 0

theorem odt_lists {cfg : Cfg} {d d' : Daq} {l n : Nat} {a : UInt8} (h : allocOdt cfg d l n = .ok (d', a)) :
    d'.listCount = d.listCount ∨ d'.listCount = 0 := by
  simp only [allocOdt, Daq.ent] at h
  split at h
  · cases h
    split
    · exact Or.inr (init_lists d)
    · exact Or.inl rfl
  · split at h
    · split at h
      · cases h; exact Or.inl rfl
      · cases h
    · cases h; exact Or.inl rfl

theorem entry_lists {cfg : Cfg} {d d' : Daq} {l o n : Nat} {a : UInt8} (h : allocOdtEntry cfg d l o n = .ok (d', a)) :
    d'.listCount = d.listCount ∨ d'.listCount = 0 := by
  simp only [allocOdtEntry, Daq.ent] at h
  split at h
  · cases h
    split
    · exact Or.inr (init_lists d)
    · exact Or.inl rfl
  · split at h
    · split at h
      · simp only [ok_bind] at h
        split at h
        · cases h; exact Or.inl rfl
        · cases h
      · cases h
    · cases h; exact Or.inl rfl

theorem multiple_lists {cfg : Cfg} {p : Pdu} (l : List Nat) {d : Daq} :
    Post (l.foldlM (writeDaqMultipleBody cfg p) d) (fun d' => d'.listCount = d.listCount) := by
  induction l generalizing d with
  | nil => exact Post.ok rfl
  | cons i l ih =>
    have hb : Post (writeDaqMultipleBody cfg p d i) (fun d' => d'.listCount = d.listCount) := by
      unfold writeDaqMultipleBody
      apply Post.bindAny; intro _ _
      apply Post.bindAny; intro size _
      apply Post.bindAny; intro addr _
      apply Post.bindAny; intro _ _
      intro d' h
      exact (write_same h).2.1
    exact Post.bind (hb.mono fun d' h1 => ih.mono fun e he => he.trans h1)

theorem handler_lists {cfg : Cfg} (env : Env) {s : St} (p : Pdu) (c : Cmd) (hc : c ≠ .allocDaq) :
    Post (handler cfg env s p c) (ListsKept s) := by
  rcases Bool.eq_false_or_eq_true (changesDaq c) with hd | hd
  · cases c <;> first | (simp [changesDaq] at hd; done) | (exact absurd rfl hc) | skip
    all_goals unfold_handlers
    all_goals post
    all_goals unfold ListsKept
    all_goals simp only [send8_daq, apiDisconnect_daq]
    all_goals first
      | exact Or.inl rfl
      | exact Or.inl trivial
      | (split
         · exact Or.inr (init_lists _)
         · exact Or.inl rfl)
      | (rename_i hd; exact Or.inl (write_same hd).2.1)
      | (rename_i hd; exact Or.inl (multiple_lists _ _ hd))
      | (rename_i hd; exact Or.inl (addEvent_pool hd).lists)
      | exact Or.inr (empty_free _).lists
      | (rename_i hd; exact odt_lists hd)
      | (rename_i hd; exact entry_lists hd)
  · exact (handler_daq env p c hd).mono (fun t h => Or.inl (by rw [h]))

/-- An ALLOC_DAQ command is executed. -/
def Spec.allocatesLists (cfg : Cfg) (s : St) (x : Env × Op) : Prop := ∃ p, x.2 = .cmd p ∧ executes cfg s p .allocDaq

theorem lists_step {cfg : Cfg} (x : Env × Op) (s s' : St) (h : step cfg x.1 s x.2 = .ok s') (hn : ¬ allocatesLists cfg s x) :
    ListsKept s s' := by
  obtain ⟨env, op⟩ := x
  have keep : ∀ t : St, t.daq = s.daq → ListsKept s t := fun t h => Or.inl (by rw [h])
  revert s'
  change Post _ (ListsKept s)
  cases op with
  | cmd p =>
    apply Post.cmd
    · intro t h1 h2; exact keep t (h1.daq)
    · intro _ t _ h1 h2; exact keep t (h1.daq)
    · intro c hx
      by_cases hc : c = .allocDaq
      · subst hc; exact absurd ⟨p, rfl, hx⟩ hn
      · exact (handler_lists env p c hc).mono (fun t ht => by simpa [ListsKept] using ht)
  | main => exact (main_eff env).mono (fun t ht => keep t ht.daq)
  | trigger ev =>
    unfold step
    apply Post.ite
    · intro _
      refine (trigger_eff env _).mono (fun t ht => Or.inl ?_)
      obtain ⟨q, h⟩ := ht.daq
      rw [h]
    · intro _; exact Post.ok (Or.inl rfl)
  | eventPkt code data => exact special_eff.mono (fun t ht => keep t ht.same.daq)
  | servPkt code data => exact special_eff.mono (fun t ht => keep t ht.same.daq)
  | appWrite a data => exact Post.ok (keep _ rfl)
  | apiDisconnect =>
    refine Post.ok ?_
    unfold ListsKept
    rw [apiDisconnect_daq]
    split
    · exact Or.inr (init_lists _)
    · exact Or.inl rfl

/-- C38: after the configuration was cleared, and whatever happens until the next ALLOC_DAQ, there is
no list. -/
theorem C38_no_lists {cfg : Cfg} (hd : cfg.daq = true) {x : Env × Op} {s s1 s2 : St} (h : step cfg x.1 s x.2 = .ok s1)
    (hx : clearsDaq cfg s x) {h' : List (Env × Op)} (hr : run cfg s1 h' = .ok s2) (hw : Without cfg (allocatesLists cfg) s1 h') :
    s2.daq.listCount = 0 := by
  refine persists (Q := fun s => s.daq.listCount = 0) (E := allocatesLists cfg) ?_ hr (C38_cleared hd h hx).1.lists hw
  intro x s s' hs hq hn
  rcases lists_step x s s' hs hn with h | h
  · exact h.trans hq
  · exact h

/-- C38: while there is no list, every SET_DAQ_PTR is refused: because an acquisition runs,
programming is active, DAQ is locked, or else because the entry does not exist. -/
theorem C38_set_daq_ptr {cfg : Cfg} (hs : ShortOk cfg) {env : Env} {s s' : St} (h0 : s.daq.listCount = 0) {p : Pdu}
    (hx : executes cfg s p .setDaqPtr) (h : step cfg env s (.cmd p) = .ok s') :
    Refused cfg s s' (if s.daq.running then 0x11 else if s.pgm = .active then 0x12
      else if isProtected cfg s RES_DAQ then 0x25 else 0x22) := by
  rw [executes_step env hx] at h
  apply Refused.of_bump
  have h0 : (bumpReceived cfg s).daq.listCount = 0 := by simpa using h0
  have e1 : s.daq.running = (bumpReceived cfg s).daq.running := by simp
  have e2 : s.pgm = (bumpReceived cfg s).pgm := by simp
  have e3 : isProtected cfg s RES_DAQ = isProtected cfg (bumpReceived cfg s) RES_DAQ := by simp [isProtected]
  rw [e1, e2, e3]
  generalize bumpReceived cfg s = s at *
  simp only [handler, setDaqPtrRes, assertDaqStopped, assertPgmIdle, assertUnlocked] at h
  split at h
  · rename_i h1; cases h; rw [if_pos h1, sendResult_eq]; exact refused_send8 hs _ _
  · rename_i h1
    rw [if_neg h1]
    split at h
    · rename_i h2; cases h; rw [if_pos h2, sendResult_eq]; exact refused_send8 hs _ _
    · rename_i h2
      rw [if_neg h2]
      split at h
      · rename_i h3; cases h; rw [if_pos h3, sendResult_eq]; exact refused_send8 hs _ _
      · rename_i h3
        rw [if_neg h3]
        have : ∀ l o e, validateOdtEntry cfg s.daq l o e = .ok false := by
          intro l o e
          unfold validateOdtEntry
          rw [if_pos (by omega)]
        simp only [this] at h
        revert h s'
        change Post _ (fun t => Refused cfg s t 0x22)
        apply Post.bindAny; intro _ _
        apply Post.bindAny; intro _ _
        apply Post.bindAny; intro _ _
        exact Post.ok (refused_send8 hs _ _)

/-- C38: while there is no list, events change nothing and send nothing. -/
theorem C38_event {cfg : Cfg} (env : Env) {s : St} (h0 : s.daq.listCount = 0) (ev : UInt8) :
    step cfg env s (.trigger ev) = .ok s := by
  simp only [step]
  split
  · unfold triggerEvent
    split
    · rfl
    · split
      · rfl
      · have : ∀ l, getFirstPid cfg s.daq l = .ok (false, 0) := by
          intro l
          unfold getFirstPid
          rw [if_pos (by omega)]
        simp only [this]
        rfl
  · rfl

/-- C38: the whole pool can be allocated again. -/
theorem C38_pool {cfg : Cfg} (hc : cfg.Ok) (hs : ShortOk cfg) {env : Env} {s : St} (he : Empty s.daq) (hd : DaqReady cfg s)
    (hsup : cfg.supports .allocDaq = true) {p : Pdu} (hp : IsReq cfg.motorola p (.daq cfg.maxEnt)) :
    ∃ s', step cfg env s (.cmd p) = .ok s' ∧ Answers cfg s s' [0xFF] ∧ Rep cfg s'.daq (List.replicate cfg.maxEnt []) := by
  obtain ⟨d', h1, h2⟩ := held_accept hc (held_empty (cfg := cfg) he) (r := .daq cfg.maxEnt) trivial (Or.inr (Or.inr (by rw [he.freed]; rfl)))
    (Or.inr (by rw [he.used]; show 0 + cfg.maxEnt ≤ _; omega))
  refine ⟨_, by rw [alloc_step env (r := .daq cfg.maxEnt) hd hsup hp, h1]; rfl, ?_, ?_⟩
  · exact send8_answers hs (by simp) (by simp)
  · exact h2.rep

/-- A configuration, FREE_DAQ, SET_DAQ_PTR, an event, and the whole pool allocated anew. -/
example : Ex.obs Ex.sim (Ex.alloc2 ++ [Ex.c [0xDD, 1], Ex.c [0xD6], (Ex.env, .trigger 0), Ex.c [0xDD, 0], Ex.c [0xE2, 0, 1, 0, 0, 0],
    Ex.c [0xD5, 0, 100, 0]]) (fun s => ((s.tx.map fun f => f.bytes.drop 4).drop 6, s.daq.listCount)) =
    some ([[0xFF], [0xFF], [0xFF], [0xFE, 0x22], [0xFF]], 100) := by decide +kernel
/-- The same after DISCONNECT. -/
example : Ex.obs Ex.sim (Ex.alloc2 ++ [Ex.c [0xFE], Ex.c [0xE2, 0, 1, 0, 0, 0], Ex.c [0xD5, 0, 100, 0]])
    (fun s => ((s.tx.map fun f => f.bytes.drop 4).drop 6, s.daq.listCount)) =
    some ([[0xFF], [0xFE, 0x22], [0xFF]], 100) := by decide +kernel

end Xcp
