import Verif.Props.C38_Clear
/-
C36: events without an assigned list send nothing.

False: such an event samples list 0 (`C36_default`, `C36_fails`), and SET_DAQ_LIST_MODE checks neither
the event (`C36_fails_event`) nor the list (`C36_fails_list`).  What holds: an unassigned event sends
nothing if there are no lists or list 0 has no ODTs, events the slave does not have send nothing, and
an accepted SET_DAQ_LIST_MODE for an existing event assigns the list to this event and no other.
-/
set_option autoImplicit false
namespace Xcp
open Spec

/-- A SET_DAQ_LIST_MODE for event `ev` is executed. -/
def Spec.assigns (cfg : Cfg) (ev : Nat) (s : St) (x : Env × Op) : Prop :=
  ∃ p, x.2 = .cmd p ∧ executes cfg s p .setDaqListMode ∧ Param cfg.motorola p 4 2 ev

/-- The assignments stay, or are all reset to list 0. -/
def EventsKept (s t : St) : Prop := t.daq.listForEvent = s.daq.listForEvent ∨ t.daq.listForEvent = fun _ => 0

theorem free_events (d : Daq) : (daqFree d).listForEvent = fun _ => 0 := by
  unfold daqFree; dsimp only; split <;> rfl

theorem init_events (d : Daq) : (daqInit d).listForEvent = fun _ => 0 := by
  unfold daqInit; dsimp only; rw [free_events]

theorem req_events {cfg : Cfg} {d d' : Daq} {r : AllocReq} {a : UInt8} (h : applyReq cfg d r = .ok (d', a)) :
    d'.listForEvent = d.listForEvent ∨ d'.listForEvent = fun _ => 0 := by
  have reset : ∀ b : Bool, (if b then daqInit d else d).listForEvent = d.listForEvent ∨
      (if b then daqInit d else d).listForEvent = fun _ => 0 := by
    intro b; cases b
    · exact Or.inl rfl
    · exact Or.inr (init_events d)
  cases r with
  | free => cases h; exact Or.inr (free_events d)
  | daq n =>
    simp only [applyReq, allocDaq] at h
    split at h
    · cases h; exact reset _
    · split at h <;> (cases h; exact Or.inl rfl)
  | odt l n =>
    simp only [applyReq, allocOdt, Daq.ent] at h
    split at h
    · cases h; exact reset _
    · split at h
      · split at h
        · cases h; exact Or.inl rfl
        · cases h
      · cases h; exact Or.inl rfl
  | entry l o n =>
    simp only [applyReq, allocOdtEntry, Daq.ent] at h
    split at h
    · cases h; exact reset _
    · split at h
      · split at h
        · simp only [ok_bind] at h
          split at h
          · cases h; exact Or.inl rfl
          · cases h
        · cases h
      · cases h; exact Or.inl rfl

theorem multiple_events {cfg : Cfg} {p : Pdu} (l : List Nat) {d : Daq} :
    Post (l.foldlM (writeDaqMultipleBody cfg p) d) (fun d' => d'.listForEvent = d.listForEvent) := by
  induction l generalizing d with
  | nil => exact Post.ok rfl
  | cons i l ih =>
    have hb : Post (writeDaqMultipleBody cfg p d i) (fun d' => d'.listForEvent = d.listForEvent) := by
      unfold writeDaqMultipleBody
      apply Post.bindAny; intro _ _
      apply Post.bindAny; intro size _
      apply Post.bindAny; intro addr _
      apply Post.bindAny; intro _ _
      intro d' h
      exact (write_same h).2.2.2.2.2.2.1
    exact Post.bind (hb.mono fun d' h1 => ih.mono fun e he => he.trans h1)

theorem handler_events {cfg : Cfg} (env : Env) {s : St} (p : Pdu) (c : Cmd) (hc : c ≠ .setDaqListMode) :
    Post (handler cfg env s p c) (EventsKept s) := by
  rcases Bool.eq_false_or_eq_true (changesDaq c) with hd | hd
  · cases c <;> first | (simp [changesDaq] at hd; done) | (exact absurd rfl hc) | skip
    all_goals unfold_handlers
    all_goals post
    all_goals unfold EventsKept
    all_goals simp only [send8_daq, apiDisconnect_daq]
    all_goals first
      | exact Or.inl rfl
      | exact Or.inl trivial
      | (split
         · exact Or.inr (init_events _)
         · exact Or.inl rfl)
      | (rename_i hd; exact Or.inl (write_same hd).2.2.2.2.2.2.1)
      | (rename_i hd; exact Or.inl (multiple_events _ _ hd))
      | exact Or.inr (free_events _)
      | exact req_events (r := .daq _) rfl
      | (rename_i hd; exact req_events (r := .odt _ _) hd)
      | (rename_i hd; exact req_events (r := .entry _ _ _) hd)
  · exact (handler_daq env p c hd).mono (fun t h => Or.inl (by rw [h]))

/-- SET_DAQ_LIST_MODE changes the assignment of the event it names only. -/
def EventSet (cfg : Cfg) (p : Pdu) (s t : St) : Prop :=
  ∀ ev, Pdu.word cfg.motorola p 4 ≠ .ok ev → t.daq.listForEvent ev = s.daq.listForEvent ev

theorem mode_events {cfg : Cfg} (env : Env) {s : St} (p : Pdu) :
    Post (handler cfg env s p .setDaqListMode) (EventSet cfg p s) := by
  unfold_handlers
  post
  all_goals unfold EventSet
  all_goals simp only [send8_daq]
  all_goals first
    | exact fun _ _ => rfl
    | (intros; trivial)
    | skip
  rename_i a4 _ _ _ _ _ _ _ _ _ _ d hd
  intro ev hev
  unfold addEventChannel at hd
  split at hd
  · cases hd
    dsimp only
    rw [if_neg]
    intro h
    apply hev
    rw [h]
    assumption
  · cases hd

theorem events_step {cfg : Cfg} (ev : Nat) (x : Env × Op) (s s' : St) (h : step cfg x.1 s x.2 = .ok s') :
    s'.daq.listForEvent ev = s.daq.listForEvent ev ∨ s'.daq.listForEvent ev = 0 ∨ assigns cfg ev s x := by
  obtain ⟨env, op⟩ := x
  have keep : ∀ t : St, t.daq = s.daq → t.daq.listForEvent ev = s.daq.listForEvent ev ∨ t.daq.listForEvent ev = 0 ∨
    assigns cfg ev s (env, op) := fun t h => Or.inl (by rw [h])
  revert s'
  change Post _ (fun t : St => t.daq.listForEvent ev = s.daq.listForEvent ev ∨ t.daq.listForEvent ev = 0 ∨
    assigns cfg ev s (env, op))
  cases op with
  | cmd p =>
    apply Post.cmd
    · intro t h1 h2; exact keep t (h1.daq)
    · intro _ t _ h1 h2; exact keep t (h1.daq)
    · intro c hx
      by_cases hc : c = .setDaqListMode
      · subst hc
        refine (mode_events env p).mono (fun t ht => ?_)
        by_cases hw : Pdu.word cfg.motorola p 4 = .ok ev
        · exact Or.inr (Or.inr ⟨p, rfl, hx, param_of_word hw⟩)
        · exact Or.inl (by simpa using ht ev hw)
      · refine (handler_events env p c hc).mono (fun t ht => ?_)
        rcases ht with h | h
        · exact Or.inl (by rw [h]; simp)
        · exact Or.inr (Or.inl (by rw [h]))
  | main => exact (main_eff env).mono (fun t ht => keep t ht.daq)
  | trigger e =>
    unfold step
    apply Post.ite
    · intro _
      refine (trigger_eff env _).mono (fun t ht => Or.inl ?_)
      obtain ⟨q, h⟩ := ht.daq
      rw [h]
    · intro _; exact Post.ok (Or.inl rfl)
  | eventPkt code data => exact special_eff.mono (fun t ht => keep t ht.same.daq)
  | servPkt code data => exact special_eff.mono (fun t ht => keep t ht.same.daq)
  | appWrite a data => exact Post.ok (keep _ rfl)
  | apiDisconnect =>
    refine Post.ok ?_
    rw [apiDisconnect_daq]
    split
    · exact Or.inr (Or.inl (by rw [init_events]))
    · exact Or.inl rfl

/-- An event to which no list was assigned since the last time the configuration was cleared is
processed as if list 0 had been assigned to it. -/
theorem C36_default {cfg : Cfg} (hd : cfg.daq = true) {mem : Mem} {h : List (Env × Op)} {s : St} {ev : Nat}
    (hr : run cfg (St.init cfg mem) h = .ok s)
    (hno : ¬ SinceIn cfg (assigns cfg ev) (clearsDaq cfg) (St.init cfg mem) h) : s.daq.listForEvent ev = 0 := by
  have hstep : ∀ x s s', step cfg x.1 s x.2 = .ok s' → s'.daq.listForEvent ev ≠ 0 →
      (s.daq.listForEvent ev ≠ 0 ∧ ¬ clearsDaq cfg s x) ∨ assigns cfg ev s x := by
    intro x s s' h hq
    rcases events_step ev x s s' h with h1 | h1 | h1
    · by_cases hx : clearsDaq cfg s x
      · exfalso
        apply hq
        have : ∀ t : St, (apiDisconnect cfg t).daq.listForEvent ev = 0 := fun t => by
          rw [apiDisconnect_daq, if_pos hd, init_events]
        obtain ⟨env, op⟩ := x
        rcases hx with hx | ⟨p, hp, hpg, hx⟩
        · dsimp only at hx h
          subst hx
          cases h
          exact this s
        · dsimp only at hp hx h
          subst hp
          rcases hx with ⟨hx, hl⟩ | hx | ⟨hx, hseed, len, h1, hrej⟩
          · rw [executes_step env hx] at h
            simp only [handler, freeDaqRes, assertPgmIdle, assertUnlocked, bumpReceived_pgm] at h
            rw [if_neg (by simpa [isProtected, Locked] using hl), if_neg hpg] at h
            cases h
            rw [sendResult_eq, send8_daq, free_events]
          · rw [executes_step env hx] at h
            simp only [handler, disconnectRes, assertPgmIdle, bumpReceived_pgm] at h
            rw [if_neg hpg] at h
            cases h
            exact this _
          · rw [executes_step env hx] at h
            simp only [handler, unlockRes, byte_eq h1, ok_bind, assertPgmIdle, bumpReceived_pgm, bumpReceived_seedReq, hrej] at h
            rw [if_neg hpg, if_neg hseed] at h
            cases h
            exact this _
      · exact Or.inl ⟨by rw [← h1]; exact hq, hx⟩
    · exact absurd h1 hq
    · exact Or.inr h1
  have := origin_none (Q := fun s => s.daq.listForEvent ev ≠ 0) hstep hr (fun h => h (by
    show (daqInit _).listForEvent ev = 0
    rw [init_events])) hno
  exact Decidable.byContradiction this

/-- C36, partial: an unassigned event sends nothing if there are no lists or list 0 has no ODTs, and
events the slave does not have send nothing. -/
theorem C36_unassigned_partial {cfg : Cfg} (hc : cfg.Ok) (hd : cfg.daq = true) {mem : Mem} {h : List (Env × Op)} {s s' : St}
    {env : Env} {ev : UInt8} (hr : run cfg (St.init cfg mem) h = .ok s)
    (hev : cfg.numEvents ≤ ev.toNat ∨ (¬ SinceIn cfg (assigns cfg ev.toNat) (clearsDaq cfg) (St.init cfg mem) h ∧
      (s.daq.listCount = 0 ∨ (s.daq.entities 0).num = 0) ∧ s.daq.queue.empty = true))
    (hs : step cfg env s (.trigger ev) = .ok s') : Silent s s' := by
  simp only [step, hd, if_true] at hs
  unfold triggerEvent at hs
  split at hs
  · cases hs; rfl
  · split at hs
    · cases hs; rfl
    · rename_i hn
      rw [Nat.mod_eq_of_lt hc.ev_lt] at hn
      rcases hev with hev | ⟨hno, hl, hq⟩
      · omega
      · rw [C36_default hd hr hno] at hs
        by_cases h0 : s.daq.listCount = 0
        · have : getFirstPid cfg s.daq 0 = .ok (false, 0) := by
            unfold getFirstPid
            rw [if_pos (by omega)]
          simp only [this] at hs
          cases hs; rfl
        · have h1 : (s.daq.entities 0).num = 0 := by rcases hl with h | h
                                                     · exact absurd h h0
                                                     · exact h
          have : getFirstPid cfg s.daq 0 = .ok (true, 0) := by
            unfold getFirstPid
            rw [if_neg (by omega)]
            rfl
          have he : s.daq.ent cfg 0 = .ok (s.daq.entities 0) := by
            unfold Daq.ent; rw [if_pos hc.ent_pos]
          simp only [this, he, ok_bind, h1] at hs
          have ht : ∀ q : Queue, q = s.daq.queue → transmit cfg (queueSize + 1) { s with daq := { s.daq with queue := q } } = .ok s' →
              Silent s s' := by
            intro q hqq hh
            subst hqq
            unfold transmit at hh
            rw [if_pos hq] at hh
            cases hh; rfl
          exact ht _ rfl hs

theorem mode_step {cfg : Cfg} (hs : ShortOk cfg) (env : Env) {s : St} (hd : DaqReady cfg s)
    (hsup : cfg.supports .setDaqListMode = true) (hrun : s.daq.running = false) {p : Pdu} {m b6 b7 : UInt8} {l ev : Nat}
    (hp : code p = some 0xE0) (h1 : p.buf[1]? = some m) (hm : m &&& 3 = 0) (h2 : Param cfg.motorola p 2 2 l) (hl : l < 256)
    (h4 : Param cfg.motorola p 4 2 ev) (hev : ev < cfg.numEvents) (h6 : p.buf[6]? = some b6) (hb6 : b6.toNat ≤ 1)
    (h7 : p.buf[7]? = some b7) :
    ∃ s', step cfg env s (.cmd p) = .ok s' ∧ Answers cfg s s' [0xFF] ∧
      s'.daq = { s.daq with listForEvent := fun j => if j = ev then l else s.daq.listForEvent j, mode := newMode s.daq.mode m } ∧
      SameCore { s with daq := s'.daq } s' := by
  rw [hd.ready.stepc env .setDaqListMode hp hsup]
  have hb := hd.bump
  have hsame := bumpReceived_same cfg s
  have htx : (bumpReceived cfg s).tx = s.tx := bumpReceived_tx cfg s
  generalize bumpReceived cfg s = b at *
  have hm1 : ¬ m &&& MODE_DIRECTION = MODE_DIRECTION := by
    revert hm; exact (forall_u8 (P := fun m => m &&& 3 = 0 → ¬ m &&& MODE_DIRECTION = MODE_DIRECTION) (by decide +kernel)) m
  have hm2 : ¬ m &&& MODE_ALTERNATING = MODE_ALTERNATING := by
    revert hm; exact (forall_u8 (P := fun m => m &&& 3 = 0 → ¬ m &&& MODE_ALTERNATING = MODE_ALTERNATING) (by decide +kernel)) m
  have hp6 : ¬ 1 < b6 := by
    intro h
    have : (1 : UInt8).toNat < b6.toNat := UInt8.lt_iff_toNat_lt.mp h
    simp at this
    omega
  simp only [handler, setDaqListModeRes, assertDaqStopped, assertPgmIdle, assertUnlocked, hsame.daq, byte_eq h1, h2.word,
    h4.word, byte_eq h6, byte_eq h7, ok_bind, Nat.mod_eq_of_lt hl]
  rw [if_neg (by rw [hrun]; decide), if_neg hb.pgm, if_neg hb.notProtected, if_neg hm1, if_neg hm2, if_neg hp6]
  unfold addEventChannel
  rw [if_pos hev]
  exact ⟨_, rfl, send8_answers hs (by simp) htx, rfl, (hsame.withDaq _).trans (send8_same _ _ _)⟩

/-- C36, partial: a SET_DAQ_LIST_MODE (no direction, alternating or prescaler bits) for an existing
event is accepted and assigns the list to this event and to no other. -/
theorem C36_assign_partial {cfg : Cfg} (hs : ShortOk cfg) (env : Env) {s : St} (hd : DaqReady cfg s)
    (hsup : cfg.supports .setDaqListMode = true) (hrun : s.daq.running = false) {p : Pdu} {m b6 b7 : UInt8} {l ev : Nat}
    (hp : code p = some 0xE0) (h1 : p.buf[1]? = some m) (hm : m &&& 3 = 0) (h2 : Param cfg.motorola p 2 2 l) (hl : l < 256)
    (h4 : Param cfg.motorola p 4 2 ev) (hev : ev < cfg.numEvents) (h6 : p.buf[6]? = some b6) (hb6 : b6.toNat ≤ 1)
    (h7 : p.buf[7]? = some b7) :
    ∃ s', step cfg env s (.cmd p) = .ok s' ∧ Answers cfg s s' [0xFF] ∧ s'.daq.listForEvent ev = l ∧
      (∀ e, e ≠ ev → s'.daq.listForEvent e = s.daq.listForEvent e) ∧ SamePool s.daq s'.daq := by
  obtain ⟨s', e1, e2, e3, -⟩ := mode_step hs env hd hsup hrun hp h1 hm h2 hl h4 hev h6 hb6 h7
  refine ⟨s', e1, e2, ?_, ?_, ?_⟩
  · rw [e3]
    show (if ev = ev then l else _) = l
    rw [if_pos rfl]
  · intro e he
    rw [e3]
    show (if e = ev then l else s.daq.listForEvent e) = _
    rw [if_neg he]
  · rw [e3]; exact ⟨rfl, rfl, rfl, rfl, rfl⟩

/-- C36 is false: event 2 has no list, yet it sends the packet of list 0. -/
theorem C36_fails :
    Ex.obs Ex.sim [Ex.c [0xFF], Ex.c [0xD6], Ex.c [0xD5, 0, 1, 0], Ex.c [0xD4, 0, 0, 0, 1], Ex.c [0xE0, 0, 0, 0, 0, 0, 1, 0],
      Ex.c [0xDE, 2, 0, 0], Ex.c [0xDD, 1], (Ex.env, .trigger 2)]
      (fun s => (s.tx.filter (·.kind == .dto)).map fun f => f.bytes.drop 4) = some [[0]] := by decide +kernel

/-- C36 is false: there are 3 events; SET_DAQ_LIST_MODE for event 3 is not refused but stores outside
the table of assignments. -/
theorem C36_fails_event :
    Ex.faultOf Ex.sim [Ex.c [0xFF], Ex.c [0xD6], Ex.c [0xD5, 0, 1, 0], Ex.c [0xE0, 0, 0, 0, 3, 0, 1, 0]] = some .eventOob := by
  decide +kernel

/-- C36 is false: there is one list; SET_DAQ_LIST_MODE for list 7 is accepted. -/
theorem C36_fails_list :
    Ex.obs Ex.sim [Ex.c [0xFF], Ex.c [0xD6], Ex.c [0xD5, 0, 1, 0], Ex.c [0xE0, 0, 7, 0, 1, 0, 1, 0]]
      (fun s => ((s.tx.map fun f => f.bytes.drop 4).getLast?, s.daq.listForEvent 1)) = some (some [0xFF], 7) := by decide +kernel

/-- Lists 1 and 0 are assigned to events 0 and 1. -/
example : Ex.obs Ex.sim [Ex.c [0xFF], Ex.c [0xD6], Ex.c [0xD5, 0, 2, 0], Ex.c [0xE0, 0, 1, 0, 0, 0, 1, 0], Ex.c [0xE0, 0, 0, 0, 1, 0, 1, 0]]
    (fun s => (s.daq.listForEvent 0, s.daq.listForEvent 1, s.daq.listForEvent 2)) = some (1, 0, 0) := by decide +kernel

end Xcp
