import Verif.Props.C32_FirstPid
/-
C64: lists are selected, started and stopped by START_STOP_DAQ_LIST and START_STOP_SYNCH.

There is one mode byte for all lists (C37), so "the list is selected" is "the mode byte has bit 6".
Not done by the code: START_STOP_DAQ_LIST neither starts nor stops (`C64_list_fails`), "stop all" leaves
the started flag of lists that are not selected (`C64_fails_stop_all`), and stopping the selected
lists never ends the acquisition (`C64_fails_stop_selected`).
-/
set_option autoImplicit false
namespace Xcp
open Spec

/-- The mode after starting or stopping what is selected: bit 6 selected, bit 7 started. -/
def Spec.Switched (start : Bool) (m m' : UInt8) : Prop :=
  ∀ i < 8, m'.toNat.testBit i =
    if m.toNat.testBit 6 then (if i = 6 then false else if i = 7 then start else m.toNat.testBit i) else m.toNat.testBit i

instance (b : Bool) (m m' : UInt8) : Decidable (Switched b m m') := by unfold Switched; infer_instance

theorem switched_body (b : Bool) (m : UInt8) : Switched b m (startStopBody b m) := by
  cases b
  · exact forall_u8 (P := fun m => Switched false m (startStopBody false m)) (by decide +kernel) m
  · exact forall_u8 (P := fun m => Switched true m (startStopBody true m)) (by decide +kernel) m

theorem body_idem (b : Bool) (m : UInt8) : startStopBody b (startStopBody b m) = startStopBody b m := by
  cases b
  · exact forall_u8 (P := fun m => startStopBody false (startStopBody false m) = startStopBody false m) (by decide +kernel) m
  · exact forall_u8 (P := fun m => startStopBody true (startStopBody true m) = startStopBody true m) (by decide +kernel) m

theorem startStop_mode {b : Bool} {d : Daq} (h : 0 < d.listCount) :
    startStopLists b d = { d with mode := startStopBody b d.mode } := by
  unfold startStopLists
  have : ∀ n, Nat.repeat (startStopBody b) (n + 1) d.mode = startStopBody b d.mode := by
    intro n
    induction n with
    | zero => rfl
    | succ n ih => rw [Nat.repeat, ih, body_idem]
  obtain ⟨n, hn⟩ : ∃ n, d.listCount = n + 1 := ⟨d.listCount - 1, by omega⟩
  rw [hn, this n]

theorem send8_newDaq {cfg : Cfg} {s : St} {d : Daq} {bs : List UInt8} :
    SameCore { s with daq := d } (send8 cfg { bumpReceived cfg s with daq := d } bs) := by
  have h := bumpReceived_same cfg s
  have h' := send8_same cfg { bumpReceived cfg s with daq := d } bs
  exact ⟨h'.connected.trans h.connected, h'.busy.trans h.busy, h'.daq, h'.pgm.trans h.pgm, h'.resProt.trans h.resProt,
    h'.seedReq.trans h.seedReq, h'.mta.trans h.mta, h'.slaveBlk.trans h.slaveBlk, h'.masterBlk.trans h.masterBlk,
    h'.ck.trans h.ck, h'.mem.trans h.mem⟩

/-- C64, START_STOP_SYNCH(start selected), at least one list allocated: what is selected is started and
no longer selected, the acquisition runs; nothing else changes. -/
theorem C64_start_selected {cfg : Cfg} (hs : ShortOk cfg) (env : Env) {s : St} (hd : DaqReady cfg s)
    (hsup : cfg.supports .startStopSynch = true) (hl : 0 < s.daq.listCount) {p : Pdu} (hp : code p = some 0xDD)
    (h1 : p.buf[1]? = some 1) :
    ∃ s' m, step cfg env s (.cmd p) = .ok s' ∧ Answers cfg s s' [0xFF] ∧ Switched true s.daq.mode m ∧
      SameCore { s with daq := { s.daq with mode := m, running := true } } s' := by
  refine ⟨send8 cfg { bumpReceived cfg s with daq := { s.daq with mode := startStopBody true s.daq.mode, running := true } } [0xFF],
    startStopBody true s.daq.mode, ?_, send8_answers hs (by simp) (bumpReceived_tx cfg s), switched_body _ _, send8_newDaq⟩
  rw [hd.ready.stepc env .startStopSynch hp hsup]
  have hb := hd.bump
  simp only [handler, startStopSynchRes, assertPgmIdle, assertUnlocked, byte_eq h1, ok_bind]
  rw [if_neg hb.pgm, if_neg hb.notProtected, if_pos trivial, startStop_mode (by rw [(bumpReceived_same cfg s).daq]; exact hl)]
  unfold positive
  rw [(bumpReceived_same cfg s).daq]

/-- C64, START_STOP_SYNCH(stop all): the acquisition stops; nothing but the mode byte and the running state
changes.  Of the mode only what is selected is switched: see `C64_fails_stop_all`. -/
theorem C64_stop_all_partial {cfg : Cfg} (hs : ShortOk cfg) (env : Env) {s : St} (hd : DaqReady cfg s)
    (hsup : cfg.supports .startStopSynch = true) (hl : 0 < s.daq.listCount) {p : Pdu} (hp : code p = some 0xDD)
    (h1 : p.buf[1]? = some 0) :
    ∃ s' m, step cfg env s (.cmd p) = .ok s' ∧ Answers cfg s s' [0xFF] ∧ Switched false s.daq.mode m ∧
      SameCore { s with daq := { s.daq with mode := m, running := false } } s' := by
  refine ⟨send8 cfg { bumpReceived cfg s with daq := { s.daq with mode := startStopBody false s.daq.mode, running := false } } [0xFF],
    startStopBody false s.daq.mode, ?_, send8_answers hs (by simp) (bumpReceived_tx cfg s), switched_body _ _, send8_newDaq⟩
  rw [hd.ready.stepc env .startStopSynch hp hsup]
  have hb := hd.bump
  simp only [handler, startStopSynchRes, assertPgmIdle, assertUnlocked, byte_eq h1, ok_bind]
  rw [if_neg hb.pgm, if_neg hb.notProtected, if_neg (by decide), if_pos trivial,
    startStop_mode (by rw [(bumpReceived_same cfg s).daq]; exact hl)]
  unfold positive
  rw [(bumpReceived_same cfg s).daq]

/-- C64, START_STOP_SYNCH(stop selected): what is selected is stopped and no longer selected.  The acquisition
goes on, even if nothing is left of it: see `C64_fails_stop_selected`. -/
theorem C64_stop_selected_partial {cfg : Cfg} (hs : ShortOk cfg) (env : Env) {s : St} (hd : DaqReady cfg s)
    (hsup : cfg.supports .startStopSynch = true) (hl : 0 < s.daq.listCount) {p : Pdu} (hp : code p = some 0xDD)
    (h1 : p.buf[1]? = some 2) :
    ∃ s' m, step cfg env s (.cmd p) = .ok s' ∧ Answers cfg s s' [0xFF] ∧ Switched false s.daq.mode m ∧
      SameCore { s with daq := { s.daq with mode := m } } s' := by
  refine ⟨send8 cfg { bumpReceived cfg s with daq := { s.daq with mode := startStopBody false s.daq.mode } } [0xFF],
    startStopBody false s.daq.mode, ?_, send8_answers hs (by simp) (bumpReceived_tx cfg s), switched_body _ _, send8_newDaq⟩
  rw [hd.ready.stepc env .startStopSynch hp hsup]
  have hb := hd.bump
  simp only [handler, startStopSynchRes, assertPgmIdle, assertUnlocked, byte_eq h1, ok_bind]
  rw [if_neg hb.pgm, if_neg hb.notProtected, if_neg (by decide), if_neg (by decide), if_pos trivial,
    startStop_mode (by rw [(bumpReceived_same cfg s).daq]; exact hl)]
  unfold positive
  rw [(bumpReceived_same cfg s).daq]

/-- C64: other modes of START_STOP_SYNCH are refused. -/
theorem C64_synch_refused {cfg : Cfg} (hs : ShortOk cfg) (env : Env) {s : St} (hd : DaqReady cfg s)
    (hsup : cfg.supports .startStopSynch = true) {p : Pdu} (hp : code p = some 0xDD) {m : UInt8}
    (h1 : p.buf[1]? = some m) (hm : 2 < m) :
    ∃ s', step cfg env s (.cmd p) = .ok s' ∧ Refused cfg s s' 0x22 := by
  refine ⟨_, ?_, Refused.of_bump (refused_send8 hs _ _)⟩
  rw [hd.ready.stepc env .startStopSynch hp hsup]
  have hb := hd.bump
  simp only [handler, startStopSynchRes, assertPgmIdle, assertUnlocked, byte_eq h1, ok_bind]
  rw [if_neg hb.pgm, if_neg hb.notProtected, if_neg, if_neg, if_neg]
  · rfl
  all_goals rintro rfl; exact absurd hm (by decide)

/-- C64, START_STOP_DAQ_LIST(select) of an existing list: selected afterwards; nothing else changes. -/
theorem C64_select {cfg : Cfg} (hc : cfg.Ok) (hs : ShortOk cfg) (env : Env) {s : St} (hd : DaqReady cfg s)
    (hsup : cfg.supports .startStopDaqList = true) {c : Conf} (hr : Rep cfg s.daq c) {p : Pdu} {l : Nat}
    (hp : code p = some 0xDE) (h1 : p.buf[1]? = some 2) (h2 : Param cfg.motorola p 2 2 l) (hl : l < c.length) :
    ∃ s' m, step cfg env s (.cmd p) = .ok s' ∧ Answers cfg s s' [0xFF, UInt8.ofNat (c.firstPid l), 0, 0, 0, 0, 0, 0] ∧
      (∀ i < 8, m.toNat.testBit i = (i == 6 || s.daq.mode.toNat.testBit i)) ∧
      SameCore { s with daq := { s.daq with mode := m } } s' := by
  refine ⟨send8 cfg { bumpReceived cfg s with daq := { s.daq with mode := s.daq.mode ||| 0x40 } }
    [0xFF, UInt8.ofNat (c.firstPid l), 0, 0, 0, 0, 0, 0], s.daq.mode ||| 0x40, ?_, send8_answers hs (by simp) (bumpReceived_tx cfg s), ?_, send8_newDaq⟩
  · have hll : l % 256 = l := by
      have := hr.fits
      have := hc.ent_lt
      unfold Conf.size at *
      apply Nat.mod_eq_of_lt; omega
    rw [hd.ready.stepc env .startStopDaqList hp hsup]
    have hb := hd.bump
    have hdaq := (bumpReceived_same cfg s).daq
    simp only [handler, startStopDaqListRes, assertPgmIdle, assertUnlocked, byte_eq h1, h2.word, ok_bind, hll]
    rw [if_neg hb.pgm, if_neg hb.notProtected, if_neg (by rw [hdaq, hr.lists]; omega)]
    unfold startStopDaqListBody startStopDaqListEnd
    rw [if_neg (by decide), if_neg (by decide), if_pos rfl]
    have hr' : Rep cfg { s.daq with mode := s.daq.mode ||| MODE_SELECTED } c := rep_pool (d := s.daq) ⟨rfl, rfl, rfl, rfl, rfl⟩ hr
    simp only [hdaq]
    rw [hr'.firstPid hc hl]
    rfl
  · exact forall_u8 (P := fun m => ∀ i < 8, (m ||| 0x40).toNat.testBit i = (i == 6 || m.toNat.testBit i)) (by decide +kernel) s.daq.mode

/-- START_STOP_DAQ_LIST(start) and (stop) are acknowledged and do nothing. -/
theorem C64_list_fails {cfg : Cfg} (hc : cfg.Ok) (hs : ShortOk cfg) (env : Env) {s : St} (hd : DaqReady cfg s)
    (hsup : cfg.supports .startStopDaqList = true) {c : Conf} (hr : Rep cfg s.daq c) {p : Pdu} {l : Nat} {m : UInt8}
    (hp : code p = some 0xDE) (h1 : p.buf[1]? = some m) (hm : m = 0 ∨ m = 1) (h2 : Param cfg.motorola p 2 2 l)
    (hl : l < c.length) :
    ∃ s', step cfg env s (.cmd p) = .ok s' ∧ Answers cfg s s' [0xFF, UInt8.ofNat (c.firstPid l), 0, 0, 0, 0, 0, 0] ∧
      SameCore s s' := by
  refine ⟨_, ?_, send8_answers hs (by simp) (bumpReceived_tx cfg s), (bumpReceived_same cfg s).trans (send8_same ..)⟩
  have hll : l % 256 = l := by
    have := hr.fits
    have := hc.ent_lt
    unfold Conf.size at *
    apply Nat.mod_eq_of_lt; omega
  rw [hd.ready.stepc env .startStopDaqList hp hsup]
  have hb := hd.bump
  have hdaq := (bumpReceived_same cfg s).daq
  simp only [handler, startStopDaqListRes, assertPgmIdle, assertUnlocked, byte_eq h1, h2.word, ok_bind, hll]
  rw [if_neg hb.pgm, if_neg hb.notProtected, if_neg (by rw [hdaq, hr.lists]; omega)]
  unfold startStopDaqListBody startStopDaqListEnd
  rcases hm with rfl | rfl
  · rw [if_pos rfl]; simp only [hdaq]; rw [hr.firstPid hc hl]; rfl
  · rw [if_neg (by decide), if_pos rfl]; simp only [hdaq]; rw [hr.firstPid hc hl]; rfl

/-- Two lists with one ODT each, event 0 assigned to list 0; then the given commands: mode byte,
running state, and how many packets event 0 sends afterwards. -/
def Ex.sel (h : List (List UInt8)) : Option (UInt8 × Bool × Nat) :=
  Ex.obs Ex.sim
    ([Ex.c [0xFF], Ex.c [0xD6], Ex.c [0xD5, 0, 2, 0], Ex.c [0xD4, 0, 0, 0, 1], Ex.c [0xD4, 0, 1, 0, 1],
      Ex.c [0xE0, 0, 0, 0, 0, 0, 1, 0]] ++ h.map Ex.c ++ [(Ex.env, .trigger 0)])
    (fun s => (s.daq.mode, s.daq.running, (s.tx.filter (·.kind == .dto)).length))

/-- Select list 0, start, stop. -/
example : Ex.sel [[0xDE, 2, 0, 0]] = some (0x40, false, 0) ∧
    Ex.sel [[0xDE, 2, 0, 0], [0xDD, 1]] = some (0x80, true, 1) ∧
    Ex.sel [[0xDE, 2, 0, 0], [0xDD, 1], [0xDE, 2, 0, 0], [0xDD, 0]] = some (0, false, 0) ∧
    Ex.sel [[0xDE, 2, 0, 0], [0xDD, 1], [0xDE, 2, 0, 0], [0xDD, 0], [0xDD, 3]] = some (0, false, 0) := by
  refine ⟨?_, ?_, ?_, ?_⟩ <;> decide +kernel

/-- "Stop all" leaves the started flag: the list was started, is not selected, and stays started. -/
theorem C64_fails_stop_all : Ex.sel [[0xDE, 2, 0, 0], [0xDD, 1], [0xDD, 0]] = some (0x80, false, 0) := by decide +kernel

/-- After the only started list was stopped it is still sampled. -/
theorem C64_fails_stop_selected :
    Ex.sel [[0xDE, 2, 0, 0], [0xDD, 1], [0xDE, 2, 0, 0], [0xDD, 2]] = some (0, true, 1) := by decide +kernel

end Xcp
