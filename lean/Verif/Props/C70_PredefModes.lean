import Verif.Proofs.Predef
import Verif.Props.C64_Selection
import Verif.Props.C37_Modes
/-
C70: with predefined lists each list has its own mode.

SET_DAQ_LIST_MODE and START_STOP_DAQ_LIST(select) change the named list only, START_STOP_SYNCH switches exactly
the lists that are selected.  What fails (as with dynamic lists): START_STOP_DAQ_LIST neither starts nor
stops (`C70_list_fails`), "stop all" leaves lists that are not selected started (`C70_fails_stop_all`), and the
modes do not decide what is sampled (`C70_fails_sampled`).
-/
set_option autoImplicit false
namespace Xcp
open Spec

/-- The modes differ in list `l` only, which goes from `m` to `m'`. -/
def Spec.OnlyMode (l : Nat) (m m' : UInt8) (ms ms' : List UInt8) : Prop :=
  ms[l]? = some m ∧ ms'[l]? = some m' ∧ ms'.length = ms.length ∧ ∀ i, i ≠ l → ms'[i]? = ms[i]?

/-- Every list is switched: selected lists are started or stopped and no longer selected, the others
stay as they are. -/
def Spec.AllSwitched (start : Bool) (ms ms' : List UInt8) : Prop :=
  ms'.length = ms.length ∧ ∀ (i : Nat) m m', ms[i]? = some m → ms'[i]? = some m' → Switched start m m'

theorem allSwitched_map (b : Bool) (ms : List UInt8) : AllSwitched b ms (ms.map (startStopBody b)) := by
  refine ⟨by simp, fun i m m' h h' => ?_⟩
  rw [List.getElem?_map, h] at h'
  cases h'
  exact switched_body b m

theorem onlyMode_set {ms : List UInt8} {l : Nat} (f : UInt8 → UInt8) (h : l < ms.length) :
    ∃ m, OnlyMode l m (f m) ms (ms.set l (f m)) ∧ setModeAt ms l f = .ok (ms.set l (f m)) := by
  have hm : ms[l]? = some ms[l] := List.getElem?_eq_getElem h
  refine ⟨ms[l], ⟨hm, ?_, by simp, ?_⟩, setModeAt_ok f hm⟩
  · rw [List.getElem?_set_self h]
  · intro i hi
    rw [List.getElem?_set_ne (fun e => hi e.symm)]

/-- C70, START_STOP_SYNCH(start selected). -/
theorem C70_start_selected {cfg : PCfg} (hc : Consistent cfg) (hs : ShortOk cfg.base) (env : Env) {s : PSt}
    (hd : PReady cfg s) (hsup : cfg.base.supports .startStopSynch = true) {p : Pdu} (hp : code p = some 0xDD)
    (h1 : p.buf[1]? = some 1) :
    ∃ s', pStep cfg env s (.cmd p) = .ok s' ∧ Answers cfg.base s.st s'.st [0xFF] ∧ AllSwitched true s.modes s'.modes ∧
      SameCore { s.st with daq := { s.st.daq with running := true } } s'.st := by
  refine ⟨⟨send8 cfg.base { bumpReceived cfg.base s.st with daq := { s.st.daq with running := true } } [0xFF], _⟩, ?_,
    send8_answers hs (by simp) (bumpReceived_tx cfg.base s.st), allSwitched_map _ _, send8_newDaq⟩
  rw [hd.daq.ready.pstep env .startStopSynch hp hsup]
  simp only [pHandler, pStartStopSynchRes, byte_eq h1, ok_bind]
  rw [pGuards hd.daq.bump, if_pos trivial, pStartStop_ok hc hd.modes]
  simp only [ok_bind, positive, (bumpReceived_same cfg.base s.st).daq]
  rfl

/-- C70, START_STOP_SYNCH(stop all): the acquisition stops.  Of the lists only the selected ones are switched,
see `C70_fails_stop_all`. -/
theorem C70_stop_all_partial {cfg : PCfg} (hc : Consistent cfg) (hs : ShortOk cfg.base) (env : Env) {s : PSt}
    (hd : PReady cfg s) (hsup : cfg.base.supports .startStopSynch = true) {p : Pdu} (hp : code p = some 0xDD)
    (h1 : p.buf[1]? = some 0) :
    ∃ s', pStep cfg env s (.cmd p) = .ok s' ∧ Answers cfg.base s.st s'.st [0xFF] ∧ AllSwitched false s.modes s'.modes ∧
      SameCore { s.st with daq := { s.st.daq with running := false } } s'.st := by
  refine ⟨⟨send8 cfg.base { bumpReceived cfg.base s.st with daq := { s.st.daq with running := false } } [0xFF], _⟩, ?_,
    send8_answers hs (by simp) (bumpReceived_tx cfg.base s.st), allSwitched_map _ _, send8_newDaq⟩
  rw [hd.daq.ready.pstep env .startStopSynch hp hsup]
  simp only [pHandler, pStartStopSynchRes, byte_eq h1, ok_bind]
  rw [pGuards hd.daq.bump, if_neg (by decide), if_pos trivial, pStartStop_ok hc hd.modes]
  simp only [ok_bind, positive, (bumpReceived_same cfg.base s.st).daq]
  rfl

/-- C70, START_STOP_SYNCH(stop selected): nothing but the modes of the selected lists changes. -/
theorem C70_stop_selected {cfg : PCfg} (hc : Consistent cfg) (hs : ShortOk cfg.base) (env : Env) {s : PSt}
    (hd : PReady cfg s) (hsup : cfg.base.supports .startStopSynch = true) {p : Pdu} (hp : code p = some 0xDD)
    (h1 : p.buf[1]? = some 2) :
    ∃ s', pStep cfg env s (.cmd p) = .ok s' ∧ Answers cfg.base s.st s'.st [0xFF] ∧ AllSwitched false s.modes s'.modes ∧
      SameCore s.st s'.st := by
  refine ⟨⟨send8 cfg.base (bumpReceived cfg.base s.st) [0xFF], _⟩, ?_,
    send8_answers hs (by simp) (bumpReceived_tx cfg.base s.st), allSwitched_map _ _,
    (bumpReceived_same cfg.base s.st).trans (send8_same ..)⟩
  rw [hd.daq.ready.pstep env .startStopSynch hp hsup]
  simp only [pHandler, pStartStopSynchRes, byte_eq h1, ok_bind]
  rw [pGuards hd.daq.bump, if_neg (by decide), if_neg (by decide), if_pos trivial, pStartStop_ok hc hd.modes]
  rfl

/-- C70: other modes of START_STOP_SYNCH are refused. -/
theorem C70_synch_refused {cfg : PCfg} (hs : ShortOk cfg.base) (env : Env) {s : PSt}
    (hd : PReady cfg s) (hsup : cfg.base.supports .startStopSynch = true) {p : Pdu} (hp : code p = some 0xDD) {m : UInt8}
    (h1 : p.buf[1]? = some m) (hm : 2 < m) :
    ∃ s', pStep cfg env s (.cmd p) = .ok s' ∧ Refused cfg.base s.st s'.st 0x22 ∧ s'.modes = s.modes := by
  refine ⟨⟨errorResp cfg.base (bumpReceived cfg.base s.st) 0x22, s.modes⟩, ?_, Refused.of_bump (refused_send8 hs _ _), rfl⟩
  rw [hd.daq.ready.pstep env .startStopSynch hp hsup]
  simp only [pHandler, pStartStopSynchRes, byte_eq h1, ok_bind]
  rw [pGuards hd.daq.bump, if_neg, if_neg, if_neg]
  · rfl
  all_goals rintro rfl; exact absurd hm (by decide)

/-- C70, START_STOP_DAQ_LIST(select) of a predefined list: this list is selected, the answer is its first PID. -/
theorem C70_select {cfg : PCfg} (hc : Consistent cfg) (hs : ShortOk cfg.base) (env : Env) {s : PSt}
    (hd : PReady cfg s) (hsup : cfg.base.supports .startStopDaqList = true) {p : Pdu} {l : Nat}
    (hp : code p = some 0xDE) (h1 : p.buf[1]? = some 2) (h2 : Param cfg.base.motorola p 2 2 l) (hl : l < cfg.lists.length) :
    ∃ s' m m', pStep cfg env s (.cmd p) = .ok s' ∧
      Answers cfg.base s.st s'.st [0xFF, UInt8.ofNat (firstPidOf cfg l), 0, 0, 0, 0, 0, 0] ∧
      OnlyMode l m m' s.modes s'.modes ∧ (∀ i < 8, m'.toNat.testBit i = (i == 6 || m.toNat.testBit i)) ∧
      SameCore s.st s'.st := by
  obtain ⟨m, ho, hm⟩ := onlyMode_set (ms := s.modes) (l := l) (· ||| MODE_SELECTED) (by rw [hd.modes]; exact hl)
  refine ⟨⟨send8 cfg.base (bumpReceived cfg.base s.st) [0xFF, UInt8.ofNat (firstPidOf cfg l), 0, 0, 0, 0, 0, 0], s.modes.set l (m ||| MODE_SELECTED)⟩,
    m, m ||| MODE_SELECTED, ?_, send8_answers hs (by simp) (bumpReceived_tx cfg.base s.st), ho, ?_,
    (bumpReceived_same cfg.base s.st).trans (send8_same ..)⟩
  · have hll : l % 256 = l := by have := hc.lists; omega
    rw [hd.daq.ready.pstep env .startStopDaqList hp hsup]
    simp only [pHandler, pStartStopDaqListRes, byte_eq h1, h2.word, ok_bind, hll]
    rw [pGuards hd.daq.bump, if_neg (by rw [hc.count]; omega)]
    unfold pStartStopDaqListBody pStartStopDaqListEnd
    rw [if_neg (by decide), if_neg (by decide), if_pos rfl]
    simp only [hm, ok_bind, pFirstPid hc hl, pure_eq_ok]
    rw [show UInt8.ofNat (firstPidOf cfg l % 256) = UInt8.ofNat (firstPidOf cfg l) by
      apply UInt8.toNat_inj.mp; simp]
  · exact forall_u8 (P := fun m => ∀ i < 8, (m ||| 0x40).toNat.testBit i = (i == 6 || m.toNat.testBit i)) (by decide +kernel) m

/-- START_STOP_DAQ_LIST(start) and (stop) are acknowledged and do nothing. -/
theorem C70_list_fails {cfg : PCfg} (hc : Consistent cfg) (hs : ShortOk cfg.base) (env : Env) {s : PSt}
    (hd : PReady cfg s) (hsup : cfg.base.supports .startStopDaqList = true) {p : Pdu} {l : Nat} {m : UInt8}
    (hp : code p = some 0xDE) (h1 : p.buf[1]? = some m) (hm : m = 0 ∨ m = 1) (h2 : Param cfg.base.motorola p 2 2 l)
    (hl : l < cfg.lists.length) :
    ∃ s', pStep cfg env s (.cmd p) = .ok s' ∧
      Answers cfg.base s.st s'.st [0xFF, UInt8.ofNat (firstPidOf cfg l), 0, 0, 0, 0, 0, 0] ∧
      s'.modes = s.modes ∧ SameCore s.st s'.st := by
  refine ⟨⟨send8 cfg.base (bumpReceived cfg.base s.st) [0xFF, UInt8.ofNat (firstPidOf cfg l), 0, 0, 0, 0, 0, 0], s.modes⟩,
    ?_, send8_answers hs (by simp) (bumpReceived_tx cfg.base s.st), rfl, (bumpReceived_same cfg.base s.st).trans (send8_same ..)⟩
  have hll : l % 256 = l := by have := hc.lists; omega
  have hz : UInt8.ofNat (firstPidOf cfg l % 256) = UInt8.ofNat (firstPidOf cfg l) := by apply UInt8.toNat_inj.mp; simp
  rw [hd.daq.ready.pstep env .startStopDaqList hp hsup]
  simp only [pHandler, pStartStopDaqListRes, byte_eq h1, h2.word, ok_bind, hll]
  rw [pGuards hd.daq.bump, if_neg (by rw [hc.count]; omega)]
  unfold pStartStopDaqListBody pStartStopDaqListEnd
  rcases hm with rfl | rfl
  · rw [if_pos rfl]; simp only [ok_bind, pFirstPid hc hl, pure_eq_ok, hz]
  · rw [if_neg (by decide), if_pos rfl]; simp only [ok_bind, pFirstPid hc hl, pure_eq_ok, hz]

/-- C70, SET_DAQ_LIST_MODE of a predefined list on an existing event: the timestamp, PID-off, selected and started
flags of this list become those of the command, and the event is assigned to the list.  No other list and no other
event is touched. -/
theorem C70_mode {cfg : PCfg} (hc : Consistent cfg) (hs : ShortOk cfg.base) (env : Env) {s : PSt} (hd : PReady cfg s)
    (hsup : cfg.base.supports .setDaqListMode = true) (hrun : s.st.daq.running = false) {p : Pdu} {m b6 b7 : UInt8} {l ev : Nat}
    (hp : code p = some 0xE0) (h1 : p.buf[1]? = some m) (hm : m &&& 3 = 0) (h2 : Param cfg.base.motorola p 2 2 l)
    (hl : l < cfg.lists.length)
    (h4 : Param cfg.base.motorola p 4 2 ev) (hev : ev < cfg.base.numEvents) (h6 : p.buf[6]? = some b6) (hb6 : b6.toNat ≤ 1)
    (h7 : p.buf[7]? = some b7) :
    ∃ s' old new lfe, pStep cfg env s (.cmd p) = .ok s' ∧ Answers cfg.base s.st s'.st [0xFF] ∧
      OnlyMode l old new s.modes s'.modes ∧ (∀ f ∈ [(0x10 : UInt8), 0x20, 0x40, 0x80], new &&& f = m &&& f) ∧
      lfe ev = l ∧ (∀ e, e ≠ ev → lfe e = s.st.daq.listForEvent e) ∧
      SameCore { s.st with daq := { s.st.daq with listForEvent := lfe } } s'.st := by
  obtain ⟨old, ho, hset⟩ := onlyMode_set (ms := s.modes) (l := l) (fun x => newMode x m) (by rw [hd.modes]; exact hl)
  have hll : l % 256 = l := by have := hc.lists; omega
  have hm1 : ¬ m &&& MODE_DIRECTION = MODE_DIRECTION := by
    revert hm; exact (forall_u8 (P := fun m => m &&& 3 = 0 → ¬ m &&& MODE_DIRECTION = MODE_DIRECTION) (by decide +kernel)) m
  have hm2 : ¬ m &&& MODE_ALTERNATING = MODE_ALTERNATING := by
    revert hm; exact (forall_u8 (P := fun m => m &&& 3 = 0 → ¬ m &&& MODE_ALTERNATING = MODE_ALTERNATING) (by decide +kernel)) m
  have hp6 : ¬ 1 < b6 := by
    intro h
    have : (1 : UInt8).toNat < b6.toNat := UInt8.lt_iff_toNat_lt.mp h
    simp at this
    omega
  refine ⟨⟨send8 cfg.base { bumpReceived cfg.base s.st with daq := { s.st.daq with
      listForEvent := fun j => if j = ev then l else s.st.daq.listForEvent j } } [0xFF], s.modes.set l (newMode old m)⟩, old, newMode old m,
    fun j => if j = ev then l else s.st.daq.listForEvent j, ?_,
    send8_answers hs (by simp) (bumpReceived_tx cfg.base s.st), ho, ?_, if_pos rfl, fun e he => if_neg he, send8_newDaq⟩
  · rw [hd.daq.ready.pstep env .setDaqListMode hp hsup]
    simp only [pHandler, pSetDaqListModeRes, pDaqStopped, byte_eq h1, h2.word, h4.word, byte_eq h6, byte_eq h7, ok_bind, hll]
    rw [if_neg (by rw [(bumpReceived_same cfg.base s.st).daq, hrun]; decide), pGuards hd.daq.bump, if_neg hm1, if_neg hm2, if_neg hp6]
    unfold addEventChannel
    rw [if_pos hev, hset]
    simp only [ok_bind, positive, (bumpReceived_same cfg.base s.st).daq]
    rfl
  · rw [newMode_bits]
    intro f hf
    have h0 : 0x0C &&& f = 0 ∧ 0xF3 &&& f = f := by
      revert f; decide
    rw [UInt8.and_comm, u8_and_or, UInt8.and_comm f, UInt8.and_comm f, UInt8.and_assoc, UInt8.and_assoc, h0.1, h0.2]
    simp

theorem word_exists (mo : Bool) {p : Pdu} {i : Nat} (h : i + 1 < p.buf.length) : ∃ w, p.word mo i = .ok w := by
  have e : ∀ j, j < p.buf.length → ∃ b, p.byte j = .ok b := fun j hj => ⟨p.buf[j], byte_eq (List.getElem?_eq_getElem hj)⟩
  obtain ⟨a, ha⟩ := e i (by omega)
  obtain ⟨b, hb⟩ := e (i + 1) h
  exact ⟨_, by simp only [Pdu.word, ha, hb, ok_bind]; rfl⟩

/-- C70: SET_DAQ_LIST_MODE with the stimulation or the alternating bit is refused as wrong syntax (CMD_SYNTAX 0x21), otherwise
with a prescaler greater than 1 as out of range. -/
theorem C70_mode_refused {cfg : PCfg} (hs : ShortOk cfg.base) (env : Env) {s : PSt} (hd : PReady cfg s)
    (hsup : cfg.base.supports .setDaqListMode = true) (hrun : s.st.daq.running = false) {p : Pdu} {m b6 : UInt8}
    (hp : code p = some 0xE0) (h1 : p.buf[1]? = some m) (h6 : p.buf[6]? = some b6) (hlen : 8 ≤ p.buf.length)
    (hm : m &&& 3 ≠ 0 ∨ 1 < b6.toNat) :
    ∃ s', pStep cfg env s (.cmd p) = .ok s' ∧ Refused cfg.base s.st s'.st (if m &&& 3 = 0 then 0x22 else 0x21) ∧ s'.modes = s.modes := by
  refine ⟨⟨errorResp cfg.base (bumpReceived cfg.base s.st) (if m &&& 3 = 0 then 0x22 else 0x21), s.modes⟩, ?_,
    Refused.of_bump (refused_send8 hs _ _), rfl⟩
  obtain ⟨l, h2⟩ := word_exists cfg.base.motorola (p := p) (i := 2) (by omega)
  obtain ⟨ev, h4⟩ := word_exists cfg.base.motorola (p := p) (i := 4) (by omega)
  obtain ⟨b7, h7⟩ : ∃ b, p.buf[7]? = some b := ⟨p.buf[7], List.getElem?_eq_getElem _⟩
  rw [hd.daq.ready.pstep env .setDaqListMode hp hsup]
  simp only [pHandler, pSetDaqListModeRes, pDaqStopped, byte_eq h1, h2, h4, byte_eq h6, byte_eq h7, ok_bind]
  rw [if_neg (by rw [(bumpReceived_same cfg.base s.st).daq, hrun]; decide), pGuards hd.daq.bump]
  have hbits : (m &&& 3 = 0) ↔ (¬ m &&& MODE_DIRECTION = MODE_DIRECTION ∧ ¬ m &&& MODE_ALTERNATING = MODE_ALTERNATING) :=
    forall_u8 (P := fun m => (m &&& 3 = 0) ↔ (¬ m &&& MODE_DIRECTION = MODE_DIRECTION ∧ ¬ m &&& MODE_ALTERNATING = MODE_ALTERNATING))
      (by decide +kernel) m
  by_cases hd : m &&& MODE_DIRECTION = MODE_DIRECTION
  · rw [if_pos hd, if_neg (fun h => (hbits.mp h).1 hd)]; rfl
  by_cases ha : m &&& MODE_ALTERNATING = MODE_ALTERNATING
  · rw [if_neg hd, if_pos ha, if_neg (fun h => (hbits.mp h).2 ha)]; rfl
  have h0 := hbits.mpr ⟨hd, ha⟩
  have h6' : 1 < b6 := by
    rcases hm with h | h
    · exact absurd h0 h
    · exact UInt8.lt_iff_toNat_lt.mpr (by simpa using h)
  rw [if_neg hd, if_neg ha, if_pos h6', if_pos h0]; rfl

/-- C70: other modes of START_STOP_DAQ_LIST for a predefined list are refused. -/
theorem C70_list_refused {cfg : PCfg} (hc : Consistent cfg) (hs : ShortOk cfg.base) (env : Env) {s : PSt}
    (hd : PReady cfg s) (hsup : cfg.base.supports .startStopDaqList = true) {p : Pdu} {l : Nat} {m : UInt8}
    (hp : code p = some 0xDE) (h1 : p.buf[1]? = some m) (hm : 2 < m) (h2 : Param cfg.base.motorola p 2 2 l)
    (hl : l < cfg.lists.length) :
    ∃ s', pStep cfg env s (.cmd p) = .ok s' ∧ Refused cfg.base s.st s'.st 0x22 ∧ s'.modes = s.modes := by
  refine ⟨⟨errorResp cfg.base (bumpReceived cfg.base s.st) 0x22, s.modes⟩, ?_, Refused.of_bump (refused_send8 hs _ _), rfl⟩
  have hll : l % 256 = l := by have := hc.lists; omega
  rw [hd.daq.ready.pstep env .startStopDaqList hp hsup]
  simp only [pHandler, pStartStopDaqListRes, byte_eq h1, h2.word, ok_bind, hll]
  rw [pGuards hd.daq.bump, if_neg (by rw [hc.count]; omega)]
  unfold pStartStopDaqListBody
  rw [if_neg, if_neg, if_neg]
  · rfl
  all_goals rintro rfl; exact absurd hm (by decide)

/-- Two predefined lists: list 0 with two ODTs, list 1 with one. -/
def Ex.pre : PCfg where
  base := Ex.sim
  lists := [⟨2, 0⟩, ⟨1, 2⟩]
  odts := [⟨2, 0⟩, ⟨1, 2⟩, ⟨1, 3⟩]
  entries := [⟨0x1000, 1⟩, ⟨0x1004, 2⟩, ⟨0x1008, 4⟩, ⟨0x100C, 1⟩]

/-- What `f` sees at the end of a history. -/
def Ex.pobs {α : Type} (cfg : PCfg) (h : List (Env × Op)) (f : PSt → α) : Option α :=
  (pRun cfg (PSt.init cfg Ex.mem) h).toOption.map f

/-- The fault a history ends with. -/
def Ex.pfault (cfg : PCfg) (h : List (Env × Op)) : Option Fault :=
  match pRun cfg (PSt.init cfg Ex.mem) h with
  | .ok _ => none
  | .error e => some e

/-- Modes, running state and packets sent at event 0 after CONNECT and the given commands. -/
def Ex.psel (h : List (List UInt8)) : Option (List UInt8 × Bool × Nat) :=
  Ex.pobs Ex.pre ([Ex.c [0xFF]] ++ h.map Ex.c ++ [(Ex.env, .trigger 0)])
    (fun s => (s.modes, s.st.daq.running, (s.st.tx.filter (·.kind == .dto)).length))

example : Consistent Ex.pre where
  pos := by decide
  lists := by decide
  odts := by decide
  entries := by decide
  inOdts := by decide
  inEntries := by decide

/-- Select list 1, start; select list 0, start; select list 1, stop the selected one. -/
example : Ex.psel [[0xDE, 2, 1, 0]] = some ([0, 0x40], false, 0) ∧
    Ex.psel [[0xDE, 2, 1, 0], [0xDD, 1]] = some ([0, 0x80], true, 2) ∧
    Ex.psel [[0xDE, 2, 1, 0], [0xDD, 1], [0xDE, 2, 0, 0], [0xDD, 1]] = some ([0x80, 0x80], true, 2) ∧
    Ex.psel [[0xDE, 2, 1, 0], [0xDD, 1], [0xDE, 2, 0, 0], [0xDD, 1], [0xDE, 2, 1, 0], [0xDD, 2]] = some ([0x80, 0], true, 2) := by
  refine ⟨?_, ?_, ?_, ?_⟩ <;> decide +kernel

/-- The mode of list 1 is set, that of list 0 stays. -/
example : Ex.psel [[0xE0, 0x10, 1, 0, 0, 0, 1, 0]] = some ([0, 0x10], false, 0) ∧
    Ex.psel [[0xE0, 0x10, 1, 0, 0, 0, 1, 0], [0xE0, 0x20, 0, 0, 1, 0, 1, 0]] = some ([0x20, 0x10], false, 0) := by
  refine ⟨?_, ?_⟩ <;> decide +kernel

/-- Stimulation, alternating, prescaler 2, and mode 3 of START_STOP_DAQ_LIST are refused. -/
example : Ex.pobs Ex.pre ([[0xFF], [0xE0, 2, 1, 0, 0, 0, 1, 0], [0xE0, 1, 1, 0, 0, 0, 1, 0], [0xE0, 0x10, 1, 0, 0, 0, 2, 0], [0xDE, 3, 1, 0]].map Ex.c)
    (fun s => ((s.st.tx.map fun f => f.bytes.drop 4).drop 1, s.modes)) =
    some ([[0xFE, 0x21], [0xFE, 0x21], [0xFE, 0x22], [0xFE, 0x22]], [0, 0]) := by decide +kernel

/-- "Stop all" leaves list 1 started. -/
theorem C70_fails_stop_all : Ex.psel [[0xDE, 2, 1, 0], [0xDD, 1], [0xDD, 0]] = some ([0, 0x80], false, 0) := by decide +kernel

/-- List 0 was never selected nor started, yet event 0 sends its two packets; and nothing was assigned to event 0. -/
theorem C70_fails_sampled : Ex.psel [[0xDE, 2, 1, 0], [0xDD, 1]] = some ([0, 0x80], true, 2) := by decide +kernel

end Xcp
