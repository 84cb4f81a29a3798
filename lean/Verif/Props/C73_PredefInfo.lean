import Verif.Props.C72_PredefSample
/-
C73: information on predefined lists.

GET_DAQ_PROCESSOR_INFO reports the number of lists, GET_DAQ_LIST_INFO the number of ODTs of a list.  False: the number
of entries is always reported as 0 (`C73_fails_entries`), the event is reported as fixed but can be changed
(`C73_fails_fixed`), and a list number out of range is answered by an error, but the commands then go on and read or
write outside the tables (`C73_info_fails`, `C73_select_fails`, `C73_mode_fails`), or answer a second time (`C73_fails_twice`).
-/
set_option autoImplicit false
namespace Xcp
open Spec

/-- C73, GET_DAQ_PROCESSOR_INFO: MAX_DAQ and MIN_DAQ are the number of lists, MAX_EVENT_CHANNEL that of events; of the
properties bit 0 (dynamic configuration) is clear and bit 4 tells whether there are timestamps.  Nothing changes. -/
theorem C73_processor {cfg : PCfg} (hc : Consistent cfg) (hs : ShortOk cfg.base) (env : Env) {s : PSt} (hd : DaqReady cfg.base s.st)
    (hsup : cfg.base.supports .getDaqProcessorInfo = true) {p : Pdu} (hp : code p = some 0xDA) :
    ∃ s' props maxDaq maxEv, pStep cfg env s (.cmd p) = .ok s' ∧
      Answers cfg.base s.st s'.st ([0xFF, props] ++ maxDaq ++ maxEv ++ [UInt8.ofNat cfg.lists.length, 0]) ∧
      maxDaq.length = 2 ∧ leVal maxDaq = cfg.lists.length ∧ maxEv.length = 2 ∧ leVal maxEv = cfg.base.numEvents % 65536 ∧
      props.toNat.testBit 0 = false ∧ props.toNat.testBit 1 = cfg.base.prescalerProp ∧ props.toNat.testBit 4 = cfg.base.timestamping ∧
      s'.modes = s.modes ∧ SameCore s.st s'.st := by
  refine ⟨⟨_, s.modes⟩, pDaqProperties cfg.base, leBytes 2 cfg.lists.length, leBytes 2 cfg.base.numEvents, ?_,
    send8_answers hs (by simp [leBytes_length]) (bumpReceived_tx cfg.base s.st), leBytes_length _ _, ?_, leBytes_length _ _, leVal_leBytes _ _,
    ?_, ?_, ?_, rfl, (bumpReceived_same cfg.base s.st).trans (send8_same ..)⟩
  · rw [hd.ready.pstep env .getDaqProcessorInfo hp hsup]
    simp only [pHandler, pGetDaqProcessorInfoRes]
    rw [pGuards hd.bump, hc.count]
    rfl
  · rw [leVal_leBytes]
    have := hc.lists
    exact Nat.mod_eq_of_lt (by omega)
  all_goals
    unfold pDaqProperties
    cases cfg.base.prescalerProp <;> cases cfg.base.timestamping <;> decide

/-- C73, partial: GET_DAQ_LIST_INFO of a predefined list: predefined, DAQ direction (and event fixed), and its number of
ODTs.  MAX_ODT_ENTRIES is 0 instead of the number of entries. -/
theorem C73_info_partial {cfg : PCfg} (hc : Consistent cfg) (hs : ShortOk cfg.base) (env : Env) {s : PSt} (hd : DaqReady cfg.base s.st)
    (hsup : cfg.base.supports .getDaqListInfo = true) {p : Pdu} {l : Nat} {pl : PList} (hp : code p = some 0xD8)
    (h2 : Param cfg.base.motorola p 2 2 l) (hl : cfg.lists[l]? = some pl) :
    ∃ s', pStep cfg env s (.cmd p) = .ok s' ∧ Answers cfg.base s.st s'.st [0xFF, 7, pl.numOdts, 0, 0, 0, 0, 0] ∧
      s'.modes = s.modes ∧ SameCore s.st s'.st := by
  refine ⟨⟨_, s.modes⟩, ?_, send8_answers hs (by simp) (bumpReceived_tx cfg.base s.st), rfl,
    (bumpReceived_same cfg.base s.st).trans (send8_same ..)⟩
  have hlt := getElem?_lt hl
  have hll : l % 256 = l := by have := hc.lists; omega
  rw [hd.ready.pstep env .getDaqListInfo hp hsup]
  simp only [pHandler, pGetDaqListInfoRes, h2.word, ok_bind, hll]
  rw [pGuards hd.bump, if_neg (by rw [hc.count]; omega)]
  unfold pGetDaqListInfoBody
  rw [tableAt_ok hl]
  rfl

/-- GET_DAQ_LIST_INFO for a list that does not exist reads outside the table. -/
theorem C73_info_fails {cfg : PCfg} (hc : Consistent cfg) (env : Env) {s : PSt} (hd : DaqReady cfg.base s.st)
    (hsup : cfg.base.supports .getDaqListInfo = true) {p : Pdu} {l : Nat} (hp : code p = some 0xD8)
    (h2 : Param cfg.base.motorola p 2 2 l) (hl : cfg.lists.length ≤ l) (hl8 : l < 256) :
    pStep cfg env s (.cmd p) = .error .tableOob := by
  rw [hd.ready.pstep env .getDaqListInfo hp hsup]
  simp only [pHandler, pGetDaqListInfoRes, h2.word, ok_bind, Nat.mod_eq_of_lt hl8]
  rw [pGuards hd.bump, if_pos (by rw [hc.count]; omega)]
  unfold pGetDaqListInfoBody
  rw [tableAt_oob hl]
  rfl

/-- START_STOP_DAQ_LIST(select) for a list that does not exist writes outside the table of modes. -/
theorem C73_select_fails {cfg : PCfg} (hc : Consistent cfg) (env : Env) {s : PSt} (hd : PReady cfg s)
    (hsup : cfg.base.supports .startStopDaqList = true) {p : Pdu} {l : Nat} (hp : code p = some 0xDE) (h1 : p.buf[1]? = some 2)
    (h2 : Param cfg.base.motorola p 2 2 l) (hl : cfg.lists.length ≤ l) (hl8 : l < 256) :
    pStep cfg env s (.cmd p) = .error .tableOob := by
  rw [hd.daq.ready.pstep env .startStopDaqList hp hsup]
  simp only [pHandler, pStartStopDaqListRes, byte_eq h1, h2.word, ok_bind, Nat.mod_eq_of_lt hl8]
  rw [pGuards hd.daq.bump, if_pos (by rw [hc.count]; omega)]
  unfold pStartStopDaqListBody
  rw [if_neg (by decide), if_neg (by decide), if_pos rfl, setModeAt_oob _ (by rw [hd.modes]; exact hl)]
  rfl

/-- SET_DAQ_LIST_MODE for a list that does not exist writes outside the table of modes. -/
theorem C73_mode_fails {cfg : PCfg} (env : Env) {s : PSt} (hd : PReady cfg s)
    (hsup : cfg.base.supports .setDaqListMode = true) (hrun : s.st.daq.running = false) {p : Pdu} {b7 : UInt8} {l ev : Nat}
    (hp : code p = some 0xE0) (h1 : p.buf[1]? = some 0) (h2 : Param cfg.base.motorola p 2 2 l)
    (hl : cfg.lists.length ≤ l) (hl8 : l < 256)
    (h4 : Param cfg.base.motorola p 4 2 ev) (hev : ev < cfg.base.numEvents) (h6 : p.buf[6]? = some 1) (h7 : p.buf[7]? = some b7) :
    pStep cfg env s (.cmd p) = .error .tableOob := by
  rw [hd.daq.ready.pstep env .setDaqListMode hp hsup]
  simp only [pHandler, pSetDaqListModeRes, pDaqStopped, byte_eq h1, h2.word, h4.word, byte_eq h6, byte_eq h7, ok_bind, Nat.mod_eq_of_lt hl8]
  rw [if_neg (by rw [(bumpReceived_same cfg.base s.st).daq, hrun]; decide), pGuards hd.daq.bump, if_neg (by decide), if_neg (by decide),
    if_neg (by decide)]
  unfold addEventChannel
  rw [if_pos hev, setModeAt_oob _ (by rw [hd.modes]; exact hl)]
  rfl

/-- Answers after CONNECT to the given commands, all commands switched on. -/
def Ex.pans (h : List (List UInt8)) : Option (List (List UInt8)) :=
  Ex.pobs Ex.pre ([Ex.c [0xFF]] ++ h.map Ex.c) (fun s => (s.st.tx.map fun f => f.bytes.drop 4).drop 1)

/-- Two lists and three events; list 0 has two ODTs, list 1 one. -/
example : Ex.pans [[0xDA], [0xD8, 0, 0, 0], [0xD8, 0, 1, 0]] =
    some [[0xFF, 0, 2, 0, 3, 0, 2, 0], [0xFF, 7, 2, 0, 0, 0, 0, 0], [0xFF, 7, 1, 0, 0, 0, 0, 0]] := by decide +kernel

/-- ODT 0 of list 0 has two entries, but 0 is reported. -/
theorem C73_fails_entries : (∃ pl o, Ex.pre.lists[0]? = some pl ∧ o ∈ listOdts Ex.pre pl ∧ o.numEntries = 2) ∧
    Ex.pans [[0xD8, 0, 0, 0]] = some [[0xFF, 7, 2, 0, 0, 0, 0, 0]] := by
  refine ⟨⟨⟨2, 0⟩, ⟨2, 0⟩, by decide, by decide, rfl⟩, by decide +kernel⟩

/-- The event of list 1 is reported as fixed (property bit 1) to event 0; it is set to event 2 nevertheless. -/
theorem C73_fails_fixed : Ex.pans [[0xD8, 0, 1, 0]] = some [[0xFF, 7, 1, 0, 0, 0, 0, 0]] ∧
    Ex.pobs Ex.pre [Ex.c [0xFF], Ex.c [0xE0, 0, 1, 0, 2, 0, 1, 0]] (fun s => s.st.daq.listForEvent 2) = some 1 := by
  refine ⟨?_, ?_⟩ <;> decide +kernel

/-- START_STOP_DAQ_LIST(start) for list 7, which does not exist, is answered twice: error and acknowledgement. -/
theorem C73_fails_twice : Ex.pans [[0xDE, 1, 7, 0]] = some [[0xFE, 0x22], [0xFF, 0, 0, 0, 0, 0, 0, 0]] := by decide +kernel

end Xcp
