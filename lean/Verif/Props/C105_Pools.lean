import Verif.Proofs.WideOps
import Verif.Proofs.WideNarrow
import Verif.Props.C30_SetDaqPtr
import Verif.Props.C32_FirstPid
import Verif.Props.C37_Modes
import Verif.Props.C90_Validate
/-
C105: DAQ pools with 256 elements and more.

`XCP_DAQ_ENTITY_TYPE` grows with the pool.  With less than 256 elements the model of this file is the one of the
other properties (`C105_narrow`).  With 256 to 65535 elements the layout of the pool, the pointer, the entries and
the packets are as in C28 to C33, now also for list numbers above 255 and without the limit on ALLOC_DAQ; but three
places kept 8 bits: the list assigned to an event, the PIDs, and the loop of `XcpDaq_ValidateList`.  With 65536
elements or more the comparisons with `count - 1` are unsigned and a count of 0 lets every number pass, and
`firstOdt` and `firstOdtEntry` keep 16 bits.
-/
set_option autoImplicit false
namespace Xcp
open Spec

/-- C105: for pools of less than 256 elements nothing changes. -/
theorem C105_narrow {cfg : Cfg} (h : cfg.maxEnt < 256) :
    (∀ env s op, wStep cfg env s op = step cfg env s op) ∧ (∀ s ops, wRun cfg s ops = run cfg s ops) ∧
    ∀ d l, wValidateList cfg d l = validateList cfg d l := by
  have hst : ∀ env s op, wStep cfg env s op = step cfg env s op := by
    intro env s op
    cases op with
    | cmd p => exact wstep_same env fun c _ => narrow_handler h env _ p c
    | trigger ev => simp only [wStep, step, narrow_trigger h]
    | _ => rfl
  refine ⟨hst, ?_, narrow_validateList h⟩
  intro s ops
  induction ops generalizing s with
  | nil => rfl
  | cons x ops ih =>
    obtain ⟨env, op⟩ := x
    unfold wRun run
    rw [hst]
    cases step cfg env s op with
    | error e => rfl
    | ok t => exact ih t

/-- C105: with 256 to 65535 elements, the pool is exhausted exactly when the elements asked for are more than it
has; no limit on the number of lists in one request. -/
theorem C105_pool {cfg : Cfg} (hc : Wide16 cfg) (hs : ShortOk cfg) (ha : AllocOn cfg) {s s' : St} (h0 : Empty s.daq)
    {t : List (AllocReq × UInt8)} (h : WideTrace cfg s t s') :
    s'.daq.entityCount = usedAfter cfg.resetOnSeqErr t ∧ s'.daq.entityCount ≤ cfg.maxEnt ∧
    Each (fun t1 r a => a = 0x30 ↔ r.legal (phaseAfter cfg.resetOnSeqErr t1) ∧ r ≠ .free ∧
      cfg.maxEnt < usedAfter cfg.resetOnSeqErr t1 + r.size) t := by
  obtain ⟨h1, h2, h3⟩ := wtrace_used hc hs ha h0 h
  exact ⟨h1, by rw [h1]; exact h2, h3⟩

/-- The numbers of ODTs in ALLOC_ODT are bytes. -/
theorem wtrace_odts {cfg : Cfg} {s s' : St} {t : List (AllocReq × UInt8)} (h : WideTrace cfg s t s') :
    ∀ (l : Nat) (odts : List Nat), (confAfter cfg.resetOnSeqErr t)[l]? = some odts → odts.length < 256 := by
  induction h with
  | nil => intro l odts hl; simp [confAfter] at hl
  | other _ _ _ ih => exact ih
  | @req t s1 s2 env p r a htr hd hp hst hans ih =>
    intro l odts hl
    rw [confAfter_snoc] at hl
    split at hl
    · cases r with
      | free => simp [Conf.apply] at hl
      | daq n =>
        simp only [Conf.apply] at hl
        rw [List.getElem?_append] at hl
        split at hl
        · exact ih l odts hl
        · rw [List.getElem?_replicate] at hl
          split at hl
          · cases hl; simp
          · cases hl
      | odt l' n =>
        simp only [Conf.apply] at hl
        rw [List.getElem?_set] at hl
        split at hl
        · split at hl
          · cases hl
            have := hp.2.2.1
            simpa using this
          · cases hl
        · exact ih l odts hl
      | entry l' o n =>
        simp only [Conf.apply] at hl
        rw [List.getElem?_modify] at hl
        cases hc : (confAfter cfg.resetOnSeqErr t)[l]? with
        | none => rw [hc] at hl; cases hl
        | some x =>
          rw [hc] at hl
          have := ih l x hc
          simp only [Option.map_eq_map, Option.map_some, Option.some.injEq] at hl
          subst hl
          split <;> simpa using this
    · split at hl
      · simp at hl
      · exact ih l odts hl

/-- C105, partial: as long as accepted requests name lists and ODTs that exist and have no ODTs or entries yet, the
pool holds exactly the configuration asked for, every element in a place of its own; every list has less than 256
ODTs. -/
theorem C105_layout_partial {cfg : Cfg} (hc : Wide16 cfg) (hs : ShortOk cfg) (ha : AllocOn cfg) {s s' : St} (h0 : Empty s.daq)
    {t : List (AllocReq × UInt8)} (h : WideTrace cfg s t s')
    (had : Each (fun t1 r a => a = 0xFF → (confAfter cfg.resetOnSeqErr t1).admits r) t) :
    WideRep cfg s'.daq (confAfter cfg.resetOnSeqErr t) ∧
      ∀ (l : Nat) (odts : List Nat), (confAfter cfg.resetOnSeqErr t)[l]? = some odts → odts.length < 256 :=
  ⟨(wtrace_held hc hs ha h0 h had).rep, wtrace_odts h⟩

/-- C105: the lookup functions of the slave lead to these places. -/
theorem C105_lookup {cfg : Cfg} (hc : Wide16 cfg) {d : Daq} {c : Conf} (h : WideRep cfg d c) {i j k : Nat} :
    (c.has (.odt i j) → wGetOdt cfg d i j = .ok (d.entities (slot d (.odt i j)))) ∧
    (c.has (.entry i j k) → wGetOdtEntryIdx cfg d i j k = .ok (slot d (.entry i j k))) :=
  ⟨h.getOdt hc, h.getEntry hc⟩

/-- C105: with the configuration `c` in the pool and no acquisition running, SET_DAQ_PTR is accepted
and sets the pointer if the entry exists, and is refused with ERR_OUT_OF_RANGE otherwise. -/
theorem C105_set_daq_ptr {cfg : Cfg} (hc : Wide16 cfg) (hs : ShortOk cfg) (env : Env) {s : St} (hd : DaqReady cfg s)
    (hsup : cfg.supports .setDaqPtr = true) (hrun : s.daq.running = false) {c : Conf} (hr : WideRep cfg s.daq c)
    {p : Pdu} {l : Nat} {o e : UInt8} (hp : code p = some 0xE2) (h2 : Param cfg.motorola p 2 2 l)
    (h4 : p.buf[4]? = some o) (h5 : p.buf[5]? = some e) :
    ∃ s', wStep cfg env s (.cmd p) = .ok s' ∧
      (c.has (.entry l o.toNat e.toNat) → Answers cfg s s' [0xFF] ∧
        SameCore { s with daq := { s.daq with ptr := ⟨l, o.toNat, e.toNat⟩ } } s') ∧
      (¬ c.has (.entry l o.toNat e.toNat) → Refused cfg s s' 0x22) := by
  rw [hd.wstepc env .setDaqPtr hp hsup]
  have hb := hd.bump
  have hsame := bumpReceived_same cfg s
  have htx : (bumpReceived cfg s).tx = s.tx := bumpReceived_tx cfg s
  generalize bumpReceived cfg s = b at *
  obtain ⟨v, hv, hv'⟩ := hr.validate hc l o.toNat e.toNat
  simp only [wHandler, wSetDaqPtrRes, assertDaqStopped, assertPgmIdle, assertUnlocked, hsame.daq]
  rw [if_neg (by rw [hrun]; decide), if_neg hb.pgm, if_neg hb.notProtected]
  simp only [h2.word, byte_eq h4, byte_eq h5, ok_bind, hc.width, Width.mod, Nat.mod_eq_of_lt (show l < 65536 from h2.1), hv]
  cases v with
  | true =>
    refine ⟨_, rfl, fun _ => ⟨send8_answers hs (by simp) htx, ?_⟩, fun h => absurd (hv'.mp rfl) h⟩
    exact (hsame.withDaq _).trans (send8_same _ _ _)
  | false =>
    refine ⟨_, rfl, fun h => absurd (hv'.mpr h) (by decide), fun _ => ⟨send8_answers hs (by simp) htx, ?_⟩⟩
    exact hsame.trans (send8_same _ _ _)

/-- C105: START_STOP_DAQ_LIST (stop, start or select) of an existing list answers with the number of
ODTs of the lists before it. -/
theorem C105_first_pid {cfg : Cfg} (hc : Wide16 cfg) (hs : ShortOk cfg) (env : Env) {s : St} (hd : DaqReady cfg s)
    (hsup : cfg.supports .startStopDaqList = true) {c : Conf} (hr : WideRep cfg s.daq c) {p : Pdu} {l : Nat} {m : UInt8}
    (hp : code p = some 0xDE) (h1 : p.buf[1]? = some m) (hm : m = 0 ∨ m = 1 ∨ m = 2) (h2 : Param cfg.motorola p 2 2 l)
    (hl : l < c.length) :
    ∃ s', wStep cfg env s (.cmd p) = .ok s' ∧
      Answers cfg s s' [0xFF, UInt8.ofNat (c.firstPid l), 0, 0, 0, 0, 0, 0] ∧ c.firstPid l < 65536 ∧ WideRep cfg s'.daq c := by
  have hlt : c.firstPid l < 65536 := Nat.lt_of_le_of_lt (firstPid_le c l) (hr.odts_lt hc)
  have hll : l % 65536 = l := by
    have := hr.fits
    have := hc.2
    unfold Conf.size at *
    apply Nat.mod_eq_of_lt; omega
  rw [hd.wstepc env .startStopDaqList hp hsup]
  have hb := hd.bump
  have hsame := bumpReceived_same cfg s
  have htx : (bumpReceived cfg s).tx = s.tx := bumpReceived_tx cfg s
  generalize bumpReceived cfg s = b at *
  rw [← hsame.daq] at hr
  simp only [wHandler, wStartStopDaqListRes, assertPgmIdle, assertUnlocked, byte_eq h1, h2.word, ok_bind, hc.width, Width.mod, hll]
  rw [if_neg hb.pgm, if_neg hb.notProtected, if_neg (by rw [hr.lists]; omega)]
  unfold wStartStopDaqListBody wStartStopDaqListEnd
  rcases hm with rfl | rfl | rfl
  · rw [if_pos rfl, hr.firstPid hc hl]
    exact ⟨_, rfl, send8_answers hs (by simp) htx, hlt, hr⟩
  · rw [if_neg (by decide), if_pos rfl, hr.firstPid hc hl]
    exact ⟨_, rfl, send8_answers hs (by simp) htx, hlt, hr⟩
  · rw [if_neg (by decide), if_neg (by decide), if_pos rfl]
    have hr' : WideRep cfg { b.daq with mode := b.daq.mode ||| MODE_SELECTED } c := wrep_pool (d := b.daq) ⟨rfl, rfl, rfl, rfl, rfl⟩ hr
    rw [hr'.firstPid hc hl]
    exact ⟨_, rfl, send8_answers hs (by simp) htx, hlt, hr'⟩

/-- C105 is false for lists that do not exist: START_STOP_DAQ_LIST and GET_DAQ_LIST_INFO refuse them as out of range, but the handlers go on:
if they come to an end, a second answer follows. -/
theorem C105_fails_missing {cfg : Cfg} (hc : Wide16 cfg) (hs : ShortOk cfg) (env : Env) {s s' : St} (hd : DaqReady cfg s)
    {c : Conf} (hr : WideRep cfg s.daq c) {p : Pdu} {l : Nat} (h2 : Param cfg.motorola p 2 2 l) (hl : c.length ≤ l)
    (h : (cfg.supports .startStopDaqList = true ∧ code p = some 0xDE ∧ ∃ m, p.buf[1]? = some m) ∨
      (cfg.supports .getDaqListInfo = true ∧ code p = some 0xD8)) (hok : wStep cfg env s (.cmd p) = .ok s') :
    ∃ mid bs, Refused cfg s mid 0x22 ∧ Answers cfg mid s' bs := by
  have hl16 : l % 65536 = l := Nat.mod_eq_of_lt h2.1
  have hb := hd.bump
  have hsame := bumpReceived_same cfg s
  have href : Refused cfg s (errorResp cfg (bumpReceived cfg s) 0x22) 0x22 := Refused.of_bump (refused_send8 hs _ _)
  refine ⟨errorResp cfg (bumpReceived cfg s) 0x22, ?_⟩
  suffices ∃ bs, Answers cfg (errorResp cfg (bumpReceived cfg s) 0x22) s' bs from this.imp fun bs h => ⟨href, h⟩
  rcases h with ⟨hsup, hp, m, h1⟩ | ⟨hsup, hp⟩
  · rw [hd.wstepc env .startStopDaqList hp hsup] at hok
    simp only [wHandler, wStartStopDaqListRes, assertPgmIdle, assertUnlocked, byte_eq h1, h2.word, ok_bind, hc.width, Width.mod,
      hl16] at hok
    rw [if_neg hb.pgm, if_neg hb.notProtected, if_pos (by rw [hsame.daq, hr.lists]; omega)] at hok
    unfold wStartStopDaqListBody wStartStopDaqListEnd at hok
    have key : ∀ t : St, t.tx = (errorResp cfg (bumpReceived cfg s) 0x22).tx →
        (do let (_, pid) ← wGetFirstPid cfg t.daq l
            return send8 cfg t [0xFF, UInt8.ofNat pid, 0, 0, 0, 0, 0, 0] : R) = .ok s' →
        ∃ bs, Answers cfg (errorResp cfg (bumpReceived cfg s) 0x22) s' bs := by
      intro t ht hk
      cases hg : wGetFirstPid cfg t.daq l with
      | error f => rw [hg] at hk; cases hk
      | ok x => rw [hg] at hk; cases hk; exact ⟨_, send8_answers hs (by simp) ht⟩
    split at hok
    · exact key _ rfl hok
    · split at hok
      · exact key _ rfl hok
      · split at hok
        · exact key (({ errorResp cfg (bumpReceived cfg s) ERR_OUT_OF_RANGE with
            daq := { (errorResp cfg (bumpReceived cfg s) ERR_OUT_OF_RANGE).daq with
              mode := (errorResp cfg (bumpReceived cfg s) ERR_OUT_OF_RANGE).daq.mode ||| MODE_SELECTED } })) rfl hok
        · cases hok; exact ⟨_, send8_answers hs (by simp) rfl⟩
  · rw [hd.wstepc env .getDaqListInfo hp hsup] at hok
    simp only [wHandler, wGetDaqListInfoRes, assertPgmIdle, assertUnlocked, h2.word, ok_bind, hc.width, Width.mod, hl16] at hok
    rw [if_neg hb.pgm, if_neg hb.notProtected, if_pos (by rw [hsame.daq, hr.lists]; omega)] at hok
    unfold getDaqListInfoBody at hok
    cases hg : (errorResp cfg (bumpReceived cfg s) ERR_OUT_OF_RANGE).daq.ent cfg l with
    | error f => rw [hg] at hok; cases hok
    | ok x => rw [hg] at hok; cases hok; exact ⟨_, send8_answers hs (by simp) rfl⟩

/-- C105: an event fires while acquisition runs.  The list assigned to it exists, its entries
have been written, its packets fit in a packet, and the queue is empty and has accepted so few packets
before that those of the list fit.  Then one packet per ODT is sent, in order, each with PID, timestamp
and memory contents; memory and DAQ configuration do not change. -/
theorem C105_event_partial {cfg : Cfg} (hc : Wide16 cfg) (env : Env) {s : St} (hdaq : cfg.daq = true) (hrun : s.daq.running = true)
    {c : Conf} (hr : WideRep cfg s.daq c) {ev : UInt8} (hne : cfg.numEvents < 256) (hev : ev.toNat < cfg.numEvents) {l : Nat}
    (hlist : s.daq.listForEvent ev.toNat = l) {odts : List Nat} (hl : c[l]? = some odts)
    (hpos : ∀ j m k, odts[j]? = some m → k < m → cfg.asserts = true → 0 < (s.daq.entities (slot s.daq (.entry l j k))).len)
    (hlen : ∀ j m, odts[j]? = some m → packetLen cfg s l j m ≤ cfg.maxDto ∧ packetLen cfg s l j m < 256)
    {h : Nat} (hq : Holds s.daq.queue [] h) (hroom : h + odts.length ≤ 4) :
    ∃ s' fs ps, wStep cfg env s (.trigger ev) = .ok s' ∧ s'.tx = s.tx ++ fs ∧ Dtos cfg fs ps ∧ ps.length = odts.length ∧
      (∀ j m, odts[j]? = some m → ∃ bs, ps[j]? = some bs ∧ Packet cfg env s c l j m bs) ∧
      s'.mem = s.mem ∧ (∃ q, s'.daq = { s.daq with queue := q } ∧ Holds q [] (h + odts.length)) := by
  obtain ⟨q', ps, e, hh, ho, hps, hfit, hpk⟩ := wsample_list hc (env := env) hr hl hpos hlen hq _ (Nat.le_refl _) hroom
  obtain ⟨s', fs, et, htx, hd, hh', _⟩ := transmit_holds (cfg := cfg) (queueSize + 1) (s := { s with daq := { s.daq with queue := q' } })
    hh (by unfold queueSize; omega) hfit
  have est : wStep cfg env s (.trigger ev) = .ok s' := by
    simp only [wStep, hdaq, if_true]
    unfold wTriggerEvent
    rw [if_neg (by simp [hrun]), if_neg (by rw [Nat.mod_eq_of_lt hne]; omega), hlist]
    simp only [hr.firstPid hc (getElem?_lt hl)]
    simp only [ok_bind, hr.ent_list (getElem?_lt hl), hc.width, hr.listN l odts hl, e]
    exact et
  refine ⟨s', fs, ps, est, htx, hd, hps, fun j m hj => hpk j m (getElem?_lt hj) hj, ?_⟩
  have heff : TrigEff s s' := by
    have : wTriggerEvent cfg env s ev.toNat = .ok s' := by simpa only [wStep, hdaq, if_true] using est
    exact wtrigger_eff env ev.toNat s' this
  refine ⟨heff.mem, ?_⟩
  obtain ⟨q, hq⟩ := heff.daq
  exact ⟨q, hq, by rw [hq] at hh'; exact hh'⟩

theorem wany_entries {cfg : Cfg} (hc : Wide16 cfg) {d : Daq} {c : Conf} (h : WideRep cfg d c) {l : Nat} {odts : List Nat} (hl : c[l]? = some odts) {n : Nat} (hn : n < 256) :
    ∀ (k i : Nat), i + k = odts.length →
      ∃ b, wAnyEntries cfg d l n i k = .ok b ∧ (b = true ↔ ∃ j m, i ≤ j ∧ odts[j]? = some m ∧ 0 < m)
  | 0, i, hi => by
    refine ⟨false, by unfold wAnyEntries; rw [if_neg (by omega)], fun h => (nomatch h), fun ⟨j, m, h1, h2, _⟩ => ?_⟩
    have := getElem?_lt h2
    omega
  | k + 1, i, hi => by
    have hlt : i < odts.length := by omega
    have hm : odts[i]? = some odts[i] := List.getElem?_eq_getElem hlt
    unfold wAnyEntries
    rw [h.getOdt hc ⟨odts, hl, hlt⟩, ok_bind, hc.width, h.odtN l i odts _ hl hm]
    by_cases hz : odts[i] = 0
    · rw [if_neg (by simpa using hz)]
      obtain ⟨b, h1, h2⟩ := wany_entries hc h hl hn k (i + 1) (by omega)
      refine ⟨b, h1, h2.trans ⟨fun ⟨j, m, g1, g2, g3⟩ => ⟨j, m, by omega, g2, g3⟩, fun ⟨j, m, g1, g2, g3⟩ => ⟨j, m, ?_, g2, g3⟩⟩⟩
      have : j ≠ i := by rintro rfl; rw [hm] at g2; cases g2; omega
      omega
    · rw [if_pos (by simpa using hz)]
      exact ⟨true, rfl, fun _ => ⟨i, _, Nat.le_refl _, hm, Nat.pos_of_ne_zero hz⟩, fun _ => rfl⟩

/-- C105: `XcpDaq_ValidateList` accepts exactly the lists that have something to measure, and reads nothing outside
the pool, if the list has less than 256 ODTs. -/
theorem C105_validate_list {cfg : Cfg} (hc : Wide16 cfg) {d : Daq} {c : Conf} (h : WideRep cfg d c) (l : Nat)
    (hsz : ∀ odts, c[l]? = some odts → odts.length < 256) :
    ∃ b, wValidateList cfg d l = .ok b ∧ (b = true ↔ c.useful l) := by
  unfold wValidateList
  simp only [hc.width, beyond, decide_eq_true_eq]
  split
  · rename_i hl
    rw [h.lists] at hl
    refine ⟨false, rfl, fun h => (nomatch h), fun ⟨j, k, odts, m, h1, _⟩ => ?_⟩
    have := getElem?_lt h1
    omega
  · rename_i hl
    rw [h.lists] at hl
    have hi : l < c.length := by omega
    have ho : c[l]? = some c[l] := List.getElem?_eq_getElem hi
    rw [h.ent_list hi, ok_bind, h.listN l _ ho, Nat.min_eq_left (Nat.le_of_lt (hsz _ ho))]
    obtain ⟨b, h1, h2⟩ := wany_entries hc h ho (hsz _ ho) c[l].length 0 (by omega)
    have key : (∃ j m, 0 ≤ j ∧ c[l][j]? = some m ∧ 0 < m) ↔ c.useful l := by
      refine ⟨fun ⟨j, m, _, g2, g3⟩ => ⟨j, 0, _, m, ho, g2, g3⟩, fun ⟨j, k, odts, m, g1, g2, g3⟩ => ?_⟩
      rw [ho] at g1; cases g1
      exact ⟨j, m, Nat.zero_le _, g2, by omega⟩
    split
    · rename_i hz
      refine ⟨false, rfl, fun h => (nomatch h), fun hu => ?_⟩
      obtain ⟨j, m, _, g2, _⟩ := key.mpr hu
      have := getElem?_lt g2
      omega
    · exact ⟨b, h1, h2.trans key⟩

/-- C105: WRITE_DAQ writes the entry the pointer designates and nothing else, and advances the pointer. -/
theorem C105_write_daq {cfg : Cfg} (hc : Wide16 cfg) (hs : ShortOk cfg) (env : Env) {s : St} (hd : DaqReady cfg s)
    (hsup : cfg.supports .writeDaq = true) (hrun : s.daq.running = false) {c : Conf} (hr : WideRep cfg s.daq c)
    {l o e : Nat} (hptr : s.daq.ptr = ⟨l, o, e⟩) (he : c.has (.entry l o e)) {p : Pdu} {w : Element}
    (hp : IsWriteDaq cfg p w) :
    ∃ s', wStep cfg env s (.cmd p) = .ok s' ∧ Answers cfg s s' [0xFF] ∧ Wrote s.daq s'.daq l o e [w] ∧ WideRep cfg s'.daq c ∧
      SameCore { s with daq := s'.daq } s' := by
  obtain ⟨s', h1, h2, h3, h4, h5, -⟩ := wwrite_step hc hs env hd hsup hrun hr hptr he hp
  exact ⟨s', h1, h2, h3, h4, h5⟩

/-- C105: SET_DAQ_LIST_MODE assigns list `l % 256` to the event, whatever the size of the pool. -/
theorem C105_list_mode {cfg : Cfg} (hs : ShortOk cfg) (env : Env) {s : St} (hd : DaqReady cfg s)
    (hsup : cfg.supports .setDaqListMode = true) (hrun : s.daq.running = false) {p : Pdu} {m b6 b7 : UInt8} {l ev : Nat}
    (hp : code p = some 0xE0) (h1 : p.buf[1]? = some m) (hm : m &&& 3 = 0) (h2 : Param cfg.motorola p 2 2 l)
    (h4 : Param cfg.motorola p 4 2 ev) (hev : ev < cfg.numEvents) (h6 : p.buf[6]? = some b6) (hb6 : b6.toNat ≤ 1)
    (h7 : p.buf[7]? = some b7) :
    ∃ s', wStep cfg env s (.cmd p) = .ok s' ∧ Answers cfg s s' [0xFF] ∧
      s'.daq.listForEvent = (fun j => if j = ev then l % 256 else s.daq.listForEvent j) ∧
      s'.daq.mode = (s.daq.mode &&& 0x0C) ||| (m &&& 0xF3) ∧
      SameCore { s with daq := { s.daq with listForEvent := s'.daq.listForEvent, mode := s'.daq.mode } } s' := by
  rw [hd.wstepc env .setDaqListMode hp hsup]
  have hb := hd.bump
  have hsame := bumpReceived_same cfg s
  have htx : (bumpReceived cfg s).tx = s.tx := bumpReceived_tx cfg s
  generalize bumpReceived cfg s = b at *
  have hm1 : ¬ m &&& MODE_DIRECTION = MODE_DIRECTION := by
    revert hm; exact (forall_u8 (P := fun m => m &&& 3 = 0 → ¬ m &&& MODE_DIRECTION = MODE_DIRECTION) (by decide +kernel)) m
  have hm2 : ¬ m &&& MODE_ALTERNATING = MODE_ALTERNATING := by
    revert hm; exact (forall_u8 (P := fun m => m &&& 3 = 0 → ¬ m &&& MODE_ALTERNATING = MODE_ALTERNATING) (by decide +kernel)) m
  have hp6 : ¬ 1 < b6 := by
    intro h
    have : (1 : UInt8).toNat < b6.toNat := UInt8.lt_iff_toNat_lt.mp h
    simp at this
    omega
  have hmod : l % cfg.width.mod % 256 = l % 256 := by
    cases cfg.width <;> simp only [Width.mod] <;> omega
  simp only [wHandler, wSetDaqListModeRes, assertDaqStopped, assertPgmIdle, assertUnlocked, hsame.daq, byte_eq h1, h2.word,
    h4.word, byte_eq h6, byte_eq h7, ok_bind, hmod]
  rw [if_neg (by rw [hrun]; decide), if_neg hb.pgm, if_neg hb.notProtected, if_neg hm1, if_neg hm2, if_neg hp6]
  unfold addEventChannel
  rw [if_pos hev]
  exact ⟨_, rfl, send8_answers hs (by simp) htx, rfl, newMode_bits _ _, (hsame.withDaq _).trans (send8_same _ _ _)⟩

/-- C105: the PIDs, numbers of ODTs cut to a byte, tell all ODTs apart exactly if there are at most 256. -/
theorem C105_pids (c : Conf) : c.odts ≤ 256 ↔
    ∀ l j l' j', c.has (.odt l j) → c.has (.odt l' j') → UInt8.ofNat (c.firstPid l + j) = UInt8.ofNat (c.firstPid l' + j') →
      l = l' ∧ j = j' := by
  constructor
  · intro h l j l' j' h1 h2 he
    have g1 := (C32_partition c (c.firstPid l + j)).1.mpr ⟨l, j, h1, rfl⟩
    have g2 := (C32_partition c (c.firstPid l' + j')).1.mpr ⟨l', j', h2, rfl⟩
    refine (C32_partition c 0).2 l j l' j' h1 h2 ?_
    have := congrArg UInt8.toNat he
    simp only [UInt8.toNat_ofNat'] at this
    omega
  · intro h
    apply Decidable.byContradiction
    intro hgt
    obtain ⟨l, j, h1, e1⟩ := (C32_partition c 0).1.mp (by omega)
    obtain ⟨l', j', h2, e2⟩ := (C32_partition c 256).1.mp (by omega)
    obtain ⟨rfl, rfl⟩ := h l j l' j' h1 h2 (by rw [← e1, ← e2]; rfl)
    omega

/-- C105 is false for pools of 65536 elements and more: with nothing allocated, every SET_DAQ_PTR for a number
inside the pool is accepted. -/
theorem C105_fails_unsigned {cfg : Cfg} (hbig : 65536 ≤ cfg.maxEnt) (hs : ShortOk cfg) (env : Env) {s : St} (hd : DaqReady cfg s)
    (hsup : cfg.supports .setDaqPtr = true) (hrun : s.daq.running = false) (h0 : s.daq.listCount = 0)
    (hz : ∀ i, s.daq.entities i = .zero) {p : Pdu} {l : Nat} {o e : UInt8} (hp : code p = some 0xE2)
    (h2 : Param cfg.motorola p 2 2 l) (h4 : p.buf[4]? = some o) (h5 : p.buf[5]? = some e) :
    ∃ s', wStep cfg env s (.cmd p) = .ok s' ∧ Answers cfg s s' [0xFF] ∧ s'.daq.ptr = ⟨l, o.toNat, e.toNat⟩ := by
  have hw : cfg.width = .w32 := by unfold Cfg.width; rw [if_neg (by omega), if_neg (by omega)]
  have hl : l < 65536 := h2.1
  have ho := o.toNat_lt
  have he := e.toNat_lt
  have hent : ∀ i, i < cfg.maxEnt → s.daq.ent cfg i = .ok .zero := by
    intro i hi
    unfold Daq.ent
    rw [if_pos hi, hz]
  rw [hd.wstepc env .setDaqPtr hp hsup]
  have hb := hd.bump
  have hsame := bumpReceived_same cfg s
  have htx : (bumpReceived cfg s).tx = s.tx := bumpReceived_tx cfg s
  generalize bumpReceived cfg s = b at *
  have hv : wValidateOdtEntry cfg s.daq l o.toNat e.toNat = .ok true := by
    unfold wValidateOdtEntry wGetOdt
    simp only [hw, beyond, h0, hent l (by omega), ok_bind, Entity.numW, Entity.firstW, Entity.zero, Width.mod, decide_eq_true_eq]
    rw [if_neg (by omega), if_neg (by omega)]
    simp only [Nat.zero_mod, Nat.zero_add]
    rw [Nat.mod_eq_of_lt (show o.toNat < 4294967296 by omega), hent _ (by omega)]
    simp only [ok_bind, Entity.zero, Nat.zero_mod, Nat.zero_add]
    show Except.ok _ = _
    congr 1
    rw [Bool.not_eq_true', decide_eq_false_iff_not]
    omega
  simp only [wHandler, wSetDaqPtrRes, assertDaqStopped, assertPgmIdle, assertUnlocked, hsame.daq]
  rw [if_neg (by rw [hrun]; decide), if_neg hb.pgm, if_neg hb.notProtected]
  simp only [h2.word, byte_eq h4, byte_eq h5, ok_bind, hw, Width.mod, Nat.mod_eq_of_lt (show l < 4294967296 by omega), hv]
  exact ⟨_, rfl, send8_answers hs (by simp) htx, rfl⟩

/-- A value of the final state of a history. -/
def Ex.wobs {α : Type} (cfg : Cfg) (h : List (Env × Op)) (f : St → α) : Option α :=
  match wRun cfg (St.init cfg Ex.mem) h with
  | .ok s => some (f s)
  | .error _ => none

/-- A pool of 1000 elements. -/
def Ex.pool1000 : Cfg := { Ex.sim with maxEnt := 1000 }
/-- A pool of 70000 elements. -/
def Ex.pool70000 : Cfg := { Ex.sim with maxEnt := 70000 }

theorem Ex.pool1000_wide : Wide16 Ex.pool1000 := by constructor <;> decide

/-- 300 lists, list 256 and list 299 with one ODT of one and of two entries. -/
def Ex.lists300 : List (Env × Op) :=
  [Ex.c [0xFF], Ex.c [0xD6], Ex.c [0xD5, 0, 0x2C, 1], Ex.c [0xD4, 0, 0, 1, 1], Ex.c [0xD4, 0, 0x2B, 1, 1],
    Ex.c [0xD3, 0, 0, 1, 0, 1], Ex.c [0xD3, 0, 0x2B, 1, 0, 2]]

/-- All requests accepted; the ODTs are elements 300 and 301, the entries elements 302 to 304; the pointer can be
set to entry 1 of list 299 and not to entry 2; the entry is written; the first PID of list 299 is 1. -/
example :
    Ex.wobs Ex.pool1000 Ex.lists300 (fun s => (s.tx.map fun f => f.bytes.drop 4).drop 1) = some [[0xFF], [0xFF], [0xFF], [0xFF], [0xFF], [0xFF]] ∧
    Ex.wobs Ex.pool1000 Ex.lists300 (fun s => (s.daq.entityCount, slot s.daq (.odt 256 0), slot s.daq (.odt 299 0),
      slot s.daq (.entry 256 0 0), slot s.daq (.entry 299 0 1))) = some (305, 300, 301, 302, 304) ∧
    Ex.wobs Ex.pool1000 (Ex.lists300 ++ [Ex.c [0xE2, 0, 0x2B, 1, 0, 1], Ex.c [0xE1, 0xFF, 2, 0, 0, 0x10, 0, 0]])
      (fun s => ((s.daq.entities 304).addr, (s.daq.entities 304).len, (s.tx.map Frame.bytes).getLast?)) =
      some (0x1000, 2, some [1, 0, 8, 0, 0xFF]) ∧
    Ex.wobs Ex.pool1000 (Ex.lists300 ++ [Ex.c [0xE2, 0, 0x2B, 1, 0, 2]]) (fun s => (s.tx.map Frame.bytes).getLast?) =
      some (some [2, 0, 7, 0, 0xFE, 0x22]) ∧
    Ex.wobs Ex.pool1000 (Ex.lists300 ++ [Ex.c [0xDE, 2, 0x2B, 1]]) (fun s => (s.tx.map Frame.bytes).getLast?) =
      some (some [8, 0, 7, 0, 0xFF, 1, 0, 0, 0, 0, 0, 0]) := by
  refine ⟨?_, ?_, ?_, ?_, ?_⟩ <;> decide +kernel

/-- List 0 measures 2 bytes at 0x1010, list 256 measures 2 bytes at 0x2020; the given commands follow, acquisition
starts and event 0 fires.  The packets sent. -/
def Ex.list256 (h : List (Env × Op)) : Option (List (List UInt8)) :=
  Ex.wobs Ex.pool1000
    ([Ex.c [0xFF], Ex.c [0xD6], Ex.c [0xD5, 0, 1, 1], Ex.c [0xD4, 0, 0, 0, 1], Ex.c [0xD4, 0, 0, 1, 1],
      Ex.c [0xD3, 0, 0, 0, 0, 1], Ex.c [0xD3, 0, 0, 1, 0, 1],
      Ex.c [0xE2, 0, 0, 0, 0, 0], Ex.c [0xE1, 0xFF, 2, 0, 0x10, 0x10, 0, 0],
      Ex.c [0xE2, 0, 0, 1, 0, 0], Ex.c [0xE1, 0xFF, 2, 0, 0x20, 0x20, 0, 0]] ++ h ++
      [Ex.c [0xDD, 1], (Ex.env, .trigger 0)])
    (fun s => (s.tx.filter (·.kind == .dto)).map fun f => f.bytes.drop 4)

/-- C105 is false: list 256 is assigned to the event, the command is accepted, and list 0 is measured. -/
theorem C105_fails_event : Ex.list256 [Ex.c [0xE0, 0, 0, 1, 0, 0, 1, 0]] = some [[0, 0x10, 0x11]] ∧
    Ex.list256 [Ex.c [0xE0, 0, 0, 0, 0, 0, 1, 0]] = some [[0, 0x10, 0x11]] := by
  refine ⟨?_, ?_⟩ <;> decide +kernel

/-- C105 is false: three lists with 255, 255 and one ODT.  The first PID of list 2 is answered as 254, the PID of
the last ODT of list 0; the packet of list 2 carries it. -/
theorem C105_fails_pid :
    let h := [Ex.c [0xFF], Ex.c [0xD6], Ex.c [0xD5, 0, 3, 0], Ex.c [0xD4, 0, 0, 0, 255], Ex.c [0xD4, 0, 1, 0, 255],
      Ex.c [0xD4, 0, 2, 0, 1]]
    Ex.wobs Ex.pool1000 (h ++ [Ex.c [0xDE, 2, 2, 0]]) (fun s => (s.daq.odtCount, (s.tx.map Frame.bytes).getLast?)) =
      some (511, some [8, 0, 6, 0, 0xFF, 254, 0, 0, 0, 0, 0, 0]) ∧
    Ex.wobs Ex.pool1000 (h ++ [Ex.c [0xE0, 0, 2, 0, 0, 0, 1, 0], Ex.c [0xDD, 1], (Ex.env, .trigger 0)])
      (fun s => (s.tx.filter (·.kind == .dto)).map fun f => f.bytes.drop 4) = some [[254]] := by
  refine ⟨?_, ?_⟩ <;> decide +kernel

/-- C105 is false: ALLOC_ODT for the same list with 255 and with one ODT is accepted and leaves a list with 256 ODTs;
`XcpDaq_ValidateList` does not return. -/
theorem C105_fails_validate :
    Ex.wobs Ex.pool1000 [Ex.c [0xFF], Ex.c [0xD6], Ex.c [0xD5, 0, 1, 0], Ex.c [0xD4, 0, 0, 0, 255], Ex.c [0xD4, 0, 0, 0, 1]]
      (fun s => ((s.tx.map Frame.bytes).getLast?, count16 (s.daq.entities 0),
        match wValidateList Ex.pool1000 s.daq 0 with | .ok _ => none | .error f => some f)) =
      some (some [1, 0, 4, 0, 0xFF], 256, some .noReturn) := by decide +kernel

/-- C105 is false for large pools: list 0 has no ODTs, SET_DAQ_PTR for its ODT 0 and entry 0 is accepted, and
WRITE_DAQ then overwrites the list itself, which has 4096 ODTs afterwards. -/
theorem C105_fails_overwrite :
    let h := [Ex.c [0xFF], Ex.c [0xD6], Ex.c [0xD5, 0, 1, 0], Ex.c [0xE2, 0, 0, 0, 0, 0], Ex.c [0xE1, 0xFF, 2, 0, 0, 0x10, 0, 0]]
    Ex.wobs Ex.pool70000 h (fun s => (s.tx.map fun f => f.bytes.drop 4).drop 3) = some [[0xFF], [0xFF]] ∧
    Ex.wobs Ex.pool70000 (h.take 3) (fun s => (s.daq.entities 0).numW .w32) = some 0 ∧
    Ex.wobs Ex.pool70000 h (fun s => (s.daq.entities 0).numW .w32) = some 4096 ∧
    Ex.wobs Ex.pool1000 (h.take 4) (fun s => (s.tx.map Frame.bytes).getLast?) = some (some [2, 0, 3, 0, 0xFE, 0x22]) := by
  refine ⟨?_, ?_, ?_, ?_⟩ <;> decide +kernel

/-- C105 is false for large pools: 65536 lists, then one ODT for list 0 and two entries for it.  The ODT is element
65536, but the list refers to element 0, itself; the entries are recorded there, so list 0 has two ODTs afterwards. -/
theorem C105_fails_first :
    let h := [Ex.c [0xFF], Ex.c [0xD6], Ex.c [0xD5, 0, 0xFF, 0xFF], Ex.c [0xD5, 0, 1, 0], Ex.c [0xD4, 0, 0, 0, 1]]
    Ex.wobs Ex.pool70000 h (fun s => (s.daq.entityCount, (s.daq.entities 0).numW .w32, (s.daq.entities 0).firstW .w32)) =
      some (65537, 1, 0) ∧
    Ex.wobs Ex.pool70000 (h ++ [Ex.c [0xD3, 0, 0, 0, 0, 2]]) (fun s => ((s.tx.map Frame.bytes).getLast?,
      (s.daq.entities 0).numW .w32, (s.daq.entities 0).firstW .w32)) = some (some [1, 0, 5, 0, 0xFF], 2, 1) := by
  refine ⟨?_, ?_⟩ <;> decide +kernel

end Xcp
