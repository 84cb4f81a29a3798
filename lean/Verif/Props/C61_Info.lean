import Verif.Props.C10_Upload
import Verif.Proofs.TxHandlers
import Verif.Proofs.Params
import Verif.Proofs.Refuse
import Verif.Proofs.Ck
import Verif.Model.Example
/-
C61: the information commands describe the configuration, and an event channel's name can
be read.
-/
set_option autoImplicit false
namespace Xcp
open Spec

/-- C61, GET_COMM_MODE_INFO: bit 0 of the optional mode is master block mode and no other
bit is set; MAX_BS, MIN_ST and the queue size are the configured ones. -/
theorem C61_commModeInfo {cfg : Cfg} (hs : ShortOk cfg) (hsup : cfg.supports .getCommModeInfo = true) (env : Env)
    {s : St} (hr : Ready s) {p : Pdu} (hp : code p = some 0xFB) :
    ∃ (s' : St) (mode maxBs version : UInt8), step cfg env s (.cmd p) = .ok s' ∧
      Answers cfg s s' [0xFF, 0, mode, 0, maxBs, cfg.minSt, cfg.queueSizeInfo, version] ∧
      mode = (if cfg.masterBlock then 1 else 0) ∧ maxBs.toNat = cfg.maxBs % 256 ∧ SameCore s s' := by
  refine ⟨send8 cfg (bumpReceived cfg s) [0xFF, 0, if cfg.masterBlock then 1 else 0, 0, UInt8.ofNat cfg.maxBs, cfg.minSt,
      cfg.queueSizeInfo, 10], if cfg.masterBlock then 1 else 0, UInt8.ofNat cfg.maxBs, 10, ?_, ?_, rfl, by simp, ?_⟩
  · rw [hr.stepc env .getCommModeInfo hp hsup]; rfl
  · exact send8_answers hs (by simp) (by simp)
  · exact (bumpReceived_same cfg s).trans (send8_same ..)

theorem notLocked_isProtected {cfg : Cfg} {s : St} {r : UInt8} (h : ¬ Locked cfg s r) : isProtected cfg s r = false := by
  cases hp : isProtected cfg s r with
  | false => rfl
  | true =>
    unfold isProtected at hp
    simp only [Bool.and_eq_true, beq_iff_eq] at hp
    exact absurd hp h

theorem assertUnlocked_pass {cfg : Cfg} {s : St} {r : UInt8} {k : R} (h : ¬ Locked cfg s r) :
    assertUnlocked cfg s r k = k := by
  simp [assertUnlocked, notLocked_isProtected h]

theorem notLocked_bump {cfg : Cfg} {s : St} {r : UInt8} (h : ¬ Locked cfg s r) : ¬ Locked cfg (bumpReceived cfg s) r := by
  simpa [Locked] using h

/-- C61, GET_DAQ_PROCESSOR_INFO.  Bit 0 says dynamic lists, bit 4 timestamps, bit 2
(resume), 3 (bitwise stimulation), 5 (PID off), 6 and 7 (overload) are off; the number of
lists is the number of allocated ones and the number of events the configured one, in
little-endian order.  Bit 1 (prescaler) is missing here: see `C61_prescaler_fails`. -/
theorem C61_daqProcessorInfo_partial {cfg : Cfg} (hs : ShortOk cfg) (hsup : cfg.supports .getDaqProcessorInfo = true)
    (env : Env) {s : St} (hr : Ready s) {p : Pdu} (hp : code p = some 0xDA) (hpg : s.pgm ≠ .active)
    (hul : ¬ Locked cfg s RES_DAQ) :
    ∃ (s' : St) (props : UInt8), step cfg env s (.cmd p) = .ok s' ∧
      Answers cfg s s' ([0xFF, props] ++ enc false 2 s.daq.listCount ++ enc false 2 cfg.numEvents ++ [0, 0]) ∧
      (∀ i < 8, i ≠ 1 → props.toNat.testBit i = (i == 0 || (i == 4 && cfg.timestamping))) ∧ SameCore s s' := by
  refine ⟨send8 cfg (bumpReceived cfg s) ([0xFF, daqProperties cfg] ++ leBytes 2 s.daq.listCount ++
      leBytes 2 cfg.numEvents ++ [0, 0]), daqProperties cfg, ?_, ?_, ?_, ?_⟩
  · rw [hr.stepc env .getDaqProcessorInfo hp hsup]
    simp only [handler, getDaqProcessorInfoRes]
    rw [assertPgmIdle_pass (by simpa using hpg), assertUnlocked_pass (notLocked_bump hul)]
    simp
  · rw [← leBytes_enc, ← leBytes_enc]
    exact send8_answers hs (by simp [leBytes_length]) (by simp)
  · intro i hi h1
    unfold daqProperties
    have : i = 0 ∨ i = 2 ∨ i = 3 ∨ i = 4 ∨ i = 5 ∨ i = 6 ∨ i = 7 := by omega
    cases cfg.prescalerProp <;> cases cfg.timestamping <;>
      rcases this with h | h | h | h | h | h | h <;> subst h <;> decide
  · exact (bumpReceived_same cfg s).trans (send8_same ..)

/-- The prescaler bit is set although the configuration has no prescaler: the constant for
"dynamic configuration" is 3, not 1.  (Every configuration with dynamic lists.) -/
theorem C61_prescaler_fails {cfg : Cfg} (hs : ShortOk cfg) (hsup : cfg.supports .getDaqProcessorInfo = true)
    (env : Env) {s : St} (hr : Ready s) {p : Pdu} (hp : code p = some 0xDA) (hpg : s.pgm ≠ .active)
    (hul : ¬ Locked cfg s RES_DAQ) :
    ∃ (s' : St) (props : UInt8) (rest : List UInt8), step cfg env s (.cmd p) = .ok s' ∧
      Answers cfg s s' (0xFF :: props :: rest) ∧ props.toNat.testBit 1 = true := by
  refine ⟨send8 cfg (bumpReceived cfg s) ([0xFF, daqProperties cfg] ++ leBytes 2 s.daq.listCount ++
      leBytes 2 cfg.numEvents ++ [0, 0]), daqProperties cfg, _, ?_, send8_answers hs (by simp [leBytes_length]) (by simp), ?_⟩
  · rw [hr.stepc env .getDaqProcessorInfo hp hsup]
    simp only [handler, getDaqProcessorInfoRes]
    rw [assertPgmIdle_pass (by simpa using hpg), assertUnlocked_pass (notLocked_bump hul)]
    simp
  · unfold daqProperties
    cases cfg.prescalerProp <;> cases cfg.timestamping <;> decide

/-- C61, GET_DAQ_RESOLUTION_INFO: granularity 1, the largest entry is MAX_DTO without the
PID, and the timestamps have 4 bytes of 1 microsecond (`0x34`: unit 3, size 4), 1 tick per
unit.  True of the configuration only if MAX_DTO is at most 256 and timestamps have 4 bytes:
the rest is `C61_resolution_fails`. -/
theorem C61_resolution_partial {cfg : Cfg} (hs : ShortOk cfg) (hsup : cfg.supports .getDaqResolutionInfo = true)
    (hd : 0 < cfg.maxDto) (hd' : cfg.maxDto ≤ 256) (hts : cfg.tsSize = 4) (env : Env) {s : St} (hr : Ready s) {p : Pdu}
    (hp : code p = some 0xD9) (hpg : s.pgm ≠ .active) (hul : ¬ Locked cfg s RES_DAQ) :
    ∃ (s' : St) (big mode : UInt8), step cfg env s (.cmd p) = .ok s' ∧
      Answers cfg s s' [0xFF, 1, big, 1, big, mode, 1, 0] ∧ big.toNat + 1 = cfg.maxDto ∧
      mode.toNat % 8 = cfg.tsSize ∧ mode.toNat / 16 = 3 ∧ SameCore s s' := by
  refine ⟨send8 cfg (bumpReceived cfg s) [0xFF, 1, UInt8.ofNat (cfg.maxDto - 1), 1, UInt8.ofNat (cfg.maxDto - 1), 0x34, 1, 0],
    UInt8.ofNat (cfg.maxDto - 1), 0x34, ?_, send8_answers hs (by simp) (by simp), ?_, ?_, rfl,
    (bumpReceived_same cfg s).trans (send8_same ..)⟩
  · rw [hr.stepc env .getDaqResolutionInfo hp hsup]
    simp only [handler, getDaqResolutionInfoRes]
    rw [assertPgmIdle_pass (by simpa using hpg), assertUnlocked_pass (notLocked_bump hul)]
  · simp; omega
  · rw [hts]; rfl

/-- With 2-byte timestamps the response still announces 4 bytes, and with MAX_DTO = 300 an
entry size of 43. -/
theorem C61_resolution_fails :
    Ex.frames { Ex.sim with tsSize := 2, maxDto := 300 } [Ex.c [0xFF], Ex.c [0xD9]] =
      some [[8, 0, 0, 0, 0xFF, 0x15, 0x80, 64, 44, 1, 1, 1], [8, 0, 1, 0, 0xFF, 1, 43, 1, 43, 0x34, 1, 0]] := by
  decide +kernel

/-- The name of an event channel: address and length, if it has one. -/
def Spec.eventName (cfg : Cfg) (ev : Nat) : Option (UInt32 × Nat) :=
  match (cfg.events ev).name with
  | some a => if (cfg.events ev).nameLen.toNat = 0 then none else some (a, (cfg.events ev).nameLen.toNat)
  | none => none

/-- C61, GET_DAQ_EVENT_INFO of an existing event with a name: properties, cycle and time unit
are the configured ones, the name length is announced and the MTA points at the name. -/
theorem C61_event {cfg : Cfg} (hs : ShortOk cfg) (hsup : cfg.supports .getDaqEventInfo = true)
    (hev : cfg.numEvents < 256) (env : Env) {s : St} (hr : Ready s) {p : Pdu} {ev : Nat} (hp : code p = some 0xD7)
    (he : Param cfg.motorola p 2 2 ev) (hlt : ev < cfg.numEvents) (hul : ¬ Locked cfg s RES_DAQ) {a : UInt32} {n : Nat}
    (hn : eventName cfg ev = some (a, n)) :
    ∃ (s' : St) (len : UInt8), step cfg env s (.cmd p) = .ok s' ∧ len.toNat = n ∧ 0 < n ∧
      Answers cfg s s' [0xFF, (cfg.events ev).properties, 1, len, (cfg.events ev).cycle, (cfg.events ev).timeunit, 0] ∧
      s'.mta = ⟨0, a⟩ ∧ SameCore { s with mta := ⟨0, a⟩ } s' := by
  have hb := bumpReceived_same cfg s
  have ⟨hna, hz, hl⟩ : (cfg.events ev).name = some a ∧ (cfg.events ev).nameLen ≠ 0 ∧ (cfg.events ev).nameLen.toNat = n := by
    unfold eventName at hn
    split at hn
    · next b hb =>
      split at hn
      · cases hn
      · next h0 =>
        cases hn
        exact ⟨hb, fun h => h0 (by rw [h]; rfl), rfl⟩
    · cases hn
  refine ⟨send8 cfg { bumpReceived cfg s with mta := ⟨0, a⟩ } [0xFF, (cfg.events ev).properties, 1, (cfg.events ev).nameLen,
      (cfg.events ev).cycle, (cfg.events ev).timeunit, 0], (cfg.events ev).nameLen, ?_, hl, ?_,
      send8_answers hs (by simp) (by simp), rfl, ?_⟩
  · rw [hr.stepc env .getDaqEventInfo hp hsup]
    simp only [handler, getDaqEventInfoRes, he.word, ok_bind]
    rw [assertUnlocked_pass (notLocked_bump hul), if_neg (by omega), hna]
    simp only [if_neg hz]
  · have : (cfg.events ev).nameLen.toNat ≠ 0 := fun h => hz (UInt8.toNat_inj.mp h)
    omega
  · exact ⟨hb.connected, hb.busy, hb.daq, hb.pgm, hb.resProt, hb.seedReq, rfl, hb.slaveBlk, hb.masterBlk, hb.ck, hb.mem⟩

/-- C61, an event without a name: length 0, the MTA stays. -/
theorem C61_event_unnamed {cfg : Cfg} (hs : ShortOk cfg) (hsup : cfg.supports .getDaqEventInfo = true)
    (hev : cfg.numEvents < 256) (env : Env) {s : St} (hr : Ready s) {p : Pdu} {ev : Nat} (hp : code p = some 0xD7)
    (he : Param cfg.motorola p 2 2 ev) (hlt : ev < cfg.numEvents) (hul : ¬ Locked cfg s RES_DAQ)
    (hn : eventName cfg ev = none) :
    ∃ s', step cfg env s (.cmd p) = .ok s' ∧
      Answers cfg s s' [0xFF, (cfg.events ev).properties, 1, 0, (cfg.events ev).cycle, (cfg.events ev).timeunit, 0] ∧
      SameCore s s' := by
  refine ⟨send8 cfg (bumpReceived cfg s) [0xFF, (cfg.events ev).properties, 1, 0,
      (cfg.events ev).cycle, (cfg.events ev).timeunit, 0], ?_,
      send8_answers hs (by simp) (by simp), (bumpReceived_same cfg s).trans (send8_same ..)⟩
  rw [hr.stepc env .getDaqEventInfo hp hsup]
  simp only [handler, getDaqEventInfoRes, he.word, ok_bind]
  rw [assertUnlocked_pass (notLocked_bump hul), if_neg (by omega)]
  unfold eventName at hn
  cases hna : (cfg.events ev).name with
  | none => rfl
  | some b =>
    rw [hna] at hn
    simp only at hn
    split at hn
    · next h0 => simp only [if_pos (UInt8.toNat_inj.mp h0 : (cfg.events ev).nameLen = 0)]
    · cases hn

/-- C61, an event number that does not exist is refused. -/
theorem C61_event_refused {cfg : Cfg} (hs : ShortOk cfg) (hsup : cfg.supports .getDaqEventInfo = true)
    (env : Env) {s : St} (hr : Ready s) {p : Pdu} {ev : Nat} (hp : code p = some 0xD7)
    (he : Param cfg.motorola p 2 2 ev) (hge : cfg.numEvents ≤ ev) (hul : ¬ Locked cfg s RES_DAQ) :
    ∃ s', step cfg env s (.cmd p) = .ok s' ∧ Refused cfg s s' 0x22 := by
  refine ⟨send8 cfg (bumpReceived cfg s) [0xFE, 0x22], ?_, Refused.of_bump (refused_send8 hs _ _)⟩
  rw [hr.stepc env .getDaqEventInfo hp hsup]
  simp only [handler, getDaqEventInfoRes, he.word, ok_bind]
  rw [assertUnlocked_pass (notLocked_bump hul), if_pos (Nat.le_trans (Nat.mod_le ..) hge)]
  rfl

/-- C61 is false of a build with 256 event channels: the number of channels is read as a byte, so that GET_DAQ_EVENT_INFO refuses
every channel.  (SET_DAQ_LIST_MODE accepts them, and GET_DAQ_PROCESSOR_INFO reports 256.) -/
theorem C61_event_fails_many {cfg : Cfg} (hs : ShortOk cfg) (hsup : cfg.supports .getDaqEventInfo = true) (hev : cfg.numEvents = 256)
    (env : Env) {s : St} (hr : Ready s) {p : Pdu} {ev : Nat} (hp : code p = some 0xD7)
    (he : Param cfg.motorola p 2 2 ev) (hul : ¬ Locked cfg s RES_DAQ) :
    ∃ s', step cfg env s (.cmd p) = .ok s' ∧ Refused cfg s s' 0x22 := by
  refine ⟨send8 cfg (bumpReceived cfg s) [0xFE, 0x22], ?_, Refused.of_bump (refused_send8 hs _ _)⟩
  rw [hr.stepc env .getDaqEventInfo hp hsup]
  simp only [handler, getDaqEventInfoRes, he.word, ok_bind]
  rw [assertUnlocked_pass (notLocked_bump hul), if_pos (by rw [hev]; omega)]
  rfl

/-- The slave of the examples with 256 event channels: channel 0 is refused, while GET_DAQ_PROCESSOR_INFO reports 256 channels. -/
example : Ex.frames { Ex.sim with numEvents := 256 } [Ex.c [0xFF, 0], Ex.c [0xD7, 0, 0, 0, 0, 0], Ex.c [0xDA]] =
    (Ex.frames { Ex.sim with numEvents := 256 } [Ex.c [0xFF, 0]]).map (· ++ [[2, 0, 1, 0, 0xFE, 0x22],
      [8, 0, 2, 0, 0xFF, 3, 0, 0, 0, 1, 0, 0]]) := by decide +kernel

/-- C61, the whole exchange: after GET_DAQ_EVENT_INFO of a named event any uploads that
together ask for the announced number of bytes return the name.  (Without slave block mode
and address mapper; the memory hook, if any, must allow the uploads.) -/
theorem C61_event_name {cfg : Cfg} (hs : ShortOk cfg) (hc : cfg.Ok) (hsup : cfg.supports .getDaqEventInfo = true)
    (hsb : cfg.slaveBlock = false) (hup : cfg.supports .upload = true) (hmap : cfg.mapper = false)
    (env : Env) {s : St} (hr : Ready s) (hpg : s.pgm ≠ .active) (ho : TxOk cfg s) {p : Pdu} {ev : Nat}
    (hp : code p = some 0xD7) (he : Param cfg.motorola p 2 2 ev) (hlt : ev < cfg.numEvents)
    (hul : ¬ Locked cfg s RES_DAQ) {a : UInt32} {n : Nat} (hn : eventName cfg ev = some (a, n))
    (ups : List (Env × Pdu × UInt8)) (hu : ∀ u ∈ ups, ∀ m, UploadOk cfg u.1 m u.2.1 u.2.2)
    (hsum : (ups.map fun u => u.2.2.toNat).sum = n) :
    ∃ (s' : St) (f : Frame) (fs : List Frame) (len : UInt8) (chunks : List (List UInt8)),
      run cfg s ((env, .cmd p) :: ups.map fun u => (u.1, .cmd u.2.1)) = .ok s' ∧
      s'.tx = s.tx ++ f :: fs ∧ len.toNat = n ∧
      Carries cfg f [0xFF, (cfg.events ev).properties, 1, len, (cfg.events ev).cycle, (cfg.events ev).timeunit, 0] ∧
      CarriesAll cfg fs chunks ∧ chunks.flatten = bytesAt s.mem a n := by
  obtain ⟨s1, len, h1, hl, -, ⟨f, htx, hf⟩, hm, hcore⟩ := C61_event hs hsup hc.ev_lt env hr hp he hlt hul hn
  obtain ⟨s', fs, chunks, h2, htx2, hca, -, hfl, -, -⟩ := C10_upload_sequence hsb hup hmap (s := s1)
    ⟨by rw [hcore.connected]; exact hr.conn, by rw [hcore.busy]; exact hr.idle⟩ (by rw [hcore.pgm]; exact hpg)
    (step_tx hc env _ ho s1 h1).out_len ups hu
  refine ⟨s', f, fs, len, chunks, ?_, ?_, hl, hf, hca, ?_⟩
  · simp only [run, h1, ok_bind]; exact h2
  · rw [htx2, htx]; simp
  · rw [hfl, hsum, hm, hcore.mem]

/-- C61, GET_PGM_PROCESSOR_INFO: the configured properties and number of sectors. -/
theorem C61_pgmProcessorInfo {cfg : Cfg} (hs : ShortOk cfg) (hsup : cfg.supports .getPgmProcessorInfo = true) (env : Env)
    {s : St} (hr : Ready s) {p : Pdu} (hp : code p = some 0xCE) :
    ∃ (s' : St) (sectors : UInt8), step cfg env s (.cmd p) = .ok s' ∧
      Answers cfg s s' [0xFF, cfg.pgmProps, sectors] ∧ sectors.toNat = cfg.maxSectorPgm % 256 ∧ SameCore s s' := by
  refine ⟨send8 cfg (bumpReceived cfg s) [0xFF, cfg.pgmProps, UInt8.ofNat cfg.maxSectorPgm], UInt8.ofNat cfg.maxSectorPgm,
    ?_, send8_answers hs (by simp) (by simp), by simp, (bumpReceived_same cfg s).trans (send8_same ..)⟩
  rw [hr.stepc env .getPgmProcessorInfo hp hsup]; rfl

/-- C61, GET_SECTOR_INFO refuses exactly the sectors that do not exist and the modes other
than 0 (start address) and 1 (length); for the others it gives the clear and program
sequence numbers `2n` and `2n + 1` (below 128 sectors).  The sector's address or length is
missing: see `C61_sectorInfo_fails`. -/
theorem C61_sectorInfo_partial {cfg : Cfg} (hs : ShortOk cfg) (hsup : cfg.supports .getSectorInfo = true)
    (hmax : cfg.maxSectorPgm ≤ 128) (env : Env) {s : St} (hr : Ready s) {p : Pdu} {mode sector : UInt8}
    (hp : code p = some 0xCD) (hm : p.buf[1]? = some mode) (hse : p.buf[2]? = some sector) :
    ∃ s', step cfg env s (.cmd p) = .ok s' ∧
      (cfg.maxSectorPgm ≤ sector.toNat → Refused cfg s s' 0x28) ∧
      (sector.toNat < cfg.maxSectorPgm → 1 < mode.toNat → Refused cfg s s' 0x27) ∧
      (sector.toNat < cfg.maxSectorPgm → mode.toNat ≤ 1 → SameCore s s' ∧ ∃ (cl pr : UInt8) (info : List UInt8),
        Answers cfg s s' ([0xFF, cl, pr, 0] ++ info) ∧ info.length = 4 ∧ cl.toNat = 2 * sector.toNat ∧
        pr.toNat = 2 * sector.toNat + 1) := by
  have hstep : step cfg env s (.cmd p) = getSectorInfoRes cfg (bumpReceived cfg s) p := by
    rw [hr.stepc env .getSectorInfo hp hsup]; rfl
  unfold getSectorInfoRes at hstep
  rw [byte_eq hm, ok_bind, byte_eq hse, ok_bind] at hstep
  by_cases h1 : cfg.maxSectorPgm ≤ sector.toNat
  · rw [if_pos h1] at hstep
    exact ⟨_, hstep, fun _ => Refused.of_bump (refused_send8 hs _ _), fun h => by omega, fun h => by omega⟩
  rw [if_neg h1] at hstep
  have hmode : (mode ≠ 0 ∧ mode ≠ 1) ↔ 1 < mode.toNat := by
    constructor
    · intro ⟨h0, h1⟩
      have : mode.toNat ≠ 0 := fun h => h0 (UInt8.toNat_inj.mp h)
      have : mode.toNat ≠ 1 := fun h => h1 (UInt8.toNat_inj.mp h)
      omega
    · intro h
      constructor <;> intro hc <;> subst hc <;> exact absurd h (by decide)
  by_cases h2 : 1 < mode.toNat
  · rw [if_pos (hmode.mpr h2)] at hstep
    exact ⟨_, hstep, fun h => by omega, fun _ _ => Refused.of_bump (refused_send8 hs _ _), fun _ h => by omega⟩
  · rw [if_neg (fun h => h2 (hmode.mp h))] at hstep
    refine ⟨_, hstep, fun h => by omega, fun _ h => by omega, fun _ _ => ⟨(bumpReceived_same cfg s).trans (send8_same ..),
      sector * 2, sector * 2 + 1, [0, 0, 0, 0], ?_, rfl, ?_, ?_⟩⟩
    · exact send8_answers hs (by simp) (by simp)
    · simp; omega
    · simp; omega

/-- Start address and length are reported as 0 for every sector. -/
theorem C61_sectorInfo_fails {cfg : Cfg} (hs : ShortOk cfg) (hsup : cfg.supports .getSectorInfo = true) (env : Env) {s : St}
    (hr : Ready s) {p : Pdu} {mode sector : UInt8} (hp : code p = some 0xCD) (hm : p.buf[1]? = some mode)
    (hse : p.buf[2]? = some sector) (hlt : sector.toNat < cfg.maxSectorPgm) (hmo : mode = 0 ∨ mode = 1) :
    ∃ s' cl pr, step cfg env s (.cmd p) = .ok s' ∧ Answers cfg s s' [0xFF, cl, pr, 0, 0, 0, 0, 0] := by
  refine ⟨send8 cfg (bumpReceived cfg s) [0xFF, sector * 2, sector * 2 + 1, 0, 0, 0, 0, 0], sector * 2, sector * 2 + 1, ?_,
    send8_answers hs (by simp) (by simp)⟩
  rw [hr.stepc env .getSectorInfo hp hsup]
  simp only [handler, getSectorInfoRes, byte_eq hm, byte_eq hse, ok_bind, if_neg (Nat.not_le.mpr hlt)]
  rw [if_neg]
  · rfl
  · rcases hmo with h | h <;> subst h <;> simp

/-- The simulator: communication mode, DAQ processor (prescaler bit set although there is
no prescaler), resolution, event 0 (6 byte name at 0x3000, read by an upload), event 3 does
not exist; programming processor, sector 5, sector 32 does not exist. -/
example : Ex.frames Ex.sim [Ex.c [0xFF], Ex.c [0xFB], Ex.c [0xDA], Ex.c [0xD9], Ex.c [0xD7, 0, 0, 0], Ex.c [0xF5, 6],
      Ex.c [0xD7, 0, 3, 0], Ex.c [0xCE], Ex.c [0xCD, 0, 5], Ex.c [0xCD, 0, 32], Ex.c [0xCD, 2, 5]] =
    some [[8, 0, 0, 0, 0xFF, 0x15, 0x80, 64, 64, 0, 1, 1], [8, 0, 1, 0, 0xFF, 0, 0, 0, 8, 0, 0, 10],
      [8, 0, 2, 0, 0xFF, 3, 0, 0, 3, 0, 0, 0], [8, 0, 3, 0, 0xFF, 1, 63, 1, 63, 0x34, 1, 0],
      [7, 0, 4, 0, 0xFF, 0x44, 1, 6, 1, 6, 0], [7, 0, 5, 0, 0xFF, 0, 1, 2, 3, 4, 5],
      [2, 0, 6, 0, 0xFE, 0x22], [3, 0, 7, 0, 0xFF, 1, 32], [8, 0, 8, 0, 0xFF, 10, 11, 0, 0, 0, 0, 0],
      [2, 0, 9, 0, 0xFE, 0x28], [2, 0, 10, 0, 0xFE, 0x27]] := by decide +kernel

end Xcp
