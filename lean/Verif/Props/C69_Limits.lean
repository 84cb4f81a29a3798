import Verif.Proofs.Memory
import Verif.Proofs.Refuse
import Verif.Proofs.Alloc
import Verif.Proofs.Params
import Verif.Model.Example
/-
C69: requests beyond the limits are refused, and nothing else happens.

Proved for the memory commands (length, access hook), WRITE_DAQ_MULTIPLE, SET_DAQ_LIST_MODE and GET_SEED.  A refused
DOWNLOAD in master block mode also ends a block that was in progress.  False for DOWNLOAD_NEXT, whose
length is cut to the payload of a packet instead of refused, and for MODIFY_BITS, whose shift is not limited (C46).
-/
set_option autoImplicit false
namespace Xcp
open Spec

/-- Commands are executed and no programming sequence is active. -/
structure Spec.Working (s : St) : Prop where
  ready : Ready s
  pgm : s.pgm ≠ .active

/-- The access hook permits the request. -/
def Spec.Permits (cfg : Cfg) (env : Env) (m : Mta) (n : Nat) (a : Access) : Prop :=
  cfg.memCheck = true → env.memCheck m n a false = true

/-- The access hook is in use and says no. -/
def Spec.Forbids (cfg : Cfg) (env : Env) (m : Mta) (n : Nat) (a : Access) : Prop :=
  cfg.memCheck = true ∧ env.memCheck m n a false = false

theorem checkMem_stop {cfg : Cfg} {env : Env} {s : St} {m : Mta} {n : Nat} {a : Access} {k : R} (h : Forbids cfg env m n a) :
    checkMem cfg env s m n a false k = .ok (sendResult cfg s ERR_ACCESS_DENIED) := by
  unfold checkMem
  rw [if_pos (by simp [h.1, h.2])]

/-- UPLOAD of more bytes than one packet holds (no slave block mode). -/
theorem C69_upload {cfg : Cfg} (hs : ShortOk cfg) (hsb : cfg.slaveBlock = false) (hsup : cfg.supports .upload = true)
    (env : Env) {s : St} (hw : Working s) {p : Pdu} {n : UInt8} (hp : code p = some 0xF5) (hn : p.buf[1]? = some n)
    (ha : Permits cfg env s.mta n.toNat .read) (hl : cfg.maxCto - 1 < n.toNat) :
    ∃ s', step cfg env s (.cmd p) = .ok s' ∧ Refused cfg s s' 0x22 := by
  refine ⟨errorResp cfg (bumpReceived cfg s) 0x22, ?_, Refused.of_bump (refused_send8 hs _ _)⟩
  rw [hw.ready.stepc env .upload hp hsup]
  simp only [handler, uploadRes, byte_eq hn, ok_bind]
  rw [assertPgmIdle_pass (by simpa using hw.pgm), checkMem_pass (by simpa [Permits] using ha), if_pos ⟨by simp [hsb], by omega⟩]
  rfl

/-- UPLOAD that the access hook forbids. -/
theorem C69_upload_denied {cfg : Cfg} (hs : ShortOk cfg) (hsup : cfg.supports .upload = true)
    (env : Env) {s : St} (hw : Working s) {p : Pdu} {n : UInt8} (hp : code p = some 0xF5) (hn : p.buf[1]? = some n)
    (ha : Forbids cfg env s.mta n.toNat .read) :
    ∃ s', step cfg env s (.cmd p) = .ok s' ∧ Refused cfg s s' 0x24 := by
  refine ⟨errorResp cfg (bumpReceived cfg s) 0x24, ?_, Refused.of_bump (refused_send8 hs _ _)⟩
  rw [hw.ready.stepc env .upload hp hsup]
  simp only [handler, uploadRes, byte_eq hn, ok_bind]
  rw [assertPgmIdle_pass (by simpa using hw.pgm), checkMem_stop (by simpa using ha)]
  rfl

/-- SHORT_UPLOAD of more bytes than one packet holds, with or without block mode. -/
theorem C69_short_upload {cfg : Cfg} (hs : ShortOk cfg) (hsup : cfg.supports .shortUpload = true)
    (env : Env) {s : St} (hw : Working s) {p : Pdu} {n : UInt8} (hp : code p = some 0xF4) (hn : p.buf[1]? = some n)
    (ha : Permits cfg env s.mta n.toNat .read) (hl : cfg.maxCto - 1 < n.toNat) :
    ∃ s', step cfg env s (.cmd p) = .ok s' ∧ Refused cfg s s' 0x22 := by
  refine ⟨errorResp cfg (bumpReceived cfg s) 0x22, ?_, Refused.of_bump (refused_send8 hs _ _)⟩
  rw [hw.ready.stepc env .shortUpload hp hsup]
  simp only [handler, shortUploadRes, byte_eq hn, ok_bind]
  rw [assertPgmIdle_pass (by simpa using hw.pgm), checkMem_pass (by simpa [Permits] using ha), if_pos hl]
  rfl

/-- DOWNLOAD of more bytes than one packet holds (no master block mode). -/
theorem C69_download {cfg : Cfg} (hs : ShortOk cfg) (hmb : cfg.masterBlock = false) (hsup : cfg.supports .download = true)
    (env : Env) {s : St} (hw : Working s) {p : Pdu} {n : UInt8} (hp : code p = some 0xF0) (hn : p.buf[1]? = some n)
    (ha : Permits cfg env s.mta n.toNat .write) (hl : cfg.maxCto - 2 < n.toNat) :
    ∃ s', step cfg env s (.cmd p) = .ok s' ∧ Refused cfg s s' 0x22 := by
  refine ⟨errorResp cfg (bumpReceived cfg s) 0x22, ?_, Refused.of_bump (refused_send8 hs _ _)⟩
  rw [hw.ready.stepc env .download hp hsup]
  simp only [handler, downloadRes, byte_eq hn, ok_bind]
  rw [assertPgmIdle_pass (by simpa using hw.pgm), checkMem_pass (by simpa [Permits] using ha), if_neg (by simp [hmb]), if_pos (show cfg.dlPayload < n.toNat from hl)]
  rfl

/-- DOWNLOAD of more bytes than a block of MAX_BS packets holds.  A block that was in progress is ended. -/
theorem C69_download_block {cfg : Cfg} (hs : ShortOk cfg) (hmb : cfg.masterBlock = true) (hsup : cfg.supports .download = true)
    (env : Env) {s : St} (hw : Working s) {p : Pdu} {n : UInt8} (hp : code p = some 0xF0) (hn : p.buf[1]? = some n)
    (ha : Permits cfg env s.mta n.toNat .write) (hl : cfg.maxBs * (cfg.maxCto - 2) < n.toNat) :
    ∃ s', step cfg env s (.cmd p) = .ok s' ∧ Answers cfg s s' [0xFE, 0x22] ∧
      SameCore { s with masterBlk := { s.masterBlk with active := false } } s' := by
  have hlt := n.toNat_lt
  have hb := bumpReceived_same cfg s
  refine ⟨errorResp cfg { bumpReceived cfg s with masterBlk := { (bumpReceived cfg s).masterBlk with active := false } } 0x22, ?_,
    send8_answers hs (by simp) (bumpReceived_tx cfg s), ?_⟩
  · rw [hw.ready.stepc env .download hp hsup]
    simp only [handler, downloadRes, byte_eq hn, ok_bind]
    rw [assertPgmIdle_pass (by simpa using hw.pgm), checkMem_pass (by simpa [Permits] using ha), if_pos hmb,
      if_pos (show cfg.maxBs * cfg.dlPayload % 65536 < n.toNat from Nat.lt_of_le_of_lt (Nat.mod_le ..) hl)]
    rfl
  · refine SameCore.trans ?_ (send8_same ..)
    exact ⟨hb.connected, hb.busy, hb.daq, hb.pgm, hb.resProt, hb.seedReq, hb.mta, hb.slaveBlk, by rw [hb.masterBlk], hb.ck, hb.mem⟩

/-- DOWNLOAD that the access hook forbids. -/
theorem C69_download_denied {cfg : Cfg} (hs : ShortOk cfg) (hsup : cfg.supports .download = true)
    (env : Env) {s : St} (hw : Working s) {p : Pdu} {n : UInt8} (hp : code p = some 0xF0) (hn : p.buf[1]? = some n)
    (ha : Forbids cfg env s.mta n.toNat .write) :
    ∃ s', step cfg env s (.cmd p) = .ok s' ∧ Refused cfg s s' 0x24 := by
  refine ⟨errorResp cfg (bumpReceived cfg s) 0x24, ?_, Refused.of_bump (refused_send8 hs _ _)⟩
  rw [hw.ready.stepc env .download hp hsup]
  simp only [handler, downloadRes, byte_eq hn, ok_bind]
  rw [assertPgmIdle_pass (by simpa using hw.pgm), checkMem_stop (by simpa using ha)]
  rfl

/-- SHORT_DOWNLOAD of more bytes than fit behind its parameters. -/
theorem C69_short_download {cfg : Cfg} (hs : ShortOk cfg) (hsup : cfg.supports .shortDownload = true)
    (env : Env) {s : St} (hw : Working s) {p : Pdu} {n ext : UInt8} {addr : Nat} (hp : code p = some 0xED) (hn : p.buf[1]? = some n)
    (hx : p.buf[3]? = some ext) (had : Param cfg.motorola p 4 4 addr) (haok : cfg.wrapv = true ∨ addr < 2 ^ 31)
    (ha : Permits cfg env ⟨ext, UInt32.ofNat addr⟩ n.toNat .write) (hl : cfg.maxCto - 8 < n.toNat) :
    ∃ s', step cfg env s (.cmd p) = .ok s' ∧ Refused cfg s s' 0x22 := by
  refine ⟨errorResp cfg (bumpReceived cfg s) 0x22, ?_, Refused.of_bump (refused_send8 hs _ _)⟩
  rw [hw.ready.stepc env .shortDownload hp hsup]
  simp only [handler, shortDownloadRes, byte_eq hn, byte_eq hx, had.dword haok, ok_bind]
  rw [assertPgmIdle_pass (by simpa using hw.pgm), checkMem_pass (by simpa [Permits] using ha), if_pos hl]
  rfl

/-- SHORT_DOWNLOAD that the access hook forbids: it is asked about the address in the packet. -/
theorem C69_short_download_denied {cfg : Cfg} (hs : ShortOk cfg) (hsup : cfg.supports .shortDownload = true)
    (env : Env) {s : St} (hw : Working s) {p : Pdu} {n ext : UInt8} {addr : Nat} (hp : code p = some 0xED) (hn : p.buf[1]? = some n)
    (hx : p.buf[3]? = some ext) (had : Param cfg.motorola p 4 4 addr) (haok : cfg.wrapv = true ∨ addr < 2 ^ 31)
    (ha : Forbids cfg env ⟨ext, UInt32.ofNat addr⟩ n.toNat .write) :
    ∃ s', step cfg env s (.cmd p) = .ok s' ∧ Refused cfg s s' 0x24 := by
  refine ⟨errorResp cfg (bumpReceived cfg s) 0x24, ?_, Refused.of_bump (refused_send8 hs _ _)⟩
  rw [hw.ready.stepc env .shortDownload hp hsup]
  simp only [handler, shortDownloadRes, byte_eq hn, byte_eq hx, had.dword haok, ok_bind]
  rw [assertPgmIdle_pass (by simpa using hw.pgm), checkMem_stop ha]
  rfl

/-- WRITE_DAQ_MULTIPLE with more elements than fit the packet: refused in every state of programming, protection and
acquisition. -/
theorem C69_write_multiple {cfg : Cfg} (hs : ShortOk cfg) (hsup : cfg.supports .writeDaqMultiple = true)
    (env : Env) {s : St} (hr : Ready s) {p : Pdu} {n : UInt8} (hp : code p = some 0xC7) (hn : p.buf[1]? = some n)
    (hl : cfg.maxCto < 2 + 8 * n.toNat) :
    ∃ s', step cfg env s (.cmd p) = .ok s' ∧ Refused cfg s s' 0x22 := by
  refine ⟨sendResult cfg (bumpReceived cfg s) 0x22, ?_, Refused.of_bump (refused_send8 hs _ _)⟩
  rw [hr.stepc env .writeDaqMultiple hp hsup]
  simp only [handler, writeDaqMultipleRes, byte_eq hn, ok_bind]
  rw [if_pos (by omega)]
  rfl

/-- SET_DAQ_LIST_MODE with a mode that is not supported (direction STIM, alternating display) or a prescaler above 1. -/
theorem C69_mode {cfg : Cfg} (hs : ShortOk cfg) (hsup : cfg.supports .setDaqListMode = true)
    (env : Env) {s : St} (hd : DaqReady cfg s) (hrun : s.daq.running = false) {p : Pdu} {m pre pri : UInt8} {l e : Nat}
    (hp : code p = some 0xE0) (h1 : p.buf[1]? = some m) (h2 : Param cfg.motorola p 2 2 l) (h4 : Param cfg.motorola p 4 2 e)
    (h6 : p.buf[6]? = some pre) (h7 : p.buf[7]? = some pri)
    (hbad : m.toNat.testBit 1 = true ∨ m.toNat.testBit 0 = true ∨ 1 < pre) :
    ∃ s', step cfg env s (.cmd p) = .ok s' ∧
      Refused cfg s s' (if m.toNat.testBit 1 || m.toNat.testBit 0 then 0x21 else 0x22) := by
  have hb := hd.bump
  have hbit : ∀ m : UInt8, (m &&& MODE_DIRECTION = MODE_DIRECTION ↔ m.toNat.testBit 1 = true) ∧
      (m &&& MODE_ALTERNATING = MODE_ALTERNATING ↔ m.toNat.testBit 0 = true) := forall_u8 (by decide +kernel)
  rw [hd.ready.stepc env .setDaqListMode hp hsup]
  simp only [handler, setDaqListModeRes, byte_eq h1, h2.word, h4.word, byte_eq h6, byte_eq h7, ok_bind, assertDaqStopped,
    assertPgmIdle, assertUnlocked]
  rw [if_neg (by simp [hrun]), if_neg hb.pgm, if_neg hb.notProtected]
  by_cases hd1 : m.toNat.testBit 1 = true
  · rw [if_pos ((hbit m).1.mpr hd1)]
    exact ⟨_, rfl, by rw [if_pos (by simp [hd1])]; exact Refused.of_bump (refused_send8 hs _ _)⟩
  · rw [if_neg (mt (hbit m).1.mp hd1)]
    by_cases hd0 : m.toNat.testBit 0 = true
    · rw [if_pos ((hbit m).2.mpr hd0)]
      exact ⟨_, rfl, by rw [if_pos (by simp [hd0])]; exact Refused.of_bump (refused_send8 hs _ _)⟩
    · rw [if_neg (mt (hbit m).2.mp hd0), if_pos (by simpa [hd1, hd0] using hbad)]
      exact ⟨_, rfl, by rw [if_neg (by simp [hd1, hd0])]; exact Refused.of_bump (refused_send8 hs _ _)⟩

/-- A resource the slave has: calibration/paging, DAQ, stimulation, programming. -/
def Spec.hasResource (cfg : Cfg) (r : UInt8) : Prop :=
  r = 0x01 ∧ (cfg.cal = true ∨ cfg.pag = true) ∨ r = 0x04 ∧ cfg.daq = true ∨ r = 0x08 ∧ cfg.stim = true ∨ r = 0x10 ∧ cfg.pgm = true

/-- GET_SEED for something that is not exactly one resource of the slave: refused, and no seed is outstanding for it. -/
theorem C69_seed {cfg : Cfg} (hs : ShortOk cfg) (hsup : cfg.supports .getSeed = true)
    (env : Env) {s : St} (hw : Working s) {p : Pdu} {m r : UInt8} (hp : code p = some 0xF8) (hm : p.buf[1]? = some m)
    (hn : p.buf[2]? = some r) (hl : ¬ hasResource cfg r) :
    ∃ s', step cfg env s (.cmd p) = .ok s' ∧ Refused cfg s s' 0x22 := by
  refine ⟨errorResp cfg (bumpReceived cfg s) 0x22, ?_, Refused.of_bump (refused_send8 hs _ _)⟩
  have hso : seedResourceOk cfg r = false := by
    cases h : seedResourceOk cfg r with
    | false => rfl
    | true =>
      exfalso
      apply hl
      simp only [seedResourceOk, RES_PGM, RES_STIM, RES_DAQ, RES_CAL_PAG, Bool.or_eq_true, Bool.and_eq_true, beq_iff_eq] at h
      unfold hasResource
      rcases h with ((h | h) | h) | h
      · exact Or.inr (Or.inr (Or.inr h))
      · exact Or.inr (Or.inr (Or.inl h))
      · exact Or.inr (Or.inl h)
      · exact Or.inl h
  rw [hw.ready.stepc env .getSeed hp hsup]
  simp only [handler, getSeedRes, byte_eq hm, byte_eq hn, ok_bind]
  rw [assertPgmIdle_pass (by simpa using hw.pgm), if_pos (by simp [hso])]
  rfl

/-- START_STOP_DAQ_LIST of an existing list with an unknown mode. -/
theorem C69_start_stop {cfg : Cfg} (hs : ShortOk cfg) (hsup : cfg.supports .startStopDaqList = true)
    (env : Env) {s : St} (hd : DaqReady cfg s) {p : Pdu} {m : UInt8} {l : Nat}
    (hp : code p = some 0xDE) (h1 : p.buf[1]? = some m) (h2 : Param cfg.motorola p 2 2 l) (hl : l < s.daq.listCount)
    (h256 : l < 256) (hm : 2 < m) :
    ∃ s', step cfg env s (.cmd p) = .ok s' ∧ Refused cfg s s' 0x22 := by
  have hb := hd.bump
  refine ⟨errorResp cfg (bumpReceived cfg s) 0x22, ?_, Refused.of_bump (refused_send8 hs _ _)⟩
  rw [hd.ready.stepc env .startStopDaqList hp hsup]
  simp only [handler, startStopDaqListRes, byte_eq h1, h2.word, ok_bind, assertPgmIdle, assertUnlocked]
  rw [if_neg hb.pgm, if_neg hb.notProtected, if_neg (by rw [(bumpReceived_same cfg s).daq, Nat.mod_eq_of_lt h256]; omega)]
  unfold startStopDaqListBody
  rw [if_neg, if_neg, if_neg]
  · rfl
  all_goals rintro rfl; exact absurd hm (by decide)

/-- MODIFY_BITS that the access hook forbids. -/
theorem C69_modify_denied {cfg : Cfg} (hs : ShortOk cfg) (hsup : cfg.supports .modifyBits = true)
    (env : Env) {s : St} (hr : Ready s) {p : Pdu} {n : UInt8} {a x : Nat} (hp : code p = some 0xEC) (hn : p.buf[1]? = some n)
    (h2 : Param cfg.motorola p 2 2 a) (h4 : Param cfg.motorola p 4 2 x) (ha : Forbids cfg env s.mta 2 .write) :
    ∃ s', step cfg env s (.cmd p) = .ok s' ∧ Refused cfg s s' 0x24 := by
  refine ⟨errorResp cfg (bumpReceived cfg s) 0x24, ?_, Refused.of_bump (refused_send8 hs _ _)⟩
  rw [hr.stepc env .modifyBits hp hsup]
  simp only [handler, modifyBitsRes, byte_eq hn, h2.word, h4.word, ok_bind]
  rw [checkMem_stop (by simpa using ha)]
  rfl

/-- BUILD_CHECKSUM that the access hook forbids. -/
theorem C69_checksum_denied {cfg : Cfg} (hs : ShortOk cfg) (hsup : cfg.supports .buildChecksum = true)
    (env : Env) {s : St} (hw : Working s) {p : Pdu} {n : Nat} (hp : code p = some 0xF3)
    (hn : Param cfg.motorola p 4 4 n) (hno : cfg.wrapv = true ∨ n < 2 ^ 31) (hlt : n < 2 ^ 32)
    (ha : Forbids cfg env s.mta n .read) :
    ∃ s', step cfg env s (.cmd p) = .ok s' ∧ Refused cfg s s' 0x24 := by
  refine ⟨errorResp cfg (bumpReceived cfg s) 0x24, ?_, Refused.of_bump (refused_send8 hs _ _)⟩
  rw [hw.ready.stepc env .buildChecksum hp hsup]
  simp only [handler, buildChecksumRes, hn.dword hno, ok_bind]
  rw [assertPgmIdle_pass (by simpa using hw.pgm), checkMem_stop]
  · rfl
  · rw [show (UInt32.ofNat n).toNat = n from Nat.mod_eq_of_lt hlt]
    simpa using ha

/-- BUILD_CHECKSUM of more than MAXIMUM_BLOCK_SIZE bytes: the answer names the limit, and nothing else happens. -/
theorem C69_checksum_block {cfg : Cfg} (hs : ShortOk cfg) (hsup : cfg.supports .buildChecksum = true)
    (env : Env) {s : St} (hw : Working s) {p : Pdu} {n : Nat} (hp : code p = some 0xF3)
    (hn : Param cfg.motorola p 4 4 n) (hno : cfg.wrapv = true ∨ n < 2 ^ 31) (hlt : n < 2 ^ 32)
    (ha : Permits cfg env s.mta n .read) (h0 : 0 < cfg.maxBlock) (hl : cfg.maxBlock < n) :
    ∃ s', step cfg env s (.cmd p) = .ok s' ∧ SameCore s s' ∧
      Answers cfg s s' ([0xFE, 0x22, 0, 0] ++ (List.range 4).map fun i => UInt8.ofNat (cfg.maxBlock / 256 ^ i)) := by
  refine ⟨send8 cfg (bumpReceived cfg s) ([0xFE, 0x22, 0, 0] ++ leBytes 4 cfg.maxBlock), ?_,
    (bumpReceived_same cfg s).trans (send8_same ..), ?_⟩
  · rw [hw.ready.stepc env .buildChecksum hp hsup]
    simp only [handler, buildChecksumRes, hn.dword hno, ok_bind]
    have hv : (UInt32.ofNat n).toNat = n := Nat.mod_eq_of_lt hlt
    rw [assertPgmIdle_pass (by simpa using hw.pgm), checkMem_pass (by simpa [Permits, hv] using ha), if_pos ⟨h0, by rw [hv]; exact hl⟩]
    rfl
  · exact send8_answers hs (by simp [leBytes]) (bumpReceived_tx cfg s)

/-- False for DOWNLOAD_NEXT: a first packet announces 70 bytes (62 of them in it), and a DOWNLOAD_NEXT that claims 200 more
is executed, with the 62 bytes that a packet holds. -/
theorem C69_fails_next :
    Ex.obs { Ex.sec with protCal := false, memCheck := false }
      [Ex.c [0xFF], Ex.c [0xF6, 0, 0, 0, 0, 0x10, 0, 0], Ex.c [0xF0, 70, 1], Ex.c [0xEF, 200, 7]]
      (fun s => (s.mem 0x103E, s.mta.addr, s.masterBlk.remaining)) = some (7, 0x107C, 202) := by decide +kernel

example : Ex.frames Ex.sim [Ex.c [0xFF], Ex.c [0xF5, 64], Ex.c [0xF5, 63]] =
    some [[8, 0, 0, 0, 0xFF, 0x15, 0x80, 64, 64, 0, 1, 1], [2, 0, 1, 0, 0xFE, 0x22],
      [64, 0, 2, 0, 0xFF] ++ (List.range 63).map UInt8.ofNat] := by decide +kernel
example : Ex.frames Ex.can [Ex.c [0xFF], Ex.c [0xF4, 8, 0, 0, 0, 0, 0, 0], Ex.c [0xF0, 7, 1, 2, 3, 4, 5, 6], Ex.c [0xED, 1, 0, 0, 0, 0, 0, 0]] =
    some [[0xFF, 0x15, 0xC0, 8, 8, 0, 1, 1], [0xFE, 0x22], [0xFE, 0x22], [0xFE, 0x22]] := by decide +kernel
/-- With a hook that permits 0x1000..0x10FF only: UPLOAD and BUILD_CHECKSUM inside, then outside. -/
example : Ex.frames { Ex.sim with memCheck := true }
    ([[0xFF], [0xF6, 0, 0, 0, 0, 0x10, 0, 0], [0xF5, 2], [0xF6, 0, 0, 0, 0xFF, 0x10, 0, 0], [0xF5, 2],
      [0xF3, 0, 0, 0, 2, 0, 0, 0]].map fun b =>
      ({ Ex.env with memCheck := fun m n _ _ => decide (0x1000 ≤ m.addr.toNat ∧ m.addr.toNat + n ≤ 0x1100) }, .cmd (Ex.pkt b))) =
    some [[8, 0, 0, 0, 0xFF, 0x15, 0x80, 64, 64, 0, 1, 1], [1, 0, 1, 0, 0xFF], [3, 0, 2, 0, 0xFF, 0, 1], [1, 0, 3, 0, 0xFF],
      [2, 0, 4, 0, 0xFE, 0x24], [2, 0, 5, 0, 0xFE, 0x24]] := by decide +kernel
/-- A checksum over more than the maximum block. -/
example : Ex.frames { Ex.sim with maxBlock := 0x1234 } [Ex.c [0xFF], Ex.c [0xF3, 0, 0, 0, 0x35, 0x12, 0, 0]] =
    some [[8, 0, 0, 0, 0xFF, 0x15, 0x80, 64, 64, 0, 1, 1], [8, 0, 1, 0, 0xFE, 0x22, 0, 0, 0x34, 0x12, 0, 0]] := by decide +kernel
/-- One list; STIM direction, alternating, prescaler 2, and start-stop mode 3 are refused. -/
example : Ex.frames Ex.sim [Ex.c [0xFF], Ex.c [0xD6], Ex.c [0xD5, 0, 1, 0], Ex.c [0xE0, 2, 0, 0, 0, 0, 1, 0], Ex.c [0xE0, 1, 0, 0, 0, 0, 1, 0],
      Ex.c [0xE0, 0, 0, 0, 0, 0, 2, 0], Ex.c [0xDE, 3, 0, 0]] =
    some [[8, 0, 0, 0, 0xFF, 0x15, 0x80, 64, 64, 0, 1, 1], [1, 0, 1, 0, 0xFF], [1, 0, 2, 0, 0xFF], [2, 0, 3, 0, 0xFE, 0x21],
      [2, 0, 4, 0, 0xFE, 0x21], [2, 0, 5, 0, 0xFE, 0x22], [2, 0, 6, 0, 0xFE, 0x22]] := by decide +kernel
/-- A seed for DAQ, none for DAQ and calibration together. -/
example : Ex.frames Ex.sec [Ex.c [0xFF], Ex.c [0xF8, 0, 0x04], Ex.c [0xF8, 0, 0x05]] =
    some [[8, 0, 0, 0, 0xFF, 0x15, 0x80, 64, 64, 0, 1, 1], [6, 0, 1, 0, 0xFF, 4, 1, 2, 3, 4], [2, 0, 2, 0, 0xFE, 0x22]] := by
  decide +kernel

end Xcp
