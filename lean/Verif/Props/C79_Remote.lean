import Verif.Spec.Remote
import Verif.Props.C11_BlockUpload
import Verif.Props.C14_Short
import Verif.Props.C46_ModifyBits
import Verif.Props.C55_GetId
import Verif.Proofs.Ck
/-
C79: for a tool the slave is a remote memory.
-/
set_option autoImplicit false
namespace Xcp
open Spec

/-- The description fits the configuration, and the hook functions of the application. -/
structure Spec.Describes (k : About) (cfg : Cfg) (envs : List Env) : Prop where
  maxCto : k.maxCto = cfg.maxCto
  maxDto : k.maxDto = cfg.maxDto
  cal : k.cal = cfg.cal
  daq : k.daq = cfg.daq
  pgm : k.pgm = cfg.pgm
  granularity : k.granularity = cfg.granularity
  commModeInfo : k.commModeInfo = cfg.on .getCommModeInfo
  offers : ∀ c, k.offers c = cfg.supports c
  noHook : cfg.memCheck = false → ∀ e a n w, k.allows e a n w = true
  hook : cfg.memCheck = true → ∀ env ∈ envs, ∀ e a n w,
    env.memCheck ⟨e, a⟩ n (if w then .write else .read) false = k.allows e a n w
  id : ∀ f, (if f then cfg.id1 else cfg.id0) = (k.idAddr f, k.idLen f)
  masterBlock : k.masterBlock = cfg.masterBlock
  commLimits : k.commLimits = (UInt8.ofNat cfg.maxBs, cfg.minSt, cfg.queueSizeInfo, 10)
  method : k.method = cfg.ckMethod
  maxBlock : k.maxBlock = cfg.maxBlock
  slaveBlock : k.slaveBlock = cfg.slaveBlock

/-- Builds for which the slave is faithful: Intel byte order, no address mapper, one packet of data allowed for a DOWNLOAD, a
granularity code of the standard.  (Each of these is a restriction because of a deviation: C05, C43.) -/
structure Spec.Faithful (cfg : Cfg) : Prop where
  ok : cfg.Ok
  short : ShortOk cfg
  intel : cfg.motorola = false
  noMap : cfg.mapper = false
  maxBs : cfg.masterBlock = true → cfg.maxCto - 2 ≤ cfg.maxBs * (cfg.maxCto - 2) % 65536
  gran : cfg.granularity = 0 ∨ cfg.granularity = 2 ∨ cfg.granularity = 4 ∨ cfg.granularity = 6

/-- Such builds without resource protection (with it see C96). -/
structure Spec.Plain (cfg : Cfg) : Prop extends Faithful cfg where
  noProt : cfg.resourceProtection = false

/-- Requests a tool may send: transfers of at least one byte, data that fits in one packet, commands that are not offered, and
(because of deviations of the slave) addresses and sizes below 2^31 unless signed arithmetic wraps (C45), no writing to
address 0 in builds with assertions, no SHORT_UPLOAD and DOWNLOAD_MAX with a memory hook (C15, C16), requests that use the
address only when it is known (C14, C44), UPLOAD of one packet (for more, with slave block mode, see C98), MODIFY_BITS only to clear
bits and to toggle bits that are set (C46), checksums that are not computed in the background (C43), no CRC-32 (C41). -/
def Spec.Legal (cfg : Cfg) (r : Remote) : Req → Prop
  | .connect _ | .getStatus | .synch | .getId _ | .getCommModeInfo => True
  | .setMta _ addr => cfg.wrapv = true ∨ addr.toNat < 2 ^ 31
  | .upload n => 0 < n.toNat ∧ r.known = true ∧ (cfg.slaveBlock = true → n.toNat < cfg.maxCto)
  | .shortUpload n _ addr => 0 < n.toNat ∧ (cfg.wrapv = true ∨ addr.toNat < 2 ^ 31) ∧ cfg.memCheck = false
  | .download data => 0 < data.length ∧ data.length ≤ cfg.maxCto - 2 ∧ (cfg.asserts = true → r.addr ≠ 0) ∧ r.known = true
  | .downloadMax data => data.length = cfg.maxCto - 1 ∧ (cfg.asserts = true → r.addr ≠ 0) ∧ cfg.memCheck = false ∧ r.known = true
  | .shortDownload _ addr data => 0 < data.length ∧ data.length + 8 ≤ cfg.maxCto ∧ (cfg.asserts = true → addr ≠ 0) ∧
      (cfg.wrapv = true ∨ addr.toNat < 2 ^ 31)
  | .modifyBits s ma mx => s.toNat < 32 ∧ (cfg.wrapv = true ∨ (~~~ma).toNat * 2 ^ s.toNat < 2 ^ 31 ∧ mx.toNat * 2 ^ s.toNat < 2 ^ 31) ∧
      wordAt r.mem r.addr &&& (mx.zeroExtend 32 <<< s.toNat) = mx.zeroExtend 32 <<< s.toNat ∧ r.known = true
  | .buildChecksum n => (cfg.wrapv = true ∨ n.toNat < 2 ^ 31) ∧ (cfg.chunked = false ∨ n.toNat ≤ cfg.chunkSize) ∧
      cfg.ckMethod ≠ .crc32 ∧ r.known = true
  | .other c => cfg.supports c = false

/-- All requests of a history are legal. -/
def Spec.AllLegal (cfg : Cfg) (k : About) : Remote → List Happening → Prop
  | _, [] => True
  | r, h :: hs => (∀ q, h = .request q → Legal cfg r q) ∧ AllLegal cfg k (r.after k h) hs

/-- The operation of the slave.  A request arrives in a buffer with whatever remains of earlier ones behind it. -/
def Spec.Happening.op (len : Nat) (behind : List UInt8) : Happening → Op
  | .request q => .cmd ⟨len, q.bytes ++ behind⟩
  | .write a b => .appWrite a b
  | .main => .main
  | .event ev => .trigger ev

/-- What surrounds a happening: the answers of hook functions and timer, the received length and the old contents of the
receive buffer. -/
structure Spec.Around where
  env : Env
  len : Nat
  behind : List UInt8

/-- The history of the slave. -/
def Spec.ops (hs : List (Around × Happening)) : List (Env × Op) := hs.map fun x => (x.1.env, x.2.op x.1.len x.1.behind)

/-- The packets sent carry the given contents, in order. -/
def Spec.CarryAll (cfg : Cfg) : List Frame → List (List UInt8) → Prop
  | [], [] => True
  | f :: fs, c :: cs => Carries cfg f c ∧ CarryAll cfg fs cs
  | _, _ => False

/-- The state of the slave corresponds to the remote memory, with DAQ state `d`. -/
structure Mirrors (cfg : Cfg) (d : Daq) (s : St) (r : Remote) : Prop where
  ready : Ready s
  pgm : s.pgm ≠ .active
  out : s.ctoOut.length = cfg.maxCto
  ck : s.ck.state = .idle
  blk : s.slaveBlk.active = false
  daq : s.daq = d
  mem : s.mem = r.mem
  mta : r.known = true → s.mta = ⟨r.ext, r.addr⟩

/-- The state of the slave corresponds to the remote memory, and nothing is measured. -/
structure Tracks (cfg : Cfg) (s : St) (r : Remote) : Prop where
  ready : Ready s
  pgm : s.pgm ≠ .active
  out : s.ctoOut.length = cfg.maxCto
  ck : s.ck.state = .idle
  blk : s.slaveBlk.active = false
  stopped : s.daq.running = false
  mem : s.mem = r.mem
  mta : r.known = true → s.mta = ⟨r.ext, r.addr⟩

theorem Tracks.mirrors {cfg : Cfg} {s : St} {r : Remote} (h : Tracks cfg s r) : Mirrors cfg s.daq s r :=
  ⟨h.ready, h.pgm, h.out, h.ck, h.blk, rfl, h.mem, h.mta⟩

theorem Mirrors.tracks {cfg : Cfg} {d : Daq} {s : St} {r : Remote} (h : Mirrors cfg d s r) (hd : d.running = false) : Tracks cfg s r :=
  ⟨h.ready, h.pgm, h.out, h.ck, h.blk, by rw [h.daq]; exact hd, h.mem, h.mta⟩

theorem send8_ctoOut_length {cfg : Cfg} {s : St} {bs : List UInt8} (h : s.ctoOut.length = cfg.maxCto) (hb : bs.length ≤ cfg.maxCto) :
    (send8 cfg s bs).ctoOut.length = cfg.maxCto := by
  show (if _ ≤ 8 then overlay s.ctoOut _ else s.ctoOut).length = _
  split <;> split
  · apply overlay_length h; simp; omega
  · exact h
  · apply overlay_length h; simp; omega
  · exact h

theorem Mirrors.send8 {cfg : Cfg} {d : Daq} {s : St} {r : Remote} {bs : List UInt8} (h : Mirrors cfg d s r) (hb : bs.length ≤ cfg.maxCto) :
    Mirrors cfg d (send8 cfg s bs) r :=
  ⟨⟨h.ready.conn, h.ready.idle⟩, h.pgm, send8_ctoOut_length h.out hb, h.ck, h.blk, h.daq, h.mem, h.mta⟩

theorem Mirrors.sendRaw {cfg : Cfg} {d : Daq} {s : St} {r : Remote} {bs : List UInt8} (h : Mirrors cfg d s r) (hb : bs.length ≤ cfg.maxCto) :
    Mirrors cfg d (sendRaw cfg s bs) r :=
  ⟨⟨h.ready.conn, h.ready.idle⟩, h.pgm, sendRaw_ctoOut_length hb h.out, h.ck, h.blk, h.daq, h.mem, h.mta⟩

theorem Mirrors.bump {cfg : Cfg} {d : Daq} {s : St} {r : Remote} (h : Mirrors cfg d s r) : Mirrors cfg d (bumpReceived cfg s) r :=
  ⟨⟨by simpa using h.ready.conn, by simpa using h.ready.idle⟩, by simpa using h.pgm, by simpa using h.out, by simpa using h.ck, by simpa using h.blk,
    by simpa using h.daq, by simpa using h.mem, by simpa using h.mta⟩

theorem supports_mandatory {cfg : Cfg} : cfg.supports .connect = true ∧ cfg.supports .getStatus = true ∧ cfg.supports .synch = true := by
  simp [Cfg.supports, Cmd.group, Cmd.mandatory]

theorem remote_code (q : Req) (len : Nat) (b : List UInt8) : code ⟨len, q.bytes ++ b⟩ = some (cmdCode q.cmd) := by
  cases q <;> rfl

/-- A request that is switched off. -/
theorem request_off {cfg : Cfg} (hp : Faithful cfg) (env : Env) {d : Daq} {s : St} {r : Remote} (ht : Mirrors cfg d s r) {q : Req} (len : Nat)
    (b : List UInt8) (hoff : cfg.supports q.cmd = false) :
    ∃ s', step cfg env s (.cmd ⟨len, q.bytes ++ b⟩) = .ok s' ∧ Answers cfg s s' [0xFE, 0x20] ∧ Mirrors cfg d s' r := by
  have h8 := hp.ok.cto_lo
  refine ⟨Xcp.send8 cfg (bumpReceived cfg s) [0xFE, 0x20], ?_, send8_answers hp.short (by simp) (by simp), ht.bump.send8 (by simp; omega)⟩
  rw [step_cmd env ht.ready.conn ht.ready.idle (remote_code q len b) (table_code q.cmd)]
  simp only [tableEntry, hoff]
  rfl

theorem wordAt_value (m : Mem) (a : UInt32) : bytesAt m a 4 = enc false 4 (wordAt m a).toNat := by
  have h : ∀ b0 b1 b2 b3 : UInt8, [b0, b1, b2, b3] = enc false 4 (BitVec.ofNat 32 (leVal [b0, b1, b2, b3])).toNat := by
    intro b0 b1 b2 b3
    have h0 := b0.toNat_lt
    have h1 := b1.toNat_lt
    have h2 := b2.toNat_lt
    have h3 := b3.toNat_lt
    rw [enc_four, BitVec.toNat_ofNat]
    simp only [leVal, Bool.false_eq_true, if_false, List.cons.injEq, and_true, ← UInt8.toNat_inj, UInt8.toNat_ofNat']
    omega
  exact h ..

theorem modifyBits_eq {cfg : Cfg} (hsup : cfg.supports .modifyBits = true) (env : Env) {s : St}
    (hr : Ready s) {p : Pdu} {A : BitVec 32} {MA MX : BitVec 16} {S : UInt8} (hp : ModifyOk cfg env s p A MA MX S)
    (hS : S.toNat < 32) (hA : cfg.wrapv = true ∨ (~~~MA).toNat * 2 ^ S.toNat < 2 ^ 31)
    (hX : cfg.wrapv = true ∨ MX.toNat * 2 ^ S.toNat < 2 ^ 31) :
    step cfg env s (.cmd p) = .ok (positive cfg { bumpReceived cfg s with
      mem := s.mem.write s.mta.addr (enc false 4 (codeModify A MA MX S.toNat).toNat) }) := by
  have hsame := bumpReceived_same cfg s
  rw [hr.step env hp.code (c := .modifyBits) rfl hsup]
  generalize bumpReceived cfg s = b at *
  simp only [handler, modifyBitsRes, byte_eq hp.shift, hp.and.word, hp.xor.word, ok_bind]
  rw [checkMem_pass (by rw [hsame.mta]; exact hp.allowed), not_toNat, shlInt_eq _ hS hA, shlInt_eq _ hS hX]
  simp only [ok_bind, pure_eq_ok, hsame.mem, hsame.mta]
  rw [load32_eq A.isLt hp.value]
  have e : ((UInt32.ofNat A.toNat) &&& (~~~(⟨(~~~MA).zeroExtend 32 <<< S.toNat⟩ : UInt32) ^^^
      ⟨MX.zeroExtend 32 <<< S.toNat⟩)).toNat = (codeModify A MA MX S.toNat).toNat := by
    rw [← UInt32.toNat_toBitVec]
    congr 1
    simp [codeModify]
  unfold Mem.store32
  rw [e]
  rfl

theorem checksumOf_value {m : CkMethod} (h : m ≠ .crc32) : ∃ f, checksumOf m = some (m.code, f) ∧
    ∀ block, calcChecksum m block 0 true = f block := by
  have add : ∀ {m k j}, addSizes m = some (k, j) → ∀ block, calcChecksum m block 0 true = sumOf k j block := by
    intro m k j h block
    rw [calc_add h block 0 true (Nat.pow_pos (by omega))]
    simp [sumOf]
  cases m
  case crc32 => exact absurd rfl h
  case crc16 => exact ⟨_, rfl, fun block => calc_arc block 0⟩
  case crc16citt => exact ⟨_, rfl, fun block => calc_citt block 0⟩
  all_goals exact ⟨_, rfl, add rfl⟩

/-- UPLOAD of one packet, with and without block mode. -/
theorem upload_one {cfg : Cfg} {env : Env} {s : St} {n : Nat} (hbz : s.busy = false) (hblk : s.slaveBlk.active = false) (h0 : n ≠ 0)
    (hn : n + 1 ≤ cfg.maxCto) :
    ∃ x : St, x = { s with slaveBlk := x.slaveBlk } ∧ x.slaveBlk.active = false ∧
      upload cfg env s n = .ok (sendRaw cfg { x with mta := x.mta.advance n } (0xFF :: bytesAt s.mem (mapped cfg env s.mta) n)) := by
  cases hsb : cfg.slaveBlock with
  | false =>
    refine ⟨s, rfl, hblk, ?_⟩
    unfold upload
    rw [if_neg (by simp [hsb]), copyGuard_pos h0, sendBytes_ok (by simp only [List.length_cons, read_eq, bytesAt_length]; omega), read_eq]
  | true =>
    refine ⟨{ s with slaveBlk := ⟨false, 0⟩ }, rfl, rfl, ?_⟩
    unfold upload uploadSingleBlock
    rw [if_pos hsb, if_neg (by simp [setSlaveActive]), if_pos (by simp only [setSlaveActive]; omega)]
    rw [show (setSlaveActive { s with slaveBlk := { s.slaveBlk with remaining := n } } true).slaveBlk.remaining = n from rfl, uploadFrame_eq h0 hn]
    simp [setSlaveActive, hbz]

/-- A request that is offered. -/
theorem request_on {cfg : Cfg} (hp : Faithful cfg) {k : About} {envs : List Env} (hd : Describes k cfg envs) {env : Env} (he : env ∈ envs)
    {d : Daq} {s : St} {r : Remote} (ht : Mirrors cfg d s r) {q : Req} (len : Nat) (b : List UInt8) (hon : cfg.supports q.cmd = true) (hl : Legal cfg r q)
    (hst : q = .getStatus → cfg.resourceProtection = false) :
    ∃ s', step cfg env s (.cmd ⟨len, q.bytes ++ b⟩) = .ok s' ∧ Answers cfg s s' (r.answer k q) ∧ Mirrors cfg d s' (r.next k q) := by
  have h8 := hp.ok.cto_lo
  have h9 := hp.ok.cto_hi
  have hoff : k.offers q.cmd = true := by rw [hd.offers, hon]
  have hstep := ht.ready.stepc env q.cmd (remote_code q len b) hon
  rw [hstep]
  have hall : r.known = true → ∀ n w, cfg.memCheck = true → env.memCheck s.mta n (if w then .write else .read) false = k.allows r.ext r.addr n w :=
    fun hk n w hm => by rw [ht.mta hk]; exact hd.hook hm env he _ _ _ _
  cases q with
  | connect mode =>
    simp only [Remote.answer, Remote.next, hoff, Bool.true_eq_false, if_false]
    have hp1 : connectResource cfg = (if k.cal then 1 else 0) + (if k.daq then 4 else 0) + (if k.pgm then 16 else 0) := by
      unfold connectResource
      rw [hd.cal, hd.daq, hd.pgm, hp.ok.noPag, hp.ok.noStim]
      cases cfg.cal <;> cases cfg.daq <;> cases cfg.pgm <;> rfl
    have hp2 : commModeBasic cfg = k.granularity + (if k.slaveBlock then 0x40 else 0) + (if k.commModeInfo then 0x80 else 0) := by
      unfold commModeBasic
      rw [hp.intel, hd.slaveBlock, hd.granularity, hd.commModeInfo]
      rcases hp.gran with h | h | h | h <;> rw [h] <;> cases cfg.on .getCommModeInfo <;> cases cfg.slaveBlock <;> rfl
    refine ⟨_, rfl, ?_, ?_⟩
    · rw [hp1, hp2, leBytes_enc, ← hd.maxCto, ← hd.maxDto]
      exact send8_answers hp.short (by simp [enc]) (by simp)
    · have h := ht.bump
      exact Mirrors.send8 ⟨⟨rfl, h.ready.idle⟩, h.pgm, h.out, h.ck, h.blk, h.daq, h.mem, h.mta⟩ (by simp [leBytes_length]; omega)
  | getStatus =>
    simp only [Remote.answer, Remote.next, hoff, Bool.true_eq_false, if_false]
    refine ⟨_, rfl, ?_, ht.bump.send8 (by simp; omega)⟩
    rw [if_neg (by rw [hst rfl]; simp)]
    exact send8_answers hp.short (by simp) (by simp)
  | synch =>
    simp only [Remote.answer, Remote.next, hoff, Bool.true_eq_false, if_false]
    exact ⟨_, rfl, send8_answers hp.short (by simp) (by simp), ht.bump.send8 (by simp; omega)⟩
  | getId f =>
    simp only [Remote.answer, Remote.next, hoff, Bool.true_eq_false, if_false]
    have hid := hd.id f
    have hlook : getIdLookup cfg env (if f then 1 else 0) = some (k.idAddr f, k.idLen f) := by
      cases f <;> simp [getIdLookup] at hid ⊢ <;> exact hid
    refine ⟨Xcp.send8 cfg { bumpReceived cfg s with mta := ⟨0, k.idAddr f⟩ } ([0xFF, 0, 0, 0] ++ leBytes 4 (k.idLen f)), ?_, ?_, ?_⟩
    · simp only [Req.cmd, handler, getIdRes, byte_eq (p := ⟨len, (Req.getId f).bytes ++ b⟩) (i := 1) rfl, ok_bind, hlook]
      rfl
    · rw [leBytes_enc]
      exact send8_answers hp.short (by simp [enc]) (by simp)
    · have h := ht.bump
      exact Mirrors.send8 ⟨⟨h.ready.conn, h.ready.idle⟩, h.pgm, h.out, h.ck, h.blk, h.daq, h.mem, fun _ => rfl⟩ (by simp [leBytes_length]; omega)
  | setMta ext addr =>
    simp only [Remote.answer, Remote.next, hoff, Bool.true_eq_false, if_false]
    have ha : Param cfg.motorola ⟨len, (Req.setMta ext addr).bytes ++ b⟩ 4 4 addr.toNat := by
      rw [hp.intel]
      exact ⟨addr.toNat_lt, rfl⟩
    refine ⟨positive cfg { bumpReceived cfg s with mta := ⟨ext, addr⟩ }, ?_, send8_answers hp.short (by simp) (by simp), ?_⟩
    · simp [Req.cmd, handler, setMtaRes, byte_eq (p := ⟨len, (Req.setMta ext addr).bytes ++ b⟩) (i := 3) rfl, ha.dword hl]
    · have h := ht.bump
      exact Mirrors.send8 ⟨⟨h.ready.conn, h.ready.idle⟩, h.pgm, h.out, h.ck, h.blk, h.daq, h.mem, fun _ => rfl⟩ (by simp; omega)
  | upload n =>
    obtain ⟨h0, hk, hsb⟩ := hl
    simp only [Req.cmd, handler, uploadRes, byte_eq (p := ⟨len, (Req.upload n).bytes ++ b⟩) (i := 1) (b := n) rfl, ok_bind]
    rw [assertPgmIdle_pass ht.bump.pgm]
    by_cases hal : k.allows r.ext r.addr n.toNat false = true
    · have hmem : checkMem cfg env (bumpReceived cfg s) (bumpReceived cfg s).mta n.toNat .read false = id := by
        funext x
        apply checkMem_pass
        intro hm
        rw [show (bumpReceived cfg s).mta = s.mta by simp]
        have := hall hk n.toNat false hm
        simp only [Bool.false_eq_true, if_false] at this
        rw [this, hal]
      rw [hmem, id]
      by_cases hn : n.toNat < k.maxCto
      · have ea : r.answer k (.upload n) = 0xFF :: bytesAt r.mem r.addr n.toNat := by simp [Remote.answer, hoff, hal, hn]
        have en : r.next k (.upload n) = { r with addr := r.addr + UInt32.ofNat n.toNat } := by simp [Remote.next, hoff, hal, hn]
        rw [ea, en]
        rw [hd.maxCto] at hn
        rw [if_neg (by omega)]
        have h := ht.bump
        obtain ⟨x, hx, hxb, hu⟩ := upload_one (cfg := cfg) (env := env) h.ready.idle h.blk (n := n.toNat) (by omega) (by omega)
        rw [hu]
        refine ⟨_, rfl, ?_, ?_⟩
        · have e : mapped cfg env (bumpReceived cfg s).mta = r.addr := by simp [mapped, hp.noMap, ht.mta hk]
          rw [e, h.mem]
          exact sendRaw_answers (by simp [bytesAt_length]; omega) (by rw [hx]; exact h.out) (by rw [hx]; simp)
        · refine Mirrors.sendRaw ⟨⟨by rw [hx]; exact h.ready.conn, by rw [hx]; exact h.ready.idle⟩, by rw [hx]; exact h.pgm, by rw [hx]; exact h.out,
            by rw [hx]; exact h.ck, hxb, by rw [hx]; exact h.daq, by rw [hx]; exact h.mem, fun _ => ?_⟩
            (by simp only [List.length_cons, bytesAt_length]; omega)
          have : x.mta = (bumpReceived cfg s).mta := by rw [hx]
          simp [this, ht.mta hk, Mta.advance]
      · have ea : r.answer k (.upload n) = [0xFE, 0x22] := by simp [Remote.answer, hoff, hal, hn]
        have en : r.next k (.upload n) = r := by simp [Remote.next, hoff, hn]
        rw [ea, en]
        rw [hd.maxCto] at hn
        rw [if_pos ⟨fun hb => by have := hsb hb; omega, by omega⟩]
        exact ⟨_, rfl, send8_answers hp.short (by simp) (by simp), ht.bump.send8 (by simp; omega)⟩
    · have hm : cfg.memCheck = true := by
        cases hm : cfg.memCheck with
        | true => rfl
        | false => exact absurd (hd.noHook hm _ _ _ _) hal
      have hden : env.memCheck (bumpReceived cfg s).mta n.toNat .read false = false := by
        rw [show (bumpReceived cfg s).mta = s.mta by simp]
        have := hall hk n.toNat false hm
        simp only [Bool.false_eq_true, if_false] at this
        rw [this]
        simpa using hal
      have ea : r.answer k (.upload n) = [0xFE, 0x24] := by simp [Remote.answer, hoff, hal]
      have en : r.next k (.upload n) = r := by simp [Remote.next, hoff, hal]
      rw [ea, en, checkMem, hm, hden, if_pos (by simp)]
      exact ⟨_, rfl, send8_answers hp.short (by simp) (by simp), ht.bump.send8 (by simp; omega)⟩
  | shortUpload n ext addr =>
    obtain ⟨h0, hw, hm⟩ := hl
    have ha : Param cfg.motorola ⟨len, (Req.shortUpload n ext addr).bytes ++ b⟩ 4 4 addr.toNat := by
      rw [hp.intel]
      exact ⟨addr.toNat_lt, rfl⟩
    simp only [Req.cmd, handler, shortUploadRes, byte_eq (p := ⟨len, (Req.shortUpload n ext addr).bytes ++ b⟩) (i := 1) (b := n) rfl, ok_bind]
    rw [assertPgmIdle_pass ht.bump.pgm, checkMem_pass (by simp [hm])]
    by_cases hn : n.toNat < k.maxCto
    · have ea : r.answer k (.shortUpload n ext addr) = 0xFF :: bytesAt r.mem addr n.toNat := by simp [Remote.answer, hoff, hn]
      have en : r.next k (.shortUpload n ext addr) = { r with ext, addr := addr + UInt32.ofNat n.toNat, known := true } := by
        simp [Remote.next, hoff, hn]
      rw [ea, en]
      rw [hd.maxCto] at hn
      rw [if_neg (by omega)]
      simp only [byte_eq (p := ⟨len, (Req.shortUpload n ext addr).bytes ++ b⟩) (i := 3) (b := ext) rfl, ok_bind, ha.dword hw]
      have h := ht.bump
      obtain ⟨x, hx, hxb, hu⟩ := upload_one (cfg := cfg) (env := env) (s := { bumpReceived cfg s with mta := ⟨ext, UInt32.ofNat addr.toNat⟩ }) h.ready.idle h.blk
        (n := n.toNat) (by omega) (by omega)
      rw [hu]
      refine ⟨_, rfl, ?_, ?_⟩
      · simp only [mapped, hp.noMap, ht.bump.mem, UInt32.ofNat_toNat, Bool.false_eq_true, if_false]
        exact sendRaw_answers (by simp [bytesAt_length]; omega) (by rw [hx]; exact h.out) (by rw [hx]; simp)
      · refine Mirrors.sendRaw ⟨⟨by rw [hx]; exact h.ready.conn, by rw [hx]; exact h.ready.idle⟩, by rw [hx]; exact h.pgm, by rw [hx]; exact h.out,
          by rw [hx]; exact h.ck, hxb, by rw [hx]; exact h.daq, by rw [hx]; exact h.mem, fun _ => ?_⟩
          (by simp only [List.length_cons, bytesAt_length]; omega)
        have : x.mta = ⟨ext, UInt32.ofNat addr.toNat⟩ := by rw [hx]
        simp [this, Mta.advance]
    · have ea : r.answer k (.shortUpload n ext addr) = [0xFE, 0x22] := by simp [Remote.answer, hoff, hn]
      have en : r.next k (.shortUpload n ext addr) = r := by simp [Remote.next, hoff, hn]
      rw [ea, en]
      rw [hd.maxCto] at hn
      rw [if_pos (by omega)]
      exact ⟨_, rfl, send8_answers hp.short (by simp) (by simp), ht.bump.send8 (by simp; omega)⟩
  | download data =>
    obtain ⟨h0, hfit, hn, hk⟩ := hl
    by_cases hal : k.allows r.ext r.addr data.length true = true
    · have ea : r.answer k (.download data) = [0xFF] := by simp [Remote.answer, hoff, hal]
      have en : r.next k (.download data) = { r with mem := stored r.mem r.addr data, addr := r.addr + UInt32.ofNat data.length } := by
        simp [Remote.next, hoff, hal]
      rw [ea, en, ← hstep]
      have hok : DownloadOk cfg env s.mta ⟨len, (Req.download data).bytes ++ b⟩ data :=
        ⟨rfl, rfl, h0, hfit, ⟨b, rfl⟩, fun hm => by have := hall hk data.length true hm; simpa [hal] using this,
          fun ha => by simpa [mapped, hp.noMap, ht.mta hk] using hn ha⟩
      have hcal : cfg.cal = true := by
        cases hc : cfg.cal with
        | true => rfl
        | false => simp [Req.cmd, Cfg.supports, Cmd.group, hc] at hon
      refine ⟨_, download_eq h9 hcal hp.maxBs ht.ready ht.pgm hok, send8_answers hp.short (by simp) (by simp), ?_⟩
      have h := ht.bump
      refine Mirrors.send8 ⟨⟨h.ready.conn, h.ready.idle⟩, h.pgm, h.out, h.ck, h.blk, h.daq, ?_, ?_⟩ (by simp; omega)
      · simp only [mapped, hp.noMap, ht.mta hk, ht.mem]; rfl
      · simp [Mta.advance, ht.mta hk]
    · have hm : cfg.memCheck = true := by
        cases hm : cfg.memCheck with
        | true => rfl
        | false => exact absurd (hd.noHook hm _ _ _ _) hal
      have hlen : (UInt8.ofNat data.length).toNat = data.length := by simp; omega
      have hden : env.memCheck (bumpReceived cfg s).mta data.length .write false = false := by
        rw [show (bumpReceived cfg s).mta = s.mta by simp]
        have := hall hk data.length true hm
        simp only [if_true] at this
        rw [this]
        simpa using hal
      simp only [Req.cmd, handler, downloadRes,
        byte_eq (p := ⟨len, (Req.download data).bytes ++ b⟩) (i := 1) (b := UInt8.ofNat data.length) rfl, ok_bind, hlen]
      have ea : r.answer k (.download data) = [0xFE, 0x24] := by simp [Remote.answer, hoff, hal]
      have en : r.next k (.download data) = r := by simp [Remote.next, hoff, hal]
      rw [assertPgmIdle_pass ht.bump.pgm, ea, en, checkMem, hm, hden, if_pos (by simp)]
      exact ⟨_, rfl, send8_answers hp.short (by simp) (by simp), ht.bump.send8 (by simp; omega)⟩
  | downloadMax data =>
    simp only [Remote.answer, Remote.next, hoff, Bool.true_eq_false, if_false]
    obtain ⟨hlen, hn, hm, hk⟩ := hl
    have hdp : cfg.dlPayload + 1 = data.length := by unfold Cfg.dlPayload; omega
    have e : mapped cfg env (bumpReceived cfg s).mta = r.addr := by simp [mapped, hp.noMap, ht.mta hk]
    simp only [Req.cmd, handler, downloadMaxRes]
    rw [assertPgmIdle_pass ht.bump.pgm, hdp,
      downloadCopy_ok (rest := b) (by omega) (show List.drop 1 ((Req.downloadMax data).bytes ++ b) = data ++ b from rfl)
        (by rw [e]; exact hn), ok_bind]
    refine ⟨_, rfl, send8_answers hp.short (by simp) (by simp), ?_⟩
    have h := ht.bump
    refine Mirrors.send8 ⟨⟨h.ready.conn, h.ready.idle⟩, h.pgm, h.out, h.ck, h.blk, h.daq, ?_, ?_⟩ (by simp; omega)
    · rw [e, h.mem]; rfl
    · simp [Mta.advance, ht.mta hk]
  | getCommModeInfo =>
    simp only [Remote.answer, Remote.next, hoff, Bool.true_eq_false, if_false]
    refine ⟨_, rfl, ?_, ht.bump.send8 (by simp; omega)⟩
    rw [hd.masterBlock, hd.commLimits]
    exact send8_answers hp.short (by simp) (by simp)
  | shortDownload ext addr data =>
    obtain ⟨h0, hfit, hn, hw⟩ := hl
    have ha : Param cfg.motorola ⟨len, (Req.shortDownload ext addr data).bytes ++ b⟩ 4 4 addr.toNat := by
      rw [hp.intel]
      exact ⟨addr.toNat_lt, rfl⟩
    have hlen : (UInt8.ofNat data.length).toNat = data.length := by simp; omega
    by_cases hal : k.allows ext addr data.length true = true
    · have ea : r.answer k (.shortDownload ext addr data) = [0xFF] := by simp [Remote.answer, hoff, hal]
      have en : r.next k (.shortDownload ext addr data) =
          { mem := stored r.mem addr data, ext, addr := addr + UInt32.ofNat data.length, known := false } := by
        simp [Remote.next, hoff, hal]
      rw [ea, en, ← hstep]
      have hpk : ShortPkt cfg ⟨len, (Req.shortDownload ext addr data).bytes ++ b⟩ 0xED data.length ext addr.toNat :=
        ⟨rfl, rfl, h0, rfl, ha, hw⟩
      have hm : cfg.memCheck = true → env.memCheck ⟨ext, UInt32.ofNat addr.toNat⟩ data.length .write false = true := by
        intro hm
        have := hd.hook hm env he ext addr data.length true
        rw [UInt32.ofNat_toNat]
        simpa [hal] using this
      have hnn : cfg.asserts = true → mapped cfg env ⟨ext, UInt32.ofNat addr.toNat⟩ ≠ 0 := by
        intro h
        simpa [mapped, hp.noMap, UInt32.ofNat_toNat] using hn h
      have hdr : ((Req.shortDownload ext addr data).bytes ++ b).drop 8 = data ++ b := by
        simp only [Req.bytes, enc_four]
        rfl
      refine ⟨_, shortDownload_eq hp.ok hon env ht.ready ht.pgm hpk hdr (by omega) hm hnn,
        send8_answers hp.short (by simp) (by simp), ?_⟩
      have h := ht.bump
      refine Mirrors.send8 ⟨⟨h.ready.conn, h.ready.idle⟩, h.pgm, h.out, h.ck, h.blk, h.daq, ?_, fun hf => ?_⟩ (by simp; omega)
      · simp only [mapped, hp.noMap, ht.mem, UInt32.ofNat_toNat]; rfl
      · cases hf
    · have hm : cfg.memCheck = true := by
        cases hm : cfg.memCheck with
        | true => rfl
        | false => exact absurd (hd.noHook hm _ _ _ _) hal
      have hden : env.memCheck ⟨ext, addr⟩ data.length .write false = false := by
        have := hd.hook hm env he ext addr data.length true
        simp only [if_true] at this
        rw [this]
        simpa using hal
      have ea : r.answer k (.shortDownload ext addr data) = [0xFE, 0x24] := by simp [Remote.answer, hoff, hal]
      have en : r.next k (.shortDownload ext addr data) = r := by simp [Remote.next, hoff, hal]
      rw [ea, en]
      simp only [Req.cmd, handler, shortDownloadRes,
        byte_eq (p := ⟨len, (Req.shortDownload ext addr data).bytes ++ b⟩) (i := 1) (b := UInt8.ofNat data.length) rfl, ok_bind, hlen,
        byte_eq (p := ⟨len, (Req.shortDownload ext addr data).bytes ++ b⟩) (i := 3) (b := ext) rfl, ha.dword hw, UInt32.ofNat_toNat]
      rw [assertPgmIdle_pass ht.bump.pgm, checkMem, hm, hden, if_pos (by simp)]
      exact ⟨_, rfl, send8_answers hp.short (by simp) (by simp), ht.bump.send8 (by simp; omega)⟩
  | modifyBits sh ma mx =>
    obtain ⟨h0, hov, hset, hk⟩ := hl
    have hand : Param cfg.motorola ⟨len, (Req.modifyBits sh ma mx).bytes ++ b⟩ 2 2 ma.toNat := by
      rw [hp.intel]
      exact ⟨ma.isLt, rfl⟩
    have hxor : Param cfg.motorola ⟨len, (Req.modifyBits sh ma mx).bytes ++ b⟩ 4 2 mx.toNat := by
      rw [hp.intel]
      exact ⟨mx.isLt, rfl⟩
    by_cases hal : k.allows r.ext r.addr 2 true = true
    · have ea : r.answer k (.modifyBits sh ma mx) = [0xFF] := by simp [Remote.answer, hoff, hal]
      have en : r.next k (.modifyBits sh ma mx) =
          { r with mem := stored r.mem r.addr (enc false 4 (stdModify (wordAt r.mem r.addr) ma mx sh.toNat).toNat) } := by
        simp [Remote.next, hoff, hal]
      rw [ea, en, ← hstep]
      have hok : ModifyOk cfg env s ⟨len, (Req.modifyBits sh ma mx).bytes ++ b⟩ (wordAt r.mem r.addr) ma mx sh :=
        ⟨rfl, rfl, hand, hxor, fun hm => by have := hall hk 2 true hm; simpa [hal] using this,
          by rw [ht.mta hk, ht.mem]; exact wordAt_value ..⟩
      refine ⟨_, modifyBits_eq hon env ht.ready hok h0 (hov.imp_right And.left) (hov.imp_right And.right),
        send8_answers hp.short (by simp) (by simp), ?_⟩
      have h := ht.bump
      refine Mirrors.send8 ⟨⟨h.ready.conn, h.ready.idle⟩, h.pgm, h.out, h.ck, h.blk, h.daq, ?_, h.mta⟩ (by simp; omega)
      rw [(modify_iff ..).mpr hset, ht.mta hk, ht.mem]
      rfl
    · have hm : cfg.memCheck = true := by
        cases hm : cfg.memCheck with
        | true => rfl
        | false => exact absurd (hd.noHook hm _ _ _ _) hal
      have hden : env.memCheck (bumpReceived cfg s).mta 2 .write false = false := by
        rw [show (bumpReceived cfg s).mta = s.mta by simp]
        have := hall hk 2 true hm
        simp only [if_true] at this
        rw [this]
        simpa using hal
      have ea : r.answer k (.modifyBits sh ma mx) = [0xFE, 0x24] := by simp [Remote.answer, hoff, hal]
      have en : r.next k (.modifyBits sh ma mx) = r := by simp [Remote.next, hoff, hal]
      rw [ea, en]
      simp only [Req.cmd, handler, modifyBitsRes, byte_eq (p := ⟨len, (Req.modifyBits sh ma mx).bytes ++ b⟩) (i := 1) (b := sh) rfl,
        hand.word, hxor.word, ok_bind]
      rw [checkMem, hm, hden, if_pos (by simp)]
      exact ⟨_, rfl, send8_answers hp.short (by simp) (by simp), ht.bump.send8 (by simp; omega)⟩
  | buildChecksum n =>
    obtain ⟨hw, hdir, hck, hk⟩ := hl
    have ha : Param cfg.motorola ⟨len, (Req.buildChecksum n).bytes ++ b⟩ 4 4 n.toNat := by
      rw [hp.intel]
      exact ⟨n.toNat_lt, rfl⟩
    by_cases hal : k.allows r.ext r.addr n.toNat false = true
    · have hm : cfg.memCheck = true → env.memCheck s.mta n.toNat .read false = true := by
        intro hm
        have := hall hk n.toNat false hm
        simpa [hal] using this
      by_cases hmax : k.maxBlock = 0 ∨ n.toNat ≤ k.maxBlock
      · obtain ⟨f, hf1, hf2⟩ := checksumOf_value hck
        have ea : r.answer k (.buildChecksum n) = [0xFF, cfg.ckMethod.code, 0, 0] ++ enc false 4 (f (bytesAt r.mem r.addr n.toNat)) := by
          simp [Remote.answer, hoff, hal, hmax, hd.method, hf1]
        have en : r.next k (.buildChecksum n) = { r with addr := r.addr + n, known := false } := by
          simp [Remote.next, hoff, hal, hmax]
        rw [ea, en, ← hstep]
        rw [hd.maxBlock] at hmax
        refine ⟨_, (buildChecksum_eq hon env ht.ready ht.pgm ⟨rfl, ha, hw, hmax, hm⟩).trans (if_neg ?_), ?_, ?_⟩
        · rintro ⟨h1, h2⟩; rcases hdir with hdir | hdir
          · simp [hdir] at h1
          · omega
        · rw [hf2, ht.mem, ht.mta hk]
          unfold checksumResponse
          rw [leBytes_enc]
          exact send8_answers hp.short (by simp [enc]) (by simp)
        · have h := ht.bump
          exact Mirrors.send8 ⟨⟨h.ready.conn, h.ready.idle⟩, h.pgm, h.out, h.ck, h.blk, h.daq, h.mem, fun hf => by cases hf⟩
            (by simp [leBytes_length]; omega)
      · have ea : r.answer k (.buildChecksum n) = [0xFE, 0x22, 0, 0] ++ enc false 4 cfg.maxBlock := by
          rw [← hd.maxBlock]; simp [Remote.answer, hoff, hal, hmax]
        have en : r.next k (.buildChecksum n) = r := by simp [Remote.next, hoff, hal, hmax]
        rw [ea, en]
        rw [hd.maxBlock] at hmax
        simp only [Req.cmd, handler, buildChecksumRes, ha.dword hw, ok_bind, UInt32.ofNat_toNat]
        rw [assertPgmIdle_pass ht.bump.pgm, checkMem_pass (by simpa using hm), if_pos (by omega)]
        exact ⟨_, rfl, by rw [leBytes_enc]; exact send8_answers hp.short (by simp [enc]) (by simp),
          ht.bump.send8 (by simp [leBytes_length]; omega)⟩
    · have hm : cfg.memCheck = true := by
        cases hm : cfg.memCheck with
        | true => rfl
        | false => exact absurd (hd.noHook hm _ _ _ _) hal
      have hden : env.memCheck (bumpReceived cfg s).mta n.toNat .read false = false := by
        rw [show (bumpReceived cfg s).mta = s.mta by simp]
        have := hall hk n.toNat false hm
        simp only [Bool.false_eq_true, if_false] at this
        rw [this]
        simpa using hal
      have ea : r.answer k (.buildChecksum n) = [0xFE, 0x24] := by simp [Remote.answer, hoff, hal]
      have en : r.next k (.buildChecksum n) = r := by simp [Remote.next, hoff, hal]
      rw [ea, en]
      simp only [Req.cmd, handler, buildChecksumRes, ha.dword hw, ok_bind, UInt32.ofNat_toNat]
      rw [assertPgmIdle_pass ht.bump.pgm, checkMem, hm, hden, if_pos (by simp)]
      exact ⟨_, rfl, send8_answers hp.short (by simp) (by simp), ht.bump.send8 (by simp; omega)⟩
  | other c => exact absurd (hon.symm.trans hl) (by simp)

/-- One happening; the DAQ state remains. -/
theorem happening_mirrors {cfg : Cfg} (hp : Plain cfg) {k : About} {envs : List Env} (hd : Describes k cfg envs) {a : Around} (he : a.env ∈ envs)
    {d : Daq} (hstop : d.running = false) {s : St} {r : Remote} (ht : Mirrors cfg d s r) {h : Happening} (hl : ∀ q, h = .request q → Legal cfg r q) :
    ∃ s', step cfg a.env s (h.op a.len a.behind) = .ok s' ∧ Mirrors cfg d s' (r.after k h) ∧
      match h with
      | .request q => Answers cfg s s' (r.answer k q)
      | _ => s'.tx = s.tx := by
  cases h with
  | request q =>
    cases hon : cfg.supports q.cmd with
    | true =>
      obtain ⟨s', h1, h2, h3⟩ := request_on hp.toFaithful hd he ht a.len a.behind hon (hl q rfl) (fun _ => hp.noProt)
      exact ⟨s', h1, h3, h2⟩
    | false =>
      obtain ⟨s', h1, h2, h3⟩ := request_off hp.toFaithful a.env ht a.len a.behind hon
      have hoff : k.offers q.cmd = false := by rw [hd.offers, hon]
      refine ⟨s', h1, ?_, ?_⟩
      · simpa [Remote.after, Remote.next, hoff] using h3
      · simpa [Remote.answer, hoff] using h2
  | write x b => exact ⟨_, rfl, ⟨⟨ht.ready.conn, ht.ready.idle⟩, ht.pgm, ht.out, ht.ck, ht.blk, ht.daq, by simp only [ht.mem]; rfl, ht.mta⟩, rfl⟩
  | main =>
    refine ⟨s, ?_, ht, rfl⟩
    have hck : checksumMain cfg s = s := by unfold checksumMain; rw [ht.ck]
    simp [Happening.op, step, mainFunction, mainUpload, uploadSingleBlock, ht.blk, mainChecksum, hck]
  | event ev =>
    refine ⟨s, ?_, ht, rfl⟩
    simp [Happening.op, step, triggerEvent, ht.daq, hstop]

/-- One happening. -/
theorem happening_step {cfg : Cfg} (hp : Plain cfg) {k : About} {envs : List Env} (hd : Describes k cfg envs) {a : Around} (he : a.env ∈ envs)
    {s : St} {r : Remote} (ht : Tracks cfg s r) {h : Happening} (hl : ∀ q, h = .request q → Legal cfg r q) :
    ∃ s', step cfg a.env s (h.op a.len a.behind) = .ok s' ∧ Tracks cfg s' (r.after k h) ∧
      match h with
      | .request q => Answers cfg s s' (r.answer k q)
      | _ => s'.tx = s.tx := by
  obtain ⟨s', h1, h2, h3⟩ := happening_mirrors hp hd he ht.stopped ht.mirrors hl
  exact ⟨s', h1, h2.tracks ht.stopped, h3⟩

theorem CarryAll.append {cfg : Cfg} {fs gs : List Frame} {cs ds : List (List UInt8)} (h : CarryAll cfg fs cs) (h' : CarryAll cfg gs ds) :
    CarryAll cfg (fs ++ gs) (cs ++ ds) := by
  induction fs generalizing cs with
  | nil => cases cs with
    | nil => exact h'
    | cons => exact h.elim
  | cons f fs ih => cases cs with
    | nil => exact h.elim
    | cons c cs => exact ⟨h.1, ih h.2⟩

/-- Whole histories, from a connected state; the DAQ state remains. -/
theorem remote_mirrors {cfg : Cfg} (hp : Plain cfg) {k : About} {hs : List (Around × Happening)} : ∀ {d : Daq} {s : St} {r : Remote},
    d.running = false → Describes k cfg (hs.map (·.1.env)) → Mirrors cfg d s r → AllLegal cfg k r (hs.map (·.2)) →
    ∃ s' fs, run cfg s (ops hs) = .ok s' ∧ s'.tx = s.tx ++ fs ∧ CarryAll cfg fs (r.answers k (hs.map (·.2))) ∧
      Mirrors cfg d s' (r.final k (hs.map (·.2))) := by
  induction hs with
  | nil => intro _ s r _ _ ht _; exact ⟨s, [], rfl, by simp, trivial, ht⟩
  | cons x hs ih =>
    intro d s r hst hd ht hl
    obtain ⟨s1, h1, h2, h3⟩ := happening_mirrors hp hd (a := x.1) (List.mem_cons_self ..) hst ht hl.1
    have hd' : Describes k cfg (hs.map (·.1.env)) := { hd with hook := fun hm env he => hd.hook hm env (List.mem_cons_of_mem _ he) }
    obtain ⟨s', fs, h4, h5, h6, h7⟩ := ih hst hd' h2 hl.2
    have hrun : run cfg s (ops (x :: hs)) = .ok s' := by
      simp only [ops, List.map_cons, run, h1, ok_bind]
      exact h4
    obtain ⟨a, h⟩ := x
    cases h with
    | request q =>
      obtain ⟨f, hf, hc⟩ := h3
      exact ⟨s', f :: fs, hrun, by rw [h5, hf]; simp, ⟨hc, h6⟩, h7⟩
    | write y b => exact ⟨s', fs, hrun, by rw [h5, h3], h6, h7⟩
    | main => exact ⟨s', fs, hrun, by rw [h5, h3], h6, h7⟩
    | event ev => exact ⟨s', fs, hrun, by rw [h5, h3], h6, h7⟩

/-- Whole histories, from a connected state. -/
theorem remote_run {cfg : Cfg} (hp : Plain cfg) {k : About} {hs : List (Around × Happening)} {s : St} {r : Remote}
    (hd : Describes k cfg (hs.map (·.1.env))) (ht : Tracks cfg s r) (hl : AllLegal cfg k r (hs.map (·.2))) :
    ∃ s' fs, run cfg s (ops hs) = .ok s' ∧ s'.tx = s.tx ++ fs ∧ CarryAll cfg fs (r.answers k (hs.map (·.2))) ∧
      Tracks cfg s' (r.final k (hs.map (·.2))) := by
  obtain ⟨s', fs, h1, h2, h3, h4⟩ := remote_mirrors hp ht.stopped hd ht.mirrors hl
  exact ⟨s', fs, h1, h2, h3, h4.tracks ht.stopped⟩

/-- A CONNECT after start-up. -/
theorem remote_connect {cfg : Cfg} (hp : Plain cfg) {k : About} {envs : List Env} (hd : Describes k cfg envs) {env : Env} (he : env ∈ envs)
    (mem : Mem) (mode : UInt8) (len : Nat) (b : List UInt8) :
    ∃ s', step cfg env (St.init cfg mem) (.cmd ⟨len, (Req.connect mode).bytes ++ b⟩) = .ok s' ∧
      Answers cfg (St.init cfg mem) s' (Remote.answer k ⟨mem, 0, 0, true⟩ (.connect mode)) ∧ Tracks cfg s' ⟨mem, 0, 0, true⟩ := by
  have ht : Tracks cfg { St.init cfg mem with connected := true } ⟨mem, 0, 0, true⟩ :=
    ⟨⟨rfl, rfl⟩, by simp [St.init], by simp [St.init], rfl, rfl, rfl, rfl, fun _ => rfl⟩
  have hon : cfg.supports (Req.connect mode).cmd = true := supports_mandatory.1
  obtain ⟨s', h1, h2, h3⟩ := request_on hp.toFaithful hd he ht.mirrors (q := .connect mode) len b hon trivial (fun h => by cases h)
  have hnext : Remote.next k ⟨mem, 0, 0, true⟩ (.connect mode) = ⟨mem, 0, 0, true⟩ := by simp [Remote.next]
  rw [hnext] at h3
  refine ⟨s', ?_, h2, h3.tracks rfl⟩
  rw [← h1]
  rw [step_cmd (s := { St.init cfg mem with connected := true }) env rfl rfl (remote_code (.connect mode) len b) (table_code _)]
  have hcode := byte_of_code (remote_code (.connect mode) len b)
  simp only [step, dispatch, hcode, ok_bind, tableEntry, hon, if_true]
  simp only [handler, Req.cmd, cmdCode, connectRes, bumpReceived, St.init]
  cases cfg.statistics <;> rfl

/-- C79: after start-up and a CONNECT, in every history of requests, writes by the application, main function calls and
events, the slave never fails, answers every request exactly like the remote memory, sends nothing else,
and its memory is that of the remote memory. -/
theorem C79_remote_memory {cfg : Cfg} (hp : Plain cfg) {k : About} {a : Around} {mode : UInt8} {hs : List (Around × Happening)}
    (hd : Describes k cfg (a.env :: hs.map (·.1.env))) {mem : Mem} (hl : AllLegal cfg k ⟨mem, 0, 0, true⟩ (hs.map (·.2))) :
    ∃ s, run cfg (St.init cfg mem) (ops ((a, .request (.connect mode)) :: hs)) = .ok s ∧
      CarryAll cfg s.tx (Remote.answers k ⟨mem, 0, 0, true⟩ (.request (.connect mode) :: hs.map (·.2))) ∧
      s.mem = (Remote.final k ⟨mem, 0, 0, true⟩ (hs.map (·.2))).mem := by
  obtain ⟨s1, h1, ⟨f, hf, hc⟩, h3⟩ := remote_connect hp hd (List.mem_cons_self ..) mem mode a.len a.behind
  have hd' : Describes k cfg (hs.map (·.1.env)) := { hd with hook := fun hm env he => hd.hook hm env (List.mem_cons_of_mem _ he) }
  obtain ⟨s', fs, h4, h5, h6, h7⟩ := remote_run hp hd' h3 hl
  refine ⟨s', ?_, ?_, h7.mem⟩
  · simp only [ops, List.map_cons, run, Happening.op, h1, ok_bind]
    exact h4
  · rw [h5, hf]
    have hnext : Remote.next k ⟨mem, 0, 0, true⟩ (.connect mode) = ⟨mem, 0, 0, true⟩ := by simp [Remote.next]
    show CarryAll cfg (([] ++ [f]) ++ fs) (_ :: Remote.answers k (Remote.next k ⟨mem, 0, 0, true⟩ (.connect mode)) _)
    rw [hnext]
    exact ⟨hc, h6⟩

theorem carryAll_get {cfg : Cfg} : ∀ {fs : List Frame} {as : List (List UInt8)}, CarryAll cfg fs as →
    fs.length = as.length ∧ ∀ (i : Nat) f a, fs[i]? = some f → as[i]? = some a → Carries cfg f a
  | [], [], _ => ⟨rfl, fun i f a h => by simp at h⟩
  | [], _ :: _, h => h.elim
  | _ :: _, [], h => h.elim
  | f :: fs, a :: as, h => by
    obtain ⟨h1, h2⟩ := h
    obtain ⟨h3, h4⟩ := carryAll_get h2
    refine ⟨by simp [h3], fun i f' a' hf ha => ?_⟩
    cases i with
    | zero => simp at hf ha; subst hf ha; exact h1
    | succ i => simp at hf ha; exact h4 i f' a' hf ha

/-- Packets with the contents of requests, as happenings. -/
theorem packets_ops : ∀ (ps : List (Env × Pdu)) (qs : List Req), (ps.map fun p => p.2.buf.take p.2.len) = qs.map Req.bytes →
    ∃ hs : List (Around × Happening), ops hs = ps.map (fun p => (p.1, .cmd p.2)) ∧ hs.map (·.2) = qs.map .request ∧
      hs.map (·.1.env) = ps.map Prod.fst
  | [], [], _ => ⟨[], rfl, rfl, rfl⟩
  | [], _ :: _, h => by simp at h
  | _ :: _, [], h => by simp at h
  | p :: ps, q :: qs, h => by
    simp only [List.map_cons, List.cons.injEq] at h
    obtain ⟨hs, h1, h2, h3⟩ := packets_ops ps qs h.2
    refine ⟨(⟨p.1, p.2.len, p.2.buf.drop p.2.len⟩, .request q) :: hs, ?_, ?_, ?_⟩
    · have e : ∀ (y : Around × Happening) ys, ops (y :: ys) = (y.1.env, y.2.op y.1.len y.1.behind) :: ops ys := fun _ _ => rfl
      rw [e, h1]
      simp only [Happening.op, ← h.1, List.take_append_drop, List.map_cons]
    · simp [h2]
    · simp [h3]

/-- A session whose packets are the requests. -/
theorem packets_session {cfg : Cfg} (hp : Plain cfg) {k : About} {ps : List (Env × Pdu)} (hd : Describes k cfg (ps.map Prod.fst)) {mem : Mem}
    {mode : UInt8} {qs : List Req} (hb : (ps.map fun p => p.2.buf.take p.2.len) = (Req.connect mode :: qs).map Req.bytes)
    (hleg : AllLegal cfg k ⟨mem, 0, 0, true⟩ (qs.map .request)) :
    ∃ s, run cfg (St.init cfg mem) (ps.map fun p => (p.1, .cmd p.2)) = .ok s ∧
      CarryAll cfg s.tx (Remote.answers k ⟨mem, 0, 0, true⟩ (.request (.connect mode) :: qs.map .request)) ∧
      s.mem = (Remote.final k ⟨mem, 0, 0, true⟩ (qs.map .request)).mem := by
  obtain ⟨hs, h1, h2, h3⟩ := packets_ops ps _ hb
  match hs, h2 with
  | (a, h) :: hs, h2 =>
    simp only [List.map_cons, List.cons.injEq] at h2
    obtain ⟨rfl, h2⟩ := h2
    rw [← h3] at hd
    obtain ⟨s, k1, k2, k3⟩ := C79_remote_memory hp (a := a) hd (mode := mode) (mem := mem) (by rw [h2]; exact hleg)
    rw [h2] at k2 k3
    rw [h1] at k1
    exact ⟨s, k1, k2, k3⟩

/-- A description of the simulator. -/
def Ex.about : About :=
  { maxCto := 64, maxDto := 64, cal := true, daq := true, pgm := true, granularity := 0, commModeInfo := true
    offers := Ex.sim.supports, allows := fun _ _ _ _ => true
    idAddr := fun f => if f then Ex.sim.id1.1 else Ex.sim.id0.1, idLen := fun f => if f then Ex.sim.id1.2 else Ex.sim.id0.2
    masterBlock := Ex.sim.masterBlock, commLimits := (UInt8.ofNat Ex.sim.maxBs, Ex.sim.minSt, Ex.sim.queueSizeInfo, 10)
    method := .crc16citt, maxBlock := 0, slaveBlock := Ex.sim.slaveBlock }

example : Plain Ex.sim := ⟨⟨by constructor <;> decide, Or.inl rfl, rfl, rfl, by decide, Or.inl rfl⟩, rfl⟩

example (envs : List Env) : Describes Ex.about Ex.sim envs :=
  ⟨rfl, rfl, rfl, rfl, rfl, rfl, rfl, fun _ => rfl, fun _ _ _ _ _ => rfl, (fun h => by cases h), fun f => by cases f <;> rfl, rfl, rfl, rfl, rfl, rfl⟩

/-- A history: three bytes are written, the application overwrites one of them, five are read. -/
def Ex.story : List Happening :=
  [.request (.setMta 0 0x1234), .main, .request (.download [7, 8, 9]), .event 0, .write 0x1235 0x55, .request (.setMta 0 0x1233),
   .request (.upload 5), .request (.upload 64)]

example : AllLegal Ex.sim Ex.about ⟨Ex.mem, 0, 0, true⟩ Ex.story := by
  simp [AllLegal, Ex.story, Legal, Remote.after, Remote.next, Ex.about, Req.cmd]
  decide

example : Remote.answers Ex.about ⟨Ex.mem, 0, 0, true⟩ Ex.story =
    [[0xFF], [0xFF], [0xFF], [0xFF, 0x33, 7, 0x55, 9, 0x37], [0xFE, 0x22]] := by decide +kernel

/-- The other ways to write, a checksum, an option nobody built in; the address has to be set again after SHORT_DOWNLOAD. -/
def Ex.story2 : List Happening :=
  [.request .getCommModeInfo, .request (.shortDownload 0 0x1234 [0xFF, 0x0F, 3]), .request (.setMta 0 0x1234),
   .request (.modifyBits 4 0xFF0F 0x0000), .request (.buildChecksum 4), .request (.shortUpload 4 0 0x1234)]

example : AllLegal Ex.sim Ex.about ⟨Ex.mem, 0, 0, true⟩ Ex.story2 := by
  simp [AllLegal, Ex.story2, Legal, Remote.after, Remote.next, Ex.about, Req.cmd]
  decide +kernel

example : Remote.answers Ex.about ⟨Ex.mem, 0, 0, true⟩ Ex.story2 =
    [[0xFF, 0, 0, 0, 8, 0, 0, 10], [0xFF], [0xFF], [0xFE, 0x20], [0xFF, 8, 0, 0, 0xB5, 0xF0, 0, 0], [0xFF, 0xFF, 0x0F, 3, 0x37]] := by
  decide +kernel

/-- MODIFY_BITS where it is built in: one bit cleared in the word at the address. -/
example : Remote.answers { Ex.about with offers := fun _ => true } ⟨Ex.mem, 0, 0, true⟩
    [.request (.setMta 0 0x10), .request (.modifyBits 0 0xFFEF 0), .request (.upload 4)] = [[0xFF], [0xFF], [0xFF, 0x00, 0x11, 0x12, 0x13]] := by
  decide +kernel

end Xcp
