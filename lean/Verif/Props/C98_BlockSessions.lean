import Verif.Spec.BlockRemote
import Verif.Props.C79_Remote
import Verif.Props.C86_Live
import Verif.Props.C06_Busy
import Verif.Props.C13_BlockDownload
/-
C98: sessions with block transfers.  Requests as in C79, UPLOADs of any length and DOWNLOADs in blocks, with writes by the
application, calls of the main function and events in between.
-/
set_option autoImplicit false
namespace Xcp
open Spec

/-- Requests a tool may send: while a block is sent anything, else requests as in C79, UPLOAD of any length, blocks of full packets that
announce what is still to come (C13). -/
def Spec.BLegal (cfg : Cfg) (b : Blocks) (q : BReq) : Prop :=
  0 < b.sending ∨
  match q with
  | .plain (.upload n) => 0 < n.toNat ∧ b.remote.known = true
  | .plain q => Legal cfg b.remote q
  | .first n data => cfg.maxCto - 2 < n.toNat ∧ data.length = cfg.maxCto - 2 ∧ b.remote.known = true ∧ (cfg.asserts = true → b.remote.addr ≠ 0)
  | .next n data => b.awaited = 0 ∨
      n.toNat = b.awaited ∧ data.length = min n.toNat (cfg.maxCto - 2) ∧ b.remote.known = true ∧ (cfg.asserts = true → b.remote.addr ≠ 0)

/-- All requests of a history are legal. -/
def Spec.AllBLegal (cfg : Cfg) (k : About) : Blocks → List BHappening → Prop
  | _, [] => True
  | b, h :: hs => (∀ q, h = .request q → BLegal cfg b q) ∧ AllBLegal cfg k (b.after k h) hs

/-- The operation of the slave. -/
def Spec.BHappening.op (len : Nat) (behind : List UInt8) : BHappening → Op
  | .request q => .cmd ⟨len, q.bytes ++ behind⟩
  | .write a b => .appWrite a b
  | .main => .main
  | .event ev => .trigger ev

/-- The history of the slave. -/
def Spec.bops (hs : List (Around × BHappening)) : List (Env × Op) := hs.map fun x => (x.1.env, x.2.op x.1.len x.1.behind)

/-- The state of the slave corresponds to the remote memory with block transfers. -/
structure BMirrors (cfg : Cfg) (d : Daq) (s : St) (b : Blocks) : Prop where
  conn : s.connected = true
  busy : s.busy = decide (0 < b.sending)
  pgm : s.pgm ≠ .active
  out : s.ctoOut.length = cfg.maxCto
  ck : s.ck.state = .idle
  blk : s.slaveBlk.active = decide (0 < b.sending)
  rem : 0 < b.sending → s.slaveBlk.remaining = b.sending ∧ b.remote.known = true ∧ cfg.slaveBlock = true
  mblk : s.masterBlk.active = decide (0 < b.awaited)
  mrem : 0 < b.awaited → s.masterBlk.remaining = b.awaited
  daq : s.daq = d
  mem : s.mem = b.remote.mem
  mta : b.remote.known = true → s.mta = ⟨b.remote.ext, b.remote.addr⟩

theorem BMirrors.mirrors {cfg : Cfg} {d : Daq} {s : St} {b : Blocks} (h : BMirrors cfg d s b) (h0 : b.sending = 0) : Mirrors cfg d s b.remote :=
  ⟨⟨h.conn, by rw [h.busy, h0]; rfl⟩, h.pgm, h.out, h.ck, by rw [h.blk, h0]; rfl, h.daq, h.mem, h.mta⟩

theorem Mirrors.blocks {cfg : Cfg} {d : Daq} {s : St} {b : Blocks} (h : Mirrors cfg d s b.remote) (h0 : b.sending = 0)
    (h1 : s.masterBlk.active = decide (0 < b.awaited)) (h2 : 0 < b.awaited → s.masterBlk.remaining = b.awaited) : BMirrors cfg d s b :=
  ⟨h.ready.conn, by rw [h.ready.idle, h0]; rfl, h.pgm, h.out, h.ck, by rw [h.blk, h0]; rfl, fun h => by omega, h1, h2, h.daq, h.mem, h.mta⟩

/-- Only DOWNLOAD and DOWNLOAD_NEXT concern an open block. -/
theorem handler_masterBlk {cfg : Cfg} (env : Env) {s : St} (p : Pdu) (c : Cmd) (h1 : c ≠ .download) (h2 : c ≠ .downloadNext) :
    Post (handler cfg env s p c) (fun s' => s'.masterBlk = s.masterBlk) := by
  cases c
  case download => exact absurd rfl h1
  case downloadNext => exact absurd rfl h2
  all_goals unfold_handlers
  all_goals post
  all_goals try (simp only [send8_masterBlk, sendRaw_masterBlk, apiDisconnect_masterBlk]; done)
  all_goals try rfl

theorem BMirrors.send8 {cfg : Cfg} {d : Daq} {s : St} {b : Blocks} {bs : List UInt8} (h : BMirrors cfg d s b) (hb : bs.length ≤ cfg.maxCto) :
    BMirrors cfg d (send8 cfg s bs) b :=
  ⟨h.conn, h.busy, h.pgm, send8_ctoOut_length h.out hb, h.ck, h.blk, h.rem, h.mblk, h.mrem, h.daq, h.mem, h.mta⟩

theorem BMirrors.bump {cfg : Cfg} {d : Daq} {s : St} {b : Blocks} (h : BMirrors cfg d s b) : BMirrors cfg d (bumpReceived cfg s) b :=
  ⟨by simpa using h.conn, by simpa using h.busy, by simpa using h.pgm, by simpa using h.out, by simpa using h.ck, by simpa using h.blk,
    by simpa using h.rem, by simpa using h.mblk, by simpa using h.mrem, by simpa using h.daq, by simpa using h.mem, by simpa using h.mta⟩

/-- An open block remains at requests other than DOWNLOAD and DOWNLOAD_NEXT, and at those that are switched off. -/
theorem step_masterBlk {cfg : Cfg} {env : Env} {s s' : St} (hr : Ready s) {p : Pdu} {c : Cmd} (hc : code p = some (cmdCode c))
    (h : cfg.supports c = true → c ≠ .download ∧ c ≠ .downloadNext) (hs : step cfg env s (.cmd p) = .ok s') : s'.masterBlk = s.masterBlk := by
  rw [step_cmd env hr.conn hr.idle hc (table_code c)] at hs
  unfold tableEntry at hs
  split at hs
  · next hon =>
    have := handler_masterBlk env p c (h hon).1 (h hon).2 s' hs
    simpa using this
  · simp only [notImplemented, Except.ok.injEq] at hs
    subst hs
    simp

/-- One packet of requests and other happenings: what is sent. -/
def Says1 (cfg : Cfg) (s s' : St) (cs : List (List UInt8)) : Prop := ∃ fs, s'.tx = s.tx ++ fs ∧ CarryAll cfg fs cs

theorem says1_one {cfg : Cfg} {s t : St} {bs : List UInt8} (h : Answers cfg s t bs) : Says1 cfg s t [bs] := by
  obtain ⟨f, h1, h2⟩ := h
  exact ⟨[f], h1, h2, trivial⟩

theorem says1_none {cfg : Cfg} {s t : St} (h : t.tx = s.tx) : Says1 cfg s t [] := ⟨[], by simp [h], trivial⟩

theorem supports_download {cfg : Cfg} : cfg.supports .download = cfg.cal := by simp [Cfg.supports, Cmd.group, Cmd.mandatory]

theorem supports_next {cfg : Cfg} (hc : cfg.Ok) : cfg.supports .downloadNext = (cfg.cal && cfg.masterBlock) := by
  simp [Cfg.supports, Cmd.group, Cmd.mandatory, hc.next]

/-- A request that is as in C79. -/
theorem block_plain {cfg : Cfg} (hp : Plain cfg) {k : About} {envs : List Env} (hd : Describes k cfg envs) {a : Around} (he : a.env ∈ envs)
    {d : Daq} {s : St} {b : Blocks} (ht : BMirrors cfg d s b) (h0 : b.sending = 0) {q : Req} (hl : Legal cfg b.remote q)
    (hlong : b.remote.long k q = false) :
    ∃ s', step cfg a.env s (.cmd ⟨a.len, (BReq.plain q).bytes ++ a.behind⟩) = .ok s' ∧ Says1 cfg s s' (b.answer k (.plain q)) ∧
      BMirrors cfg d s' (b.next k (.plain q)) := by
  have hm := ht.mirrors h0
  obtain ⟨s', h1, h3, h2⟩ := live_request hp.toFaithful hd he hm a.len a.behind hl (fun _ => hp.noProt)
  have ea : b.answer k (.plain q) = [b.remote.answer k q] := by simp [Blocks.answer, h0, hlong]
  have en : b.next k (.plain q) = { b with remote := b.remote.next k q, awaited := if b.remote.ends k q then 0 else b.awaited } := by
    simp [Blocks.next, h0, hlong]
  refine ⟨s', h1, by rw [ea]; exact says1_one h3, ?_⟩
  rw [en]
  have h1' : step cfg a.env s (.cmd ⟨a.len, q.bytes ++ a.behind⟩) = .ok s' := h1
  by_cases hdl : cfg.supports q.cmd = true ∧ q.cmd = .download
  · obtain ⟨hon, hq⟩ := hdl
    cases q with
    | download data =>
      obtain ⟨g0, hfit, hn, hk⟩ := hl
      have h9 := hp.ok.cto_hi
      have hcal : cfg.cal = true := by rw [← supports_download]; exact hon
      have hoff : k.offers .download = true := by rw [hd.offers]; exact hon
      by_cases hal : k.allows b.remote.ext b.remote.addr data.length true = true
      · have hok : DownloadOk cfg a.env s.mta ⟨a.len, (Req.download data).bytes ++ a.behind⟩ data :=
          ⟨rfl, rfl, g0, hfit, ⟨a.behind, rfl⟩, fun hm' => by
              have := hd.hook hm' a.env he b.remote.ext b.remote.addr data.length true
              rw [ht.mta hk]; simpa [hal] using this,
            fun ha => by simpa [mapped, hp.noMap, ht.mta hk] using hn ha⟩
        rw [download_eq h9 hcal hp.maxBs hm.ready hm.pgm hok] at h1'
        cases h1'
        by_cases hmb : cfg.masterBlock = true
        · have hends : b.remote.ends k (.download data) = true := by simp [Remote.ends, hoff, hal, hd.masterBlock, hmb]
          rw [if_pos hends]
          exact Mirrors.blocks h2 h0 (by simp [hmb]) (fun h => absurd h (by simp))
        · have hends : b.remote.ends k (.download data) = false := by simp [Remote.ends, hd.masterBlock, hmb]
          rw [hends]
          exact Mirrors.blocks h2 h0 (by simpa [hmb] using ht.mblk) (by simpa [hmb] using ht.mrem)
      · have hm' : cfg.memCheck = true := by
          cases hm' : cfg.memCheck with
          | true => rfl
          | false => exact absurd (hd.noHook hm' _ _ _ _) hal
        have hlen : (UInt8.ofNat data.length).toNat = data.length := by simp; omega
        have hden : a.env.memCheck (bumpReceived cfg s).mta data.length .write false = false := by
          rw [show (bumpReceived cfg s).mta = s.mta by simp]
          have := hd.hook hm' a.env he b.remote.ext b.remote.addr data.length true
          rw [ht.mta hk]
          simp only [if_true] at this
          rw [this]
          simpa using hal
        rw [hm.ready.stepc (cfg := cfg) a.env .download (remote_code (.download data) a.len a.behind) hon] at h1'
        simp only [handler, downloadRes,
          byte_eq (p := ⟨a.len, (Req.download data).bytes ++ a.behind⟩) (i := 1) (b := UInt8.ofNat data.length) rfl, ok_bind, hlen] at h1'
        rw [assertPgmIdle_pass hm.bump.pgm, checkMem, hm', hden, if_pos (by simp)] at h1'
        cases h1'
        have hends : b.remote.ends k (.download data) = false := by simp [Remote.ends, hal]
        rw [hends]
        exact Mirrors.blocks h2 h0 (by simpa using ht.mblk) (by simpa using ht.mrem)
    | other c => exact absurd (hon.symm.trans hl) (by simp)
    | _ => cases hq
  · have hblk : s'.masterBlk = s.masterBlk := by
      refine step_masterBlk hm.ready (remote_code q a.len a.behind) (fun hon => ⟨fun hq => hdl ⟨hon, hq⟩, fun hq => ?_⟩) h1'
      cases q with
      | other c => exact absurd (hon.symm.trans hl) (by simp)
      | _ => cases hq
    have hends : b.remote.ends k q = false := by
      cases q with
      | download data =>
        have : k.offers .download = false := by
          rw [hd.offers]
          cases h : cfg.supports .download with
          | true => exact absurd ⟨h, rfl⟩ hdl
          | false => rfl
        simp [Remote.ends, this]
      | _ => rfl
    rw [hends]
    exact Mirrors.blocks h2 h0 (by rw [hblk]; exact ht.mblk) (by rw [hblk]; exact ht.mrem)

/-- A request while a block is sent. -/
theorem block_busy {cfg : Cfg} (hp : Plain cfg) {k : About} {d : Daq} {s : St} {b : Blocks} (env : Env) (ht : BMirrors cfg d s b)
    (h0 : 0 < b.sending) (q : BReq) (len : Nat) (rest : List UInt8) :
    ∃ s', step cfg env s (.cmd ⟨len, q.bytes ++ rest⟩) = .ok s' ∧ Says1 cfg s s' (b.answer k q) ∧ BMirrors cfg d s' (b.next k q) := by
  have h8 := hp.ok.cto_lo
  have ea : b.answer k q = [[0xFE, 0x10]] := by simp [Blocks.answer, h0]
  have en : b.next k q = b := by simp [Blocks.next, h0]
  rw [ea, en]
  obtain ⟨x, hx⟩ : ∃ x, code ⟨len, q.bytes ++ rest⟩ = some x := by
    cases q with
    | plain q => exact ⟨_, remote_code q len rest⟩
    | first n data => exact ⟨0xF0, rfl⟩
    | next n data => exact ⟨0xEF, rfl⟩
  refine ⟨busyResponse cfg s, ?_, ?_, ?_⟩
  · simp [step, dispatch, byte_of_code hx, ht.conn, ht.busy, h0]
  · exact says1_one (by unfold busyResponse; exact send8_answers hp.short (by simp) (by split <;> rfl))
  · unfold busyResponse
    refine BMirrors.send8 ?_ (by simp; omega)
    split
    · exact ⟨ht.conn, ht.busy, ht.pgm, ht.out, ht.ck, ht.blk, ht.rem, ht.mblk, ht.mrem, ht.daq, ht.mem, ht.mta⟩
    · exact ht

/-- UPLOAD of more than one packet: the first packet. -/
theorem block_upload {cfg : Cfg} (hp : Plain cfg) {k : About} {envs : List Env} (hd : Describes k cfg envs) {env : Env} (he : env ∈ envs)
    {d : Daq} {s : St} {b : Blocks} (ht : BMirrors cfg d s b) (h0 : b.sending = 0) {n : UInt8} (hk : b.remote.known = true)
    (hlong : b.remote.long k (.upload n) = true) (len : Nat) (rest : List UInt8) :
    ∃ s', step cfg env s (.cmd ⟨len, (BReq.plain (.upload n)).bytes ++ rest⟩) = .ok s' ∧ Says1 cfg s s' (b.answer k (.plain (.upload n))) ∧
      BMirrors cfg d s' (b.next k (.plain (.upload n))) := by
  have h8 := hp.ok.cto_lo
  have hm := ht.mirrors h0
  have ea : b.answer k (.plain (.upload n)) = [0xFF :: bytesAt b.remote.mem b.remote.addr (k.maxCto - 1)] := by
    simp [Blocks.answer, h0, hlong]
  have en : b.next k (.plain (.upload n)) =
      { b with remote := b.remote.advance (k.maxCto - 1), sending := n.toNat - (k.maxCto - 1) } := by
    simp [Blocks.next, h0, hlong, Req.count]
  rw [ea, en]
  simp only [Remote.long, Bool.and_eq_true, decide_eq_true_eq] at hlong
  obtain ⟨⟨⟨hoff, hsb⟩, hn⟩, hal⟩ := hlong
  rw [hd.offers] at hoff
  rw [hd.slaveBlock] at hsb
  rw [hd.maxCto] at hn ⊢
  have hsb' := hsb
  have hstep : step cfg env s (.cmd ⟨len, (Req.upload n).bytes ++ rest⟩) = .ok (blkNext cfg env
      (setSlaveActive { bumpReceived cfg s with slaveBlk := ⟨(bumpReceived cfg s).slaveBlk.active, n.toNat⟩ } true) n.toNat (cfg.maxCto - 1)) := by
    rw [hm.ready.stepc (cfg := cfg) env .upload (remote_code (.upload n) len rest) hoff]
    simp only [handler, uploadRes, byte_eq (p := ⟨len, (Req.upload n).bytes ++ rest⟩) (i := 1) (b := n) rfl, ok_bind]
    rw [assertPgmIdle_pass hm.bump.pgm, checkMem_pass, if_neg (by simp [hsb])]
    · unfold upload
      rw [if_pos hsb]
      exact uploadSingleBlock_eq h8 rfl (by show 0 < n.toNat; omega) (by show _ = min n.toNat _; omega)
    · intro hmc
      have := hd.hook hmc env he b.remote.ext b.remote.addr n.toNat false
      rw [show (bumpReceived cfg s).mta = s.mta by simp, ht.mta hk]
      simpa [hal] using this
  refine ⟨_, hstep, says1_one ?_, ?_⟩
  · unfold blkNext
    have e : mapped cfg env (bumpReceived cfg s).mta = b.remote.addr := by simp [mapped, hp.noMap, ht.mta hk]
    have e2 : (bumpReceived cfg s).mem = b.remote.mem := by simp [ht.mem]
    simp only [setSlaveActive, e, e2]
    exact sendRaw_answers (by simp [bytesAt_length]; omega) (by simpa using ht.out) (by simp)
  · have h := ht.bump
    unfold blkNext
    refine ⟨h.conn, ?_, h.pgm, sendRaw_ctoOut_length (by simp [bytesAt_length]; omega) h.out, h.ck, ?_, ?_, h.mblk, h.mrem, h.daq, h.mem, ?_⟩
    · show (if n.toNat - (cfg.maxCto - 1) = 0 then false else true) = decide (0 < n.toNat - (cfg.maxCto - 1))
      rw [if_neg (by omega)]
      simp; omega
    · show (if n.toNat - (cfg.maxCto - 1) = 0 then false else true) = decide (0 < n.toNat - (cfg.maxCto - 1))
      rw [if_neg (by omega)]
      simp; omega
    · exact fun _ => ⟨rfl, hk, hsb⟩
    · intro _
      simp [setSlaveActive, Mta.advance, ht.mta hk, Remote.advance]

/-- UPLOAD of any length. -/
theorem block_uploads {cfg : Cfg} (hp : Plain cfg) {k : About} {envs : List Env} (hd : Describes k cfg envs) {a : Around} (he : a.env ∈ envs)
    {d : Daq} {s : St} {b : Blocks} (ht : BMirrors cfg d s b) (h0 : b.sending = 0) {n : UInt8} (hn : 0 < n.toNat)
    (hk : b.remote.known = true) :
    ∃ s', step cfg a.env s (.cmd ⟨a.len, (BReq.plain (.upload n)).bytes ++ a.behind⟩) = .ok s' ∧
      Says1 cfg s s' (b.answer k (.plain (.upload n))) ∧ BMirrors cfg d s' (b.next k (.plain (.upload n))) := by
  have h8 := hp.ok.cto_lo
  cases hlong : b.remote.long k (.upload n) with
  | true => exact block_upload hp hd he ht h0 hk hlong a.len a.behind
  | false =>
    by_cases hl : cfg.slaveBlock = true → n.toNat < cfg.maxCto
    · exact block_plain hp hd he ht h0 ⟨hn, hk, hl⟩ hlong
    · have hsb : cfg.slaveBlock = true := by
        cases h : cfg.slaveBlock with
        | true => rfl
        | false => exact absurd (fun h' => by rw [h] at h'; cases h') hl
      have hbig : cfg.maxCto ≤ n.toNat := by
        rcases Nat.lt_or_ge n.toNat cfg.maxCto with h | h
        · exact absurd (fun _ => h) hl
        · exact h
      have ea : b.answer k (.plain (.upload n)) = [b.remote.answer k (.upload n)] := by simp [Blocks.answer, h0, hlong]
      have en : b.next k (.plain (.upload n)) = b := by
        rw [show b.next k (.plain (.upload n)) = { b with remote := b.remote.next k (.upload n) } by
          simp [Blocks.next, h0, hlong, Remote.ends]]
        have : b.remote.next k (.upload n) = b.remote := by
          unfold Remote.next
          split
          · rfl
          · simp [hd.maxCto]; omega
        rw [this]
      rw [ea, en]
      have hm := ht.mirrors h0
      cases hon : cfg.supports .upload with
      | false =>
        have hoff : k.offers .upload = false := by rw [hd.offers, hon]
        refine ⟨Xcp.send8 cfg (bumpReceived cfg s) [0xFE, 0x20], ?_, says1_one ?_, ht.bump.send8 (by simp; omega)⟩
        · show step cfg a.env s (.cmd ⟨a.len, (Req.upload n).bytes ++ a.behind⟩) = _
          rw [step_cmd a.env hm.ready.conn hm.ready.idle (remote_code (.upload n) a.len a.behind) (table_code (Req.upload n).cmd)]
          simp only [tableEntry, Req.cmd, hon]
          rfl
        · rw [show b.remote.answer k (.upload n) = [0xFE, 0x20] by simp [Remote.answer, Req.cmd, hoff]]
          exact send8_answers hp.short (by simp) (by simp)
      | true =>
        have hoff : k.offers .upload = true := by rw [hd.offers, hon]
        have hal : k.allows b.remote.ext b.remote.addr n.toNat false = false := by
          simpa [Remote.long, hoff, hd.slaveBlock, hsb, hd.maxCto, hbig] using hlong
        have hmc : cfg.memCheck = true := by
          cases hmc : cfg.memCheck with
          | true => rfl
          | false => exact absurd (hd.noHook hmc b.remote.ext b.remote.addr n.toNat false) (by simp [hal])
        have hden : a.env.memCheck (bumpReceived cfg s).mta n.toNat .read false = false := by
          have := hd.hook hmc a.env he b.remote.ext b.remote.addr n.toNat false
          rw [show (bumpReceived cfg s).mta = s.mta by simp, ht.mta hk]
          simpa [hal] using this
        refine ⟨Xcp.send8 cfg (bumpReceived cfg s) [0xFE, 0x24], ?_, says1_one ?_, ht.bump.send8 (by simp; omega)⟩
        · show step cfg a.env s (.cmd ⟨a.len, (Req.upload n).bytes ++ a.behind⟩) = _
          rw [hm.ready.stepc (cfg := cfg) a.env .upload (remote_code (.upload n) a.len a.behind) hon]
          simp only [handler, uploadRes, byte_eq (p := ⟨a.len, (Req.upload n).bytes ++ a.behind⟩) (i := 1) (b := n) rfl, ok_bind]
          rw [assertPgmIdle_pass hm.bump.pgm, checkMem, hmc, hden, if_pos (by simp)]
          rfl
        · rw [show b.remote.answer k (.upload n) = [0xFE, 0x24] by simp [Remote.answer, Req.cmd, hoff, hal]]
          exact send8_answers hp.short (by simp) (by simp)

/-- The first packet of a block. -/
theorem block_first {cfg : Cfg} (hp : Plain cfg) (hbs : cfg.maxBs < 256) {k : About} {envs : List Env} (hd : Describes k cfg envs) {env : Env}
    (he : env ∈ envs) {d : Daq} {s : St} {b : Blocks} (ht : BMirrors cfg d s b) (h0 : b.sending = 0) {n : UInt8} {data : List UInt8}
    (hn : cfg.maxCto - 2 < n.toNat) (hdl : data.length = cfg.maxCto - 2) (hk : b.remote.known = true)
    (hz : cfg.asserts = true → b.remote.addr ≠ 0) (len : Nat) (rest : List UInt8) :
    ∃ s', step cfg env s (.cmd ⟨len, (BReq.first n data).bytes ++ rest⟩) = .ok s' ∧ Says1 cfg s s' (b.answer k (.first n data)) ∧
      BMirrors cfg d s' (b.next k (.first n data)) := by
  have h8 := hp.ok.cto_lo
  have h9 := hp.ok.cto_hi
  have hm := ht.mirrors h0
  have hcode : code ⟨len, (BReq.first n data).bytes ++ rest⟩ = some 0xF0 := rfl
  have hlim : k.downloadLimit = cfg.maxBs * (cfg.maxCto - 2) % 65536 := by
    have h1 : cfg.maxBs * (cfg.maxCto - 2) ≤ 255 * 253 := Nat.mul_le_mul (by omega) (by omega)
    rw [Nat.mod_eq_of_lt (by omega)]
    simp [About.downloadLimit, hd.commLimits, hd.maxCto, Nat.mod_eq_of_lt hbs]
  cases hon : cfg.cal with
  | false =>
    have hoff : k.offers .download = false := by rw [hd.offers, supports_download, hon]
    rw [show b.answer k (.first n data) = [[0xFE, 0x20]] by simp [Blocks.answer, h0, hoff],
      show b.next k (.first n data) = b by simp [Blocks.next, h0, hoff]]
    refine ⟨Xcp.send8 cfg (bumpReceived cfg s) [0xFE, 0x20], ?_, says1_one (send8_answers hp.short (by simp) (by simp)), ht.bump.send8 (by simp; omega)⟩
    rw [step_cmd env hm.ready.conn hm.ready.idle hcode (table_code .download)]
    simp only [tableEntry, supports_download, hon]
    rfl
  | true =>
    have hsup : cfg.supports .download = true := by rw [supports_download, hon]
    have hoff : k.offers .download = true := by rw [hd.offers, hsup]
    have hstep := hm.ready.stepc (cfg := cfg) env .download hcode hsup
    simp only [handler, downloadRes, byte_eq (p := ⟨len, (BReq.first n data).bytes ++ rest⟩) (i := 1) (b := n) rfl, ok_bind] at hstep
    rw [assertPgmIdle_pass hm.bump.pgm] at hstep
    have hmta : (bumpReceived cfg s).mta = ⟨b.remote.ext, b.remote.addr⟩ := by simp [ht.mta hk]
    by_cases hal : k.allows b.remote.ext b.remote.addr n.toNat true = true
    · rw [checkMem_pass (by
        intro hmc
        have := hd.hook hmc env he b.remote.ext b.remote.addr n.toNat true
        rw [hmta]; simpa [hal] using this)] at hstep
      by_cases hmb : cfg.masterBlock = true
      · rw [if_pos hmb] at hstep
        by_cases hl : k.downloadLimit < n.toNat
        · rw [show b.answer k (.first n data) = [[0xFE, 0x22]] by simp [Blocks.answer, h0, hoff, hal, hl],
            show b.next k (.first n data) = { b with awaited := 0 } by simp [Blocks.next, h0, hoff, hal, hl, hd.masterBlock, hmb]]
          rw [hlim] at hl
          rw [if_pos (by unfold Cfg.dlPayload; exact hl)] at hstep
          refine ⟨_, hstep, says1_one (send8_answers hp.short (by simp) (by simp)), ?_⟩
          have h := ht.bump
          exact BMirrors.send8 ⟨h.conn, h.busy, h.pgm, h.out, h.ck, h.blk, h.rem, rfl, fun h => absurd h (by simp), h.daq, h.mem, h.mta⟩
            (by simp; omega)
        · rw [show b.answer k (.first n data) = [] by simp [Blocks.answer, h0, hoff, hal, hl, hd.masterBlock, hmb],
            show b.next k (.first n data) = { b with
              remote := { b.remote with mem := stored b.remote.mem b.remote.addr data, addr := b.remote.addr + UInt32.ofNat data.length }
              awaited := n.toNat - data.length } by simp [Blocks.next, h0, hoff, hal, hl, hd.masterBlock, hmb]]
          rw [hlim] at hl
          have hdp : cfg.dlPayload = data.length := by rw [hdl]; rfl
          rw [if_neg (by unfold Cfg.dlPayload; exact hl), if_pos (by unfold Cfg.dlPayload; exact hn), hdp,
            downloadCopy_ok (data := data) (rest := rest) (by omega) (show List.drop 2 ((BReq.first n data).bytes ++ rest) = data ++ rest from rfl)
              (by intro ha; simpa [mapped, hp.noMap, ht.mta hk] using hz ha)] at hstep
          refine ⟨_, hstep, says1_none (by simp), ?_⟩
          have h := ht.bump
          refine ⟨h.conn, h.busy, h.pgm, h.out, h.ck, h.blk, fun h' => by simp [h0] at h', ?_, fun _ => rfl, h.daq, ?_, fun _ => ?_⟩
          · simp; omega
          · simp only [mapped, hp.noMap, hmta, h.mem]; rfl
          · simp [Mta.advance, ht.mta hk]
      · rw [show b.answer k (.first n data) = [[0xFE, 0x22]] by simp [Blocks.answer, h0, hoff, hal, hd.masterBlock, hmb],
          show b.next k (.first n data) = b by simp [Blocks.next, h0, hd.masterBlock, hmb]]
        rw [if_neg hmb, if_pos (by unfold Cfg.dlPayload; exact hn)] at hstep
        exact ⟨_, hstep, says1_one (send8_answers hp.short (by simp) (by simp)), ht.bump.send8 (by simp; omega)⟩
    · have hmc : cfg.memCheck = true := by
        cases hmc : cfg.memCheck with
        | true => rfl
        | false => exact absurd (hd.noHook hmc _ _ _ _) hal
      have hden : env.memCheck (bumpReceived cfg s).mta n.toNat .write false = false := by
        have := hd.hook hmc env he b.remote.ext b.remote.addr n.toNat true
        rw [hmta]
        simpa [hal] using this
      rw [show b.answer k (.first n data) = [[0xFE, 0x24]] by simp [Blocks.answer, h0, hoff, hal],
        show b.next k (.first n data) = b by simp [Blocks.next, h0, hal]]
      rw [checkMem, hmc, hden, if_pos (by simp)] at hstep
      exact ⟨_, hstep, says1_one (send8_answers hp.short (by simp) (by simp)), ht.bump.send8 (by simp; omega)⟩

/-- A further packet. -/
theorem block_next {cfg : Cfg} (hp : Plain cfg) {k : About} {envs : List Env} (hd : Describes k cfg envs) (env : Env)
    {d : Daq} {s : St} {b : Blocks} (ht : BMirrors cfg d s b) (h0 : b.sending = 0) {n : UInt8} {data : List UInt8}
    (hl : b.awaited = 0 ∨ n.toNat = b.awaited ∧ data.length = min n.toNat (cfg.maxCto - 2) ∧ b.remote.known = true ∧
      (cfg.asserts = true → b.remote.addr ≠ 0)) (len : Nat) (rest : List UInt8) :
    ∃ s', step cfg env s (.cmd ⟨len, (BReq.next n data).bytes ++ rest⟩) = .ok s' ∧ Says1 cfg s s' (b.answer k (.next n data)) ∧
      BMirrors cfg d s' (b.next k (.next n data)) := by
  have h8 := hp.ok.cto_lo
  have h9 := hp.ok.cto_hi
  have hm := ht.mirrors h0
  have hcode : code ⟨len, (BReq.next n data).bytes ++ rest⟩ = some 0xEF := rfl
  cases hon : cfg.supports .downloadNext with
  | false =>
    have hoff : k.offers .downloadNext = false := by rw [hd.offers, hon]
    rw [show b.answer k (.next n data) = [[0xFE, 0x20]] by simp [Blocks.answer, h0, hoff],
      show b.next k (.next n data) = b by simp [Blocks.next, h0, hoff]]
    refine ⟨Xcp.send8 cfg (bumpReceived cfg s) [0xFE, 0x20], ?_, says1_one (send8_answers hp.short (by simp) (by simp)), ht.bump.send8 (by simp; omega)⟩
    rw [step_cmd env hm.ready.conn hm.ready.idle hcode (table_code .downloadNext)]
    simp only [tableEntry, hon]
    rfl
  | true =>
    have hoff : k.offers .downloadNext = true := by rw [hd.offers, hon]
    have hstep := hm.ready.stepc (cfg := cfg) env .downloadNext hcode hon
    simp only [handler, downloadNextRes, byte_eq (p := ⟨len, (BReq.next n data).bytes ++ rest⟩) (i := 1) (b := n) rfl, ok_bind] at hstep
    rw [assertPgmIdle_pass hm.bump.pgm] at hstep
    by_cases hw : b.awaited = 0
    · rw [show b.answer k (.next n data) = [[0xFE, 0x29]] by simp [Blocks.answer, h0, hoff, hw],
        show b.next k (.next n data) = b by simp [Blocks.next, h0, hw]]
      rw [if_pos (by simp [ht.mblk, hw])] at hstep
      exact ⟨_, hstep, says1_one (send8_answers hp.short (by simp) (by simp)), ht.bump.send8 (by simp; omega)⟩
    · obtain ⟨hn, hdl, hk, hz⟩ := hl.resolve_left hw
      have hpos : 0 < b.awaited := Nat.pos_of_ne_zero hw
      have hn' := n.toNat_lt
      have hmta : (bumpReceived cfg s).mta = ⟨b.remote.ext, b.remote.addr⟩ := by simp [ht.mta hk]
      rw [show b.next k (.next n data) = { b with
          remote := { b.remote with mem := stored b.remote.mem b.remote.addr data, addr := b.remote.addr + UInt32.ofNat data.length }
          awaited := n.toNat - data.length } by simp [Blocks.next, h0, hoff, hw]]
      rw [if_neg (by simp [ht.mblk, hpos]), show min n.toNat cfg.dlPayload = data.length by rw [hdl]; rfl,
        downloadCopy_ok (data := data) (rest := rest) (by omega) (show List.drop 2 ((BReq.next n data).bytes ++ rest) = data ++ rest from rfl)
          (by intro ha; simpa [mapped, hp.noMap, ht.mta hk] using hz ha), ok_bind] at hstep
      have hrem : ((bumpReceived cfg s).masterBlk.remaining + 256 - data.length) % 256 = n.toNat - data.length := by
        have : (bumpReceived cfg s).masterBlk.remaining = b.awaited := by simpa using ht.mrem hpos
        rw [this]
        omega
      rw [hrem] at hstep
      have h := ht.bump
      by_cases hlast : n.toNat - data.length = 0
      · rw [if_pos hlast] at hstep
        rw [show b.answer k (.next n data) = [[0xFF]] by
          have : n.toNat ≤ cfg.maxCto - 2 := by omega
          simp [Blocks.answer, h0, hoff, hw, hd.maxCto, this]]
        refine ⟨_, hstep, says1_one (send8_answers hp.short (by simp) (by simp)), ?_⟩
        refine BMirrors.send8 ⟨h.conn, h.busy, h.pgm, h.out, h.ck, h.blk, fun h' => by simp [h0] at h', ?_, ?_, h.daq, ?_, fun _ => ?_⟩ (by simp; omega)
        · simp [hlast]
        · intro h'; simp [hlast] at h'
        · simp only [mapped, hp.noMap, hmta, h.mem]; rfl
        · simp [Mta.advance, ht.mta hk]
      · rw [if_neg hlast] at hstep
        rw [show b.answer k (.next n data) = [] by
          have : ¬ n.toNat ≤ cfg.maxCto - 2 := by omega
          simp [Blocks.answer, h0, hoff, hw, hd.maxCto, this]]
        refine ⟨_, hstep, says1_none (by simp), ?_⟩
        refine ⟨h.conn, h.busy, h.pgm, h.out, h.ck, h.blk, fun h' => by simp [h0] at h', ?_, fun _ => rfl, h.daq, ?_, fun _ => ?_⟩
        · show (bumpReceived cfg s).masterBlk.active = decide (0 < n.toNat - data.length)
          rw [h.mblk]
          simp [hpos]; omega
        · simp only [mapped, hp.noMap, hmta, h.mem]; rfl
        · simp [Mta.advance, ht.mta hk]

/-- A call of the main function. -/
theorem block_main {cfg : Cfg} (hp : Plain cfg) {k : About} {envs : List Env} (hd : Describes k cfg envs) (env : Env)
    {d : Daq} {s : St} {b : Blocks} (ht : BMirrors cfg d s b) :
    ∃ s', step cfg env s .main = .ok s' ∧ Says1 cfg s s' (b.says k .main) ∧ BMirrors cfg d s' (b.after k .main) := by
  have h8 := hp.ok.cto_lo
  by_cases h0 : 0 < b.sending
  · obtain ⟨hrem, hk, hsb⟩ := ht.rem h0
    have hmin : b.chunk k = min b.sending (cfg.maxCto - 1) := by rw [Blocks.chunk, hd.maxCto]
    have hstep : step cfg env s .main = .ok (blkNext cfg env s b.sending (b.chunk k)) := by
      show mainFunction cfg env s = _
      unfold mainFunction mainUpload
      rw [if_pos hsb, uploadSingleBlock_eq h8 (by simp [ht.blk, h0]) (by omega) (k := b.chunk k) (by rw [hmin, hrem]), ok_bind, hrem]
      unfold mainChecksum checksumMain
      have : (blkNext cfg env s b.sending (b.chunk k)).ck.state = .idle := ht.ck
      simp only [this, ite_self]
      rfl
    refine ⟨_, hstep, ?_, ?_⟩
    · rw [show b.says k .main = [0xFF :: bytesAt b.remote.mem b.remote.addr (b.chunk k)] by simp [Blocks.says, h0]]
      have e : mapped cfg env s.mta = b.remote.addr := by simp [mapped, hp.noMap, ht.mta hk]
      unfold blkNext
      rw [e, ht.mem]
      exact says1_one (sendRaw_answers (by simp [bytesAt_length]; omega) ht.out rfl)
    · unfold blkNext
      refine ⟨ht.conn, ?_, ht.pgm, sendRaw_ctoOut_length (by simp [bytesAt_length]; omega) ht.out, ht.ck, ?_, fun _ => ⟨rfl, hk, hsb⟩, ht.mblk, ht.mrem,
        ht.daq, ht.mem, fun _ => ?_⟩
      · show (if b.sending - b.chunk k = 0 then false else s.busy) = decide (0 < b.sending - b.chunk k)
        rw [ht.busy]
        by_cases h : b.sending - b.chunk k = 0
        · simp [h]
        · rw [if_neg h]; simp [h0]; omega
      · show (if b.sending - b.chunk k = 0 then false else true) = decide (0 < b.sending - b.chunk k)
        by_cases h : b.sending - b.chunk k = 0
        · simp [h]
        · rw [if_neg h]; simp; omega
      · simp [Blocks.after, Remote.advance, Mta.advance, ht.mta hk]
  · have hz : b.sending = 0 := by omega
    refine ⟨s, ?_, ?_, ?_⟩
    · have hck : checksumMain cfg s = s := by unfold checksumMain; rw [ht.ck]
      have hblk : s.slaveBlk.active = false := by rw [ht.blk, hz]; rfl
      simp [step, mainFunction, mainUpload, uploadSingleBlock, hblk, mainChecksum, hck]
    · rw [show b.says k .main = [] by simp [Blocks.says, hz]]
      exact says1_none rfl
    · rw [show b.after k .main = b by
        have : b.chunk k = 0 := by simp [Blocks.chunk, hz]
        simp [Blocks.after, this, Remote.advance]]
      exact ht

/-- One request. -/
theorem block_request {cfg : Cfg} (hp : Plain cfg) (hbs : cfg.maxBs < 256) {k : About} {envs : List Env} (hd : Describes k cfg envs) {a : Around}
    (he : a.env ∈ envs) {d : Daq} {s : St} {b : Blocks} (ht : BMirrors cfg d s b) {q : BReq} (hl : BLegal cfg b q) :
    ∃ s', step cfg a.env s (.cmd ⟨a.len, q.bytes ++ a.behind⟩) = .ok s' ∧ Says1 cfg s s' (b.answer k q) ∧ BMirrors cfg d s' (b.next k q) := by
  by_cases h0 : 0 < b.sending
  · exact block_busy hp a.env ht h0 q a.len a.behind
  · have hz : b.sending = 0 := by omega
    have hq := hl.resolve_left h0
    cases q with
    | plain q =>
      cases q with
      | upload n => exact block_uploads hp hd he ht hz hq.1 hq.2
      | _ => exact block_plain hp hd he ht hz hq rfl
    | first n data => exact block_first hp hbs hd he ht hz hq.1 hq.2.1 hq.2.2.1 hq.2.2.2 a.len a.behind
    | next n data => exact block_next hp hd a.env ht hz hq a.len a.behind

/-- A write by the application. -/
theorem BMirrors.write {cfg : Cfg} {d : Daq} {s : St} {b : Blocks} (ht : BMirrors cfg d s b) (k : About) (x : UInt32) (y : UInt8) :
    BMirrors cfg d { s with mem := s.mem.write x [y] } (b.after k (.write x y)) :=
  ⟨ht.conn, ht.busy, ht.pgm, ht.out, ht.ck, ht.blk, ht.rem, ht.mblk, ht.mrem, ht.daq, by simp only [ht.mem]; rfl, ht.mta⟩

/-- One happening. -/
theorem block_happening {cfg : Cfg} (hp : Plain cfg) (hbs : cfg.maxBs < 256) {k : About} {envs : List Env} (hd : Describes k cfg envs) {a : Around}
    (he : a.env ∈ envs) {d : Daq} (hstop : d.running = false) {s : St} {b : Blocks} (ht : BMirrors cfg d s b) {h : BHappening}
    (hl : ∀ q, h = .request q → BLegal cfg b q) :
    ∃ s', step cfg a.env s (h.op a.len a.behind) = .ok s' ∧ Says1 cfg s s' (b.says k h) ∧ BMirrors cfg d s' (b.after k h) := by
  cases h with
  | request q => exact block_request hp hbs hd he ht (hl q rfl)
  | write x y => exact ⟨_, rfl, says1_none rfl, ht.write k x y⟩
  | main => exact block_main hp hd a.env ht
  | event ev =>
    refine ⟨s, ?_, says1_none rfl, ht⟩
    simp [BHappening.op, step, triggerEvent, ht.daq, hstop]

/-- Whole histories. -/
theorem block_run {cfg : Cfg} (hp : Plain cfg) (hbs : cfg.maxBs < 256) {k : About} {hs : List (Around × BHappening)} : ∀ {d : Daq} {s : St} {b : Blocks},
    d.running = false → Describes k cfg (hs.map (·.1.env)) → BMirrors cfg d s b → AllBLegal cfg k b (hs.map (·.2)) →
    ∃ s', run cfg s (bops hs) = .ok s' ∧ Says1 cfg s s' (b.saysAll k (hs.map (·.2))) ∧ BMirrors cfg d s' (b.final k (hs.map (·.2))) := by
  induction hs with
  | nil => intro _ s b _ _ ht _; exact ⟨s, rfl, says1_none rfl, ht⟩
  | cons x hs ih =>
    intro d s b hst hd ht hl
    obtain ⟨s1, h1, ⟨fs, h2, h3⟩, h4⟩ := block_happening hp hbs hd (a := x.1) (List.mem_cons_self ..) hst ht hl.1
    have hd' : Describes k cfg (hs.map (·.1.env)) := { hd with hook := fun hm env he => hd.hook hm env (List.mem_cons_of_mem _ he) }
    obtain ⟨s', h5, ⟨gs, h6, h7⟩, h8⟩ := ih hst hd' h4 hl.2
    refine ⟨s', ?_, ⟨fs ++ gs, by rw [h6, h2, List.append_assoc], CarryAll.append h3 h7⟩, h8⟩
    simp only [bops, List.map_cons, run, h1, ok_bind]
    exact h5

/-- C98: after start-up and a CONNECT, in every history of requests with block transfers in both directions, writes by the application, calls
of the main function and events, the slave never fails, sends exactly the packets of the remote memory with block transfers, and its memory is
that of the remote memory. -/
theorem C98_blocks {cfg : Cfg} (hp : Plain cfg) (hbs : cfg.maxBs < 256) {k : About} {a : Around} {mode : UInt8} {hs : List (Around × BHappening)}
    (hd : Describes k cfg (a.env :: hs.map (·.1.env))) {mem : Mem} (hl : AllBLegal cfg k ⟨⟨mem, 0, 0, true⟩, 0, 0⟩ (hs.map (·.2))) :
    ∃ s, run cfg (St.init cfg mem) (bops ((a, .request (.plain (.connect mode))) :: hs)) = .ok s ∧
      CarryAll cfg s.tx (Blocks.saysAll k ⟨⟨mem, 0, 0, true⟩, 0, 0⟩ (.request (.plain (.connect mode)) :: hs.map (·.2))) ∧
      s.mem = (Blocks.final k ⟨⟨mem, 0, 0, true⟩, 0, 0⟩ (hs.map (·.2))).remote.mem ∧
      (s.busy = true ↔ 0 < (Blocks.final k ⟨⟨mem, 0, 0, true⟩, 0, 0⟩ (hs.map (·.2))).sending) := by
  obtain ⟨s1, h1, ⟨f, hf, hc⟩, h3⟩ := remote_connect hp hd (List.mem_cons_self ..) mem mode a.len a.behind
  have hd' : Describes k cfg (hs.map (·.1.env)) := { hd with hook := fun hm env he => hd.hook hm env (List.mem_cons_of_mem _ he) }
  have hmb : s1.masterBlk = ⟨false, 0⟩ := by
    have hcode := byte_of_code (remote_code (.connect mode) a.len a.behind)
    have h1' := h1
    simp only [step, dispatch, hcode, ok_bind] at h1'
    rw [if_neg (by simp [St.init]), if_pos (show cmdCode (Req.connect mode).cmd = 255 from rfl)] at h1'
    cases h1'
    simp [St.init]
  have hb : BMirrors cfg s1.daq s1 ⟨⟨mem, 0, 0, true⟩, 0, 0⟩ := Mirrors.blocks h3.mirrors rfl (by simp [hmb]) (fun h => absurd h (by simp))
  obtain ⟨s', h4, ⟨fs, h5, h6⟩, h7⟩ := block_run hp hbs h3.stopped hd' hb hl
  refine ⟨s', ?_, ?_, h7.mem, by rw [h7.busy]; simp⟩
  · have h1' : step cfg a.env (St.init cfg mem) (.cmd ⟨a.len, (BReq.plain (.connect mode)).bytes ++ a.behind⟩) = .ok s1 := h1
    simp only [bops, List.map_cons, run, BHappening.op, h1', ok_bind]
    exact h4
  · rw [h5, hf]
    have hnext : Blocks.after k ⟨⟨mem, 0, 0, true⟩, 0, 0⟩ (.request (.plain (.connect mode))) = ⟨⟨mem, 0, 0, true⟩, 0, 0⟩ := by
      simp [Blocks.after, Blocks.next, Remote.next, Remote.long, Remote.ends]
    show CarryAll cfg (([] ++ [f]) ++ fs) (Blocks.says k _ _ ++ Blocks.saysAll k (Blocks.after k _ _) _)
    rw [hnext]
    exact CarryAll.append (cs := [_]) ⟨hc, trivial⟩ h6

/-- The slave of the examples on CAN, with both block modes. -/
def Ex.blocks : Cfg := { Ex.can with masterBlock := true, on := fun c => Ex.can.on c || c == .downloadNext }

def Ex.blocksAbout : About :=
  { Ex.about with maxCto := 8, maxDto := 8, offers := Ex.blocks.supports, masterBlock := true, commLimits := (255, 0, 0, 10), slaveBlock := true }

example : Plain Ex.blocks ∧ Ex.blocks.maxBs < 256 :=
  ⟨⟨⟨by constructor <;> decide, Or.inl rfl, rfl, rfl, by decide, Or.inl rfl⟩, rfl⟩, by decide⟩

example (envs : List Env) : Describes Ex.blocksAbout Ex.blocks envs :=
  ⟨rfl, rfl, rfl, rfl, rfl, rfl, rfl, fun _ => rfl, fun _ _ _ _ _ => rfl, (fun h => by cases h), fun f => by cases f <;> rfl, rfl, rfl, rfl, rfl, rfl⟩

/-- An UPLOAD of 16 bytes, during which the application writes one of them and the tool sends a request in vain; a DOWNLOAD of 14 bytes, with
a GET_STATUS in between; a DOWNLOAD_NEXT too many. -/
def Ex.blockStory : List BHappening :=
  [.request (.plain (.setMta 0 0x1240)), .request (.plain (.upload 16)), .write 0x1248 0xAA, .request (.plain .getStatus), .main, .event 0, .main, .main,
   .request (.plain (.setMta 0 0x1300)), .request (.first 14 [1, 2, 3, 4, 5, 6]), .request (.plain .getStatus), .request (.next 8 [7, 8, 9, 10, 11, 12]),
   .main, .request (.next 2 [13, 14]), .request (.next 2 [15, 16]), .request (.plain (.shortUpload 7 0 0x130A))]

/-- The story is legal. -/
example : AllBLegal Ex.blocks Ex.blocksAbout ⟨⟨Ex.mem, 0, 0, true⟩, 0, 0⟩ Ex.blockStory := by
  simp only [AllBLegal, Ex.blockStory, BHappening.request.injEq, forall_eq', reduceCtorEq, false_implies, implies_true, true_and, BLegal, Legal,
    and_true]
  decide +kernel

example : Blocks.saysAll Ex.blocksAbout ⟨⟨Ex.mem, 0, 0, true⟩, 0, 0⟩ Ex.blockStory =
    [[0xFF], [0xFF, 0x40, 0x41, 0x42, 0x43, 0x44, 0x45, 0x46], [0xFE, 0x10], [0xFF, 0x47, 0xAA, 0x49, 0x4A, 0x4B, 0x4C, 0x4D], [0xFF, 0x4E, 0x4F],
     [0xFF], [0xFF, 0, 0, 0, 0, 0], [0xFF], [0xFE, 0x29], [0xFF, 11, 12, 13, 14, 0x0E, 0x0F, 0x10]] := by decide +kernel

end Xcp
