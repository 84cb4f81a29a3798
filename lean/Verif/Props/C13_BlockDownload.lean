import Verif.Props.C12_Download
/-
C13: a block download writes the whole block.

The first half of C13 holds (`C13_block_download_partial`): a correct sequence stores the
block and is answered once.  The second half does not: the remaining count of a
DOWNLOAD_NEXT is not compared with what is expected (`C13_fails_count_mismatch`,
`C13_fails_witness`).  Only a DOWNLOAD_NEXT without a preceding block DOWNLOAD is refused
(`C13_next_without_download`).
-/
set_option autoImplicit false
namespace Xcp
open Spec

/-- A DOWNLOAD_NEXT packet with remaining count `n` whose data starts with `data`. -/
structure Spec.NextPkt (p : Pdu) (n : Nat) (data : List UInt8) : Prop where
  code : Spec.code p = some 0xEF
  count : p.buf[1]? = some (UInt8.ofNat n)
  payload : ∃ rest, p.buf.drop 2 = data ++ rest

/-- The DOWNLOAD_NEXT packets the master sends for the rest `data` of a block, `k` bytes per
packet, each announcing the number of bytes that remain. -/
inductive Spec.NextPkts (k : Nat) : List UInt8 → List Pdu → Prop
  | last {data : List UInt8} {p : Pdu} (h0 : 0 < data.length) (hk : data.length ≤ k)
      (hp : NextPkt p data.length data) : NextPkts k data [p]
  | more {data : List UInt8} {p : Pdu} {ps : List Pdu} (hk : k < data.length)
      (hp : NextPkt p data.length (data.take k)) (h : NextPkts k (data.drop k) ps) :
      NextPkts k data (p :: ps)

/-- The first packet of a block DOWNLOAD of `data`, which is longer than one packet. -/
structure Spec.FirstPkt (cfg : Cfg) (env : Env) (m : Mta) (p : Pdu) (data : List UInt8) : Prop where
  code : Spec.code p = some 0xF0
  len : p.buf[1]? = some (UInt8.ofNat data.length)
  long : cfg.maxCto - 2 < data.length
  limit : data.length ≤ 255
  blocks : data.length ≤ cfg.maxBs * (cfg.maxCto - 2) % 65536
  payload : ∃ rest, p.buf.drop 2 = data.take (cfg.maxCto - 2) ++ rest
  allowed : cfg.memCheck = true → env.memCheck m data.length .write false = true

/-- State in the middle of a block download: `n` bytes remain. -/
structure MidBlock (s : St) (n : Nat) : Prop where
  ready : Ready s
  pgm : s.pgm ≠ .active
  active : s.masterBlk.active = true
  rem : s.masterBlk.remaining = n

theorem sup_next {cfg : Cfg} (hc : cfg.Ok) (hcal : cfg.cal = true) (hmb : cfg.masterBlock = true) :
    cfg.supports .downloadNext = true := by
  simp [Cfg.supports, Cmd.group, Cmd.mandatory, hcal, hc.next, hmb]

theorem next_last {cfg : Cfg} (hc : cfg.Ok) (hcal : cfg.cal = true) (hmb : cfg.masterBlock = true)
    (hmap : cfg.mapper = false) (env : Env) {s : St} {p : Pdu} {data : List UInt8}
    (hm : MidBlock s data.length) (h0 : 0 < data.length) (hk : data.length ≤ cfg.maxCto - 2)
    (hp : NextPkt p data.length data) (hn : cfg.asserts = true → s.mta.addr ≠ 0) :
    step cfg env s (.cmd p) = .ok (positive cfg { bumpReceived cfg s with
      mem := s.mem.write s.mta.addr data, mta := s.mta.advance data.length, masterBlk := ⟨false, 0⟩ }) := by
  have h9 := hc.cto_hi
  obtain ⟨rest, hrest⟩ := hp.payload
  have hlen : (UInt8.ofNat data.length).toNat = data.length := by simp; omega
  have hmin : min data.length cfg.dlPayload = data.length := by unfold Cfg.dlPayload; omega
  have hrem : (data.length + 256 - data.length) % 256 = 0 := by omega
  rw [hm.ready.stepc env .downloadNext hp.code (sup_next hc hcal hmb)]
  simp only [handler, downloadNextRes, byte_eq hp.count, ok_bind, hlen]
  rw [assertPgmIdle_pass (by simpa using hm.pgm), if_neg (by simp [hm.active]), hmin,
    downloadCopy_ok (by omega) hrest (by simpa [mapped, hmap] using hn), ok_bind]
  simp [hm.rem, mapped, hmap]

theorem next_more {cfg : Cfg} (hc : cfg.Ok) (hcal : cfg.cal = true) (hmb : cfg.masterBlock = true)
    (hmap : cfg.mapper = false) (env : Env) {s : St} {p : Pdu} {data : List UInt8}
    (hm : MidBlock s data.length) (h255 : data.length ≤ 255) (hk : cfg.maxCto - 2 < data.length)
    (hp : NextPkt p data.length (data.take (cfg.maxCto - 2))) (hn : cfg.asserts = true → s.mta.addr ≠ 0) :
    step cfg env s (.cmd p) = .ok { bumpReceived cfg s with
      mem := s.mem.write s.mta.addr (data.take (cfg.maxCto - 2)), mta := s.mta.advance (cfg.maxCto - 2)
      masterBlk := ⟨true, data.length - (cfg.maxCto - 2)⟩ } := by
  have h8 := hc.cto_lo
  have h9 := hc.cto_hi
  obtain ⟨rest, hrest⟩ := hp.payload
  have hlen : (UInt8.ofNat data.length).toNat = data.length := by simp; omega
  have htk : (data.take (cfg.maxCto - 2)).length = cfg.maxCto - 2 := by simp; omega
  have hmin : min data.length cfg.dlPayload = (data.take (cfg.maxCto - 2)).length := by
    rw [htk]; unfold Cfg.dlPayload; omega
  rw [hm.ready.stepc env .downloadNext hp.code (sup_next hc hcal hmb)]
  simp only [handler, downloadNextRes, byte_eq hp.count, ok_bind, hlen]
  rw [assertPgmIdle_pass (by simpa using hm.pgm), if_neg (by simp [hm.active]), hmin,
    downloadCopy_ok (by omega) hrest (by simpa [mapped, hmap] using hn), ok_bind]
  have hrem : (data.length + 256 - (cfg.maxCto - 2)) % 256 = data.length - (cfg.maxCto - 2) := by omega
  simp only [bumpReceived_masterBlk, hm.rem, htk, hrem]
  rw [if_neg (by omega)]
  simp [mapped, hmap, hm.active]

theorem nexts {cfg : Cfg} (hc : cfg.Ok) (hs : ShortOk cfg) (hcal : cfg.cal = true)
    (hmb : cfg.masterBlock = true) (hmap : cfg.mapper = false) {data : List UInt8} {ps : List Pdu}
    (hps : NextPkts (cfg.maxCto - 2) data ps) (h255 : data.length ≤ 255) :
    ∀ {envs : List Env} {s : St}, envs.length = ps.length → MidBlock s data.length →
      s.mta.addr ≠ 0 → s.mta.addr.toNat + data.length ≤ 2 ^ 32 →
      ∃ s', run cfg s (envs.zip (ps.map Op.cmd)) = .ok s' ∧ Answers cfg s s' [0xFF] ∧
        s'.mem = s.mem.write s.mta.addr data ∧ s'.mta = s.mta.advance data.length ∧ Ready s' := by
  have h8 := hc.cto_lo
  have h9 := hc.cto_hi
  induction hps with
  | @last data p h0 hk hp =>
    intro envs s he hm ha _
    match envs, he with
    | [env], _ =>
      refine ⟨_, by
        simp only [List.map, List.zip_cons_cons, List.zip_nil_left, run, next_last hc hcal hmb hmap env hm h0 hk hp (fun _ => ha)]
        rfl, send8_answers hs (by simp) (by simp), rfl, rfl, ?_⟩
      exact ⟨by simpa using hm.ready.conn, by simpa using hm.ready.idle⟩
  | @more data p ps hk hp h ih =>
    intro envs s he hm ha hw
    match envs, he with
    | env :: envs, he =>
      have h1 := next_more hc hcal hmb hmap env hm h255 hk hp (fun _ => ha)
      generalize hs1 : ({ bumpReceived cfg s with
        mem := s.mem.write s.mta.addr (data.take (cfg.maxCto - 2)), mta := s.mta.advance (cfg.maxCto - 2)
        masterBlk := ⟨true, data.length - (cfg.maxCto - 2)⟩ } : St) = s1 at h1
      have hadd : (s.mta.advance (cfg.maxCto - 2)).addr.toNat = s.mta.addr.toNat + (cfg.maxCto - 2) := by
        show (s.mta.addr + UInt32.ofNat (cfg.maxCto - 2)).toNat = _
        rw [UInt32.toNat_add]
        simp
        omega
      have hm1 : MidBlock s1 (data.drop (cfg.maxCto - 2)).length := by
        subst hs1
        exact ⟨⟨by simpa using hm.ready.conn, by simpa using hm.ready.idle⟩, by simpa using hm.pgm, rfl, by simp⟩
      have hmta : s1.mta = s.mta.advance (cfg.maxCto - 2) := by subst hs1; rfl
      obtain ⟨s', r1, r2, r3, r4, r5⟩ := ih (by simp; omega) (envs := envs) (s := s1) (by simpa using he) hm1
        (by rw [hmta]; intro h; have := congrArg UInt32.toNat h; simp [hadd] at this; omega)
        (by rw [hmta, hadd]; simp; omega)
      refine ⟨s', ?_, ?_, ?_, ?_, r5⟩
      · simp only [List.map, List.zip_cons_cons, run, h1, ok_bind]
        exact r1
      · obtain ⟨f, hf1, hf2⟩ := r2
        exact ⟨f, by rw [hf1]; subst hs1; simp, hf2⟩
      · have htk : (data.take (cfg.maxCto - 2)).length = cfg.maxCto - 2 := by simp; omega
        have := write_append s.mem s.mta.addr (d1 := data.take (cfg.maxCto - 2)) (d2 := data.drop (cfg.maxCto - 2))
          (by simp; omega)
        rw [htk, List.take_append_drop] at this
        rw [r3, hmta, ← this]
        subst hs1
        rfl
      · rw [r4, hmta]
        simp only [Mta.advance, List.length_drop, UInt32.add_assoc, ← UInt32.ofNat_add]
        congr 3
        omega

theorem first_eq {cfg : Cfg} (hc : cfg.Ok) (hcal : cfg.cal = true) (hmb : cfg.masterBlock = true)
    (hmap : cfg.mapper = false) {env : Env} {s : St} (hr : Ready s) (hpg : s.pgm ≠ .active)
    {p : Pdu} {data : List UInt8} (hp : FirstPkt cfg env s.mta p data) (hn : cfg.asserts = true → s.mta.addr ≠ 0) :
    step cfg env s (.cmd p) = .ok { bumpReceived cfg s with
      mem := s.mem.write s.mta.addr (data.take (cfg.maxCto - 2)), mta := s.mta.advance (cfg.maxCto - 2)
      masterBlk := ⟨true, data.length - (cfg.maxCto - 2)⟩ } := by
  have h8 := hc.cto_lo
  have h1 := hp.long
  have h2 := hp.limit
  have h3 := hp.blocks
  obtain ⟨rest, hrest⟩ := hp.payload
  have hlen : (UInt8.ofNat data.length).toNat = data.length := by simp; omega
  have htk : cfg.dlPayload = (data.take (cfg.maxCto - 2)).length := by unfold Cfg.dlPayload; simp; omega
  rw [hr.stepc env .download hp.code (by simp [Cfg.supports, Cmd.group, Cmd.mandatory, hcal])]
  simp only [handler, downloadRes, byte_eq hp.len, ok_bind, hlen]
  rw [assertPgmIdle_pass (by simpa using hpg), checkMem_pass (by simpa using hp.allowed), if_pos hmb,
    if_neg (by unfold Cfg.dlPayload; omega), if_pos (by unfold Cfg.dlPayload; omega)]
  rw [htk, downloadCopy_ok (by rw [List.length_take]; omega) hrest (by simpa [mapped, hmap] using hn)]
  have : (data.take (cfg.maxCto - 2)).length = cfg.maxCto - 2 := by simp; omega
  simp only [this, bumpReceived_mem, bumpReceived_mta, mapped, hmap]
  rfl

/-- C13, first half: the block is stored, nothing else is written, the MTA ends behind the
block, and there is exactly one response, after the last packet.  (The address range must
not wrap around or start at the null pointer.) -/
theorem C13_block_download_partial {cfg : Cfg} (hc : cfg.Ok) (hs : ShortOk cfg) (hcal : cfg.cal = true)
    (hmb : cfg.masterBlock = true) (hmap : cfg.mapper = false) {env : Env} {envs : List Env}
    {s : St} (hr : Ready s) (hpg : s.pgm ≠ .active) {p : Pdu} {ps : List Pdu} {data : List UInt8}
    (hp : FirstPkt cfg env s.mta p data) (hps : NextPkts (cfg.maxCto - 2) (data.drop (cfg.maxCto - 2)) ps)
    (he : envs.length = ps.length) (ha : s.mta.addr ≠ 0) (hw : s.mta.addr.toNat + data.length ≤ 2 ^ 32) :
    ∃ s1 s', step cfg env s (.cmd p) = .ok s1 ∧ Silent s s1 ∧
      run cfg s1 (envs.zip (ps.map Op.cmd)) = .ok s' ∧ Answers cfg s s' [0xFF] ∧
      StoredAt s.mem s'.mem s.mta.addr data ∧
      s'.mta = ⟨s.mta.ext, s.mta.addr + UInt32.ofNat data.length⟩ ∧ Ready s' := by
  have h8 := hc.cto_lo
  have h1 := hp.long
  have h2 := hp.limit
  have hf := first_eq hc hcal hmb hmap hr hpg hp (fun _ => ha)
  generalize hs1 : ({ bumpReceived cfg s with
        mem := s.mem.write s.mta.addr (data.take (cfg.maxCto - 2)), mta := s.mta.advance (cfg.maxCto - 2)
        masterBlk := ⟨true, data.length - (cfg.maxCto - 2)⟩ } : St) = s1 at hf
  have hadd : (s.mta.advance (cfg.maxCto - 2)).addr.toNat = s.mta.addr.toNat + (cfg.maxCto - 2) := by
    show (s.mta.addr + UInt32.ofNat (cfg.maxCto - 2)).toNat = _
    rw [UInt32.toNat_add]
    simp
    omega
  have hmta : s1.mta = s.mta.advance (cfg.maxCto - 2) := by subst hs1; rfl
  have hm1 : MidBlock s1 (data.drop (cfg.maxCto - 2)).length := by
    subst hs1
    exact ⟨⟨by simpa using hr.conn, by simpa using hr.idle⟩, by simpa using hpg, rfl, by simp⟩
  obtain ⟨s', r1, r2, r3, r4, r5⟩ := nexts hc hs hcal hmb hmap hps (by simp; omega) he hm1
    (by rw [hmta]; intro h; have := congrArg UInt32.toNat h; simp [hadd] at this; omega)
    (by rw [hmta, hadd]; simp; omega)
  have hsil : Silent s s1 := by subst hs1; show (bumpReceived cfg s).tx = s.tx; simp
  refine ⟨s1, s', hf, hsil, r1, ?_, ?_, ?_, r5⟩
  · obtain ⟨f, hf1, hf2⟩ := r2
    exact ⟨f, by rw [hf1, hsil], hf2⟩
  · have htk : (data.take (cfg.maxCto - 2)).length = cfg.maxCto - 2 := by simp; omega
    have := write_append s.mem s.mta.addr (d1 := data.take (cfg.maxCto - 2)) (d2 := data.drop (cfg.maxCto - 2))
      (by simp; omega)
    rw [htk, List.take_append_drop] at this
    have hmem : s'.mem = s.mem.write s.mta.addr data := by
      rw [r3, hmta, ← this]
      subst hs1
      rfl
    rw [hmem]
    exact write_stored _ _ (by omega)
  · rw [r4, hmta]
    simp only [Mta.advance, List.length_drop, UInt32.add_assoc, ← UInt32.ofNat_add]
    congr 3
    omega

/-- C13: a DOWNLOAD_NEXT that does not belong to a block download is refused. -/
theorem C13_next_without_download {cfg : Cfg} (hc : cfg.Ok) (hs : ShortOk cfg) (hcal : cfg.cal = true)
    (hmb : cfg.masterBlock = true) (env : Env) {s : St} (hr : Ready s) (hpg : s.pgm ≠ .active)
    {p : Pdu} {n : UInt8} (hp : code p = some 0xEF) (h1 : p.buf[1]? = some n) (hna : s.masterBlk.active = false) :
    ∃ s', step cfg env s (.cmd p) = .ok s' ∧ Refused cfg s s' 0x29 := by
  refine ⟨errorResp cfg (bumpReceived cfg s) ERR_SEQUENCE, ?_, send8_answers hs (by simp) (by simp),
    (bumpReceived_same cfg s).trans (send8_same ..)⟩
  rw [hr.stepc env .downloadNext hp (sup_next hc hcal hmb)]
  simp only [handler, downloadNextRes, byte_eq h1, ok_bind]
  rw [assertPgmIdle_pass (by simpa using hpg), if_pos (by simp [hna])]

/-- C13 fails: whatever count between 1 and MAX_CTO-2 a DOWNLOAD_NEXT announces, right or
wrong, the data is written. -/
theorem C13_fails_count_mismatch {cfg : Cfg} (hc : cfg.Ok) (hcal : cfg.cal = true)
    (hmb : cfg.masterBlock = true) (hmap : cfg.mapper = false) (env : Env) {s : St} {p : Pdu} {data : List UInt8}
    {n : Nat} (hm : MidBlock s n) (h0 : 0 < data.length) (hk : data.length ≤ cfg.maxCto - 2)
    (hp : NextPkt p data.length data) (ha : s.mta.addr ≠ 0) :
    ∃ s', step cfg env s (.cmd p) = .ok s' ∧ StoredAt s.mem s'.mem s.mta.addr data := by
  have h9 := hc.cto_hi
  obtain ⟨rest, hrest⟩ := hp.payload
  have hlen : (UInt8.ofNat data.length).toNat = data.length := by simp; omega
  have hmin : min data.length cfg.dlPayload = data.length := by unfold Cfg.dlPayload; omega
  rw [hm.ready.stepc env .downloadNext hp.code (sup_next hc hcal hmb)]
  simp only [handler, downloadNextRes, byte_eq hp.count, ok_bind, hlen]
  rw [assertPgmIdle_pass (by simpa using hm.pgm), if_neg (by simp [hm.active]), hmin,
    downloadCopy_ok (by omega) hrest (by simpa [mapped, hmap] using fun _ => ha), ok_bind]
  have hst : StoredAt s.mem ((bumpReceived cfg s).mem.write (mapped cfg env (bumpReceived cfg s).mta) data) s.mta.addr data := by
    simpa [mapped, hmap] using write_stored s.mem s.mta.addr (data := data) (by omega)
  split
  · exact ⟨_, rfl, hst⟩
  · exact ⟨_, rfl, hst⟩

/-- A block of 70 bytes in two packets of 62 and 8 bytes. -/
def blockData : List UInt8 := (List.range 70).map fun i => UInt8.ofNat (200 - i)

/-- The theorem's hypotheses are met by that block. -/
example : FirstPkt Ex.sec Ex.env ⟨0, 0x1000⟩ ⟨64, [0xF0, 70] ++ blockData.take 62⟩ blockData ∧
    NextPkts (Ex.sec.maxCto - 2) (blockData.drop (Ex.sec.maxCto - 2)) [⟨10, [0xEF, 8] ++ blockData.drop 62⟩] := by
  refine ⟨⟨rfl, rfl, by decide, by decide, by decide, ⟨[], rfl⟩, fun _ => rfl⟩, ?_⟩
  exact .last (by decide) (by decide) ⟨rfl, rfl, ⟨[], rfl⟩⟩

example : Ex.obs Ex.sec [Ex.c [0xFF], Ex.c [0xF6, 0, 0, 0, 0, 0x10, 0, 0],
      (Ex.env, .cmd ⟨64, [0xF0, 70] ++ blockData.take 62⟩), (Ex.env, .cmd ⟨10, [0xEF, 8] ++ blockData.drop 62⟩)]
      (fun s => (s.mem.read 0x1000 70 == blockData, s.tx.length, s.mta.addr)) = some (true, 3, 0x1046) := by
  decide +kernel

/-- C13 fails: 70 bytes announced, 62 sent; the next packet announces 5 instead of 8 and is
accepted without an error, and a further one that announces 9 instead of 3 writes 9 bytes
beyond the block's end. -/
theorem C13_fails_witness :
    Ex.obs Ex.sec [Ex.c [0xFF], Ex.c [0xF6, 0, 0, 0, 0, 0x10, 0, 0],
      (Ex.env, .cmd ⟨64, [0xF0, 70] ++ blockData.take 62⟩), Ex.c [0xEF, 5, 1, 2, 3, 4, 5],
      Ex.c [0xEF, 9, 11, 12, 13, 14, 15, 16, 17, 18, 19]]
      (fun s => (s.mem.read 0x103E 14, s.tx.length)) =
    some ([1, 2, 3, 4, 5, 11, 12, 13, 14, 15, 16, 17, 18, 19], 2) := by decide +kernel

end Xcp
