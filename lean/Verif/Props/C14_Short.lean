import Verif.Props.C11_BlockUpload
import Verif.Props.C12_Download
/-
C14: SHORT_UPLOAD and SHORT_DOWNLOAD act on the given address.

SHORT_UPLOAD does (`C14_short_upload`).  SHORT_DOWNLOAD stores the bytes at the given
address (`C14_short_download_partial`), but it advances the old MTA instead of setting it
behind the data (`C14_fails_short_download_mta`).
-/
set_option autoImplicit false
namespace Xcp
open Spec

/-- A SHORT_UPLOAD (0xF4) or SHORT_DOWNLOAD (0xED) packet for `n` bytes at `ext`, `addr`. -/
structure Spec.ShortPkt (cfg : Cfg) (p : Pdu) (c : UInt8) (n : Nat) (ext : UInt8) (addr : Nat) : Prop where
  code : Spec.code p = some c
  len : p.buf[1]? = some (UInt8.ofNat n)
  pos : 0 < n
  extByte : p.buf[3]? = some ext
  address : Param cfg.motorola p 4 4 addr
  addrOk : cfg.wrapv = true ∨ addr < 2 ^ 31

/-- C14 for SHORT_UPLOAD, with and without block mode: the bytes at the given address are
sent and the MTA is left behind them.  The access hook is asked about the *old* MTA (see
C15), so the hypothesis is about that. -/
theorem C14_short_upload {cfg : Cfg} (hc : cfg.Ok) (hsup : cfg.supports .shortUpload = true)
    (env : Env) {s : St} (hr : Ready s) (hpg : s.pgm ≠ .active) (ho : s.ctoOut.length = cfg.maxCto)
    {p : Pdu} {n : Nat} {ext : UInt8} {addr : Nat} (hp : ShortPkt cfg p 0xF4 n ext addr) (hn : n ≤ cfg.maxCto - 1)
    (hall : cfg.memCheck = true → env.memCheck s.mta n .read false = true) :
    ∃ s', step cfg env s (.cmd p) = .ok s' ∧
      Answers cfg s s' (0xFF :: bytesAt s.mem
        (if cfg.mapper then env.mapAddr ⟨ext, UInt32.ofNat addr⟩ else UInt32.ofNat addr) n) ∧
      s'.mta = ⟨ext, UInt32.ofNat addr + UInt32.ofNat n⟩ ∧ s'.mem = s.mem ∧ Ready s' := by
  have h8 := hc.cto_lo
  have h9 := hc.cto_hi
  have h0 := hp.pos
  have hlen : (UInt8.ofNat n).toNat = n := by simp; omega
  rw [hr.stepc env .shortUpload hp.code hsup]
  simp only [handler, shortUploadRes, byte_eq hp.len, ok_bind, hlen, byte_eq hp.extByte, hp.address.dword hp.addrOk]
  rw [assertPgmIdle_pass (by simpa using hpg), checkMem_pass (by simpa using hall), if_neg (by omega)]
  unfold upload
  by_cases hsb : cfg.slaveBlock
  · rw [if_pos hsb, uploadSingleBlock_eq h8 rfl (by exact h0) (k := n) (by
      show n = min n (cfg.maxCto - 1); omega)]
    refine ⟨_, rfl, ?_, rfl, by simp [blkNext, setSlaveActive], ⟨?_, ?_⟩⟩
    · unfold blkNext
      simp only [setSlaveActive, bumpReceived_mem, mapped]
      refine sendRaw_answers (s0 := s) ?_ ?_ ?_
      · simp [bytesAt_length]; omega
      · simpa using ho
      · simp
    · simpa [blkNext, setSlaveActive] using hr.conn
    · simp [blkNext, setSlaveActive]
  · rw [if_neg hsb, copyGuard_pos (by omega), sendBytes_ok (by simp [read_eq, bytesAt_length]; omega)]
    refine ⟨_, rfl, ?_, rfl, by simp, ⟨by simpa using hr.conn, by simpa using hr.idle⟩⟩
    simp only [read_eq, bumpReceived_mem, mapped]
    refine sendRaw_answers (s0 := s) ?_ ?_ ?_
    · simp [bytesAt_length]; omega
    · simpa using ho
    · simp

theorem shortDownload_eq {cfg : Cfg} (hc : cfg.Ok) (hsup : cfg.supports .shortDownload = true)
    (env : Env) {s : St} (hr : Ready s) (hpg : s.pgm ≠ .active)
    {p : Pdu} {data rest : List UInt8} {ext : UInt8} {addr : Nat} (hp : ShortPkt cfg p 0xED data.length ext addr)
    (hd : p.buf.drop 8 = data ++ rest) (hn : data.length ≤ cfg.maxCto - 8)
    (hall : cfg.memCheck = true → env.memCheck ⟨ext, UInt32.ofNat addr⟩ data.length .write false = true)
    (hnn : cfg.asserts = true → mapped cfg env ⟨ext, UInt32.ofNat addr⟩ ≠ 0) :
    step cfg env s (.cmd p) = .ok (positive cfg { bumpReceived cfg s with
      mem := s.mem.write (mapped cfg env ⟨ext, UInt32.ofNat addr⟩) data, mta := s.mta.advance data.length }) := by
  have h9 := hc.cto_hi
  have h0 := hp.pos
  have hlen : (UInt8.ofNat data.length).toNat = data.length := by simp; omega
  rw [hr.stepc env .shortDownload hp.code hsup]
  simp only [handler, shortDownloadRes, byte_eq hp.len, ok_bind, hlen, byte_eq hp.extByte, hp.address.dword hp.addrOk]
  rw [assertPgmIdle_pass (by simpa using hpg), checkMem_pass hall, if_neg (by omega),
    slice_ok (by omega) hd, ok_bind, copyIn_ok (by omega) hnn]
  simp

/-- C14 for SHORT_DOWNLOAD, without the MTA: the bytes are stored at the given address and
nothing else is written. -/
theorem C14_short_download_partial {cfg : Cfg} (hc : cfg.Ok) (hs : ShortOk cfg)
    (hsup : cfg.supports .shortDownload = true)
    (env : Env) {s : St} (hr : Ready s) (hpg : s.pgm ≠ .active)
    {p : Pdu} {data rest : List UInt8} {ext : UInt8} {addr : Nat} (hp : ShortPkt cfg p 0xED data.length ext addr)
    (hd : p.buf.drop 8 = data ++ rest) (hn : data.length ≤ cfg.maxCto - 8)
    (hall : cfg.memCheck = true → env.memCheck ⟨ext, UInt32.ofNat addr⟩ data.length .write false = true)
    (hnn : cfg.asserts = true →
      (if cfg.mapper then env.mapAddr ⟨ext, UInt32.ofNat addr⟩ else UInt32.ofNat addr) ≠ 0) :
    ∃ s', step cfg env s (.cmd p) = .ok s' ∧ Answers cfg s s' [0xFF] ∧
      StoredAt s.mem s'.mem
        (if cfg.mapper then env.mapAddr ⟨ext, UInt32.ofNat addr⟩ else UInt32.ofNat addr) data ∧ Ready s' := by
  have h9 := hc.cto_hi
  refine ⟨_, shortDownload_eq hc hsup env hr hpg hp hd hn hall hnn, send8_answers hs (by simp) (by simp),
    write_stored _ _ (by omega), ⟨by simpa using hr.conn, by simpa using hr.idle⟩⟩

/-- C14 fails for SHORT_DOWNLOAD: the new MTA is the old one plus the length, whatever the
address in the packet is. -/
theorem C14_fails_short_download_mta {cfg : Cfg} (hc : cfg.Ok) (hsup : cfg.supports .shortDownload = true)
    (env : Env) {s : St} (hr : Ready s) (hpg : s.pgm ≠ .active)
    {p : Pdu} {data rest : List UInt8} {ext : UInt8} {addr : Nat} (hp : ShortPkt cfg p 0xED data.length ext addr)
    (hd : p.buf.drop 8 = data ++ rest) (hn : data.length ≤ cfg.maxCto - 8)
    (hall : cfg.memCheck = true → env.memCheck ⟨ext, UInt32.ofNat addr⟩ data.length .write false = true)
    (hnn : cfg.asserts = true →
      (if cfg.mapper then env.mapAddr ⟨ext, UInt32.ofNat addr⟩ else UInt32.ofNat addr) ≠ 0) :
    ∃ s', step cfg env s (.cmd p) = .ok s' ∧
      s'.mta = ⟨s.mta.ext, s.mta.addr + UInt32.ofNat data.length⟩ :=
  ⟨_, shortDownload_eq hc hsup env hr hpg hp hd hn hall hnn, rfl⟩

/-- C14 fails: after a SHORT_DOWNLOAD of two bytes to 0x2000 the MTA is at 0x1002. -/
theorem C14_fails_witness :
    Ex.obs Ex.sim [Ex.c [0xFF], Ex.c [0xF6, 0, 0, 0, 0, 0x10, 0, 0], Ex.c [0xED, 2, 0, 0, 0, 0x20, 0, 0, 7, 8]]
      (fun s => (s.mem.read 0x2000 3, s.mta)) = some ([7, 8, 2], ⟨0, 0x1002⟩) := by decide +kernel

example : ShortPkt Ex.sim (Ex.pkt [0xED, 2, 0, 0, 0, 0x20, 0, 0, 7, 8]) 0xED 2 0 0x2000 :=
  ⟨rfl, rfl, by decide, rfl, ⟨by decide, by decide⟩, Or.inr (by decide)⟩

/-- SHORT_UPLOAD in both block modes. -/
example : Ex.obs Ex.sim [Ex.c [0xFF], Ex.c [0xF4, 2, 0, 5, 0x34, 0x12, 0, 0]]
      (fun s => (s.tx.map Frame.bytes, s.mta)) =
    some ([[8, 0, 0, 0, 0xFF, 0x15, 0x80, 64, 64, 0, 1, 1], [3, 0, 1, 0, 0xFF, 0x34, 0x35]], ⟨5, 0x1236⟩) ∧
    Ex.obs Ex.can [Ex.c [0xFF], Ex.c [0xF4, 2, 0, 5, 0x34, 0x12, 0, 0]]
      (fun s => (s.tx.map Frame.bytes, s.mta)) =
    some ([[0xFF, 0x15, 0xC0, 8, 8, 0, 1, 1], [0xFF, 0x34, 0x35]], ⟨5, 0x1236⟩) := by decide +kernel

end Xcp
