import Verif.Props.C10_Upload
import Verif.Proofs.Params
/-
C12: DOWNLOAD writes exactly the given bytes.
-/
set_option autoImplicit false
namespace Xcp
open Spec

/-- A DOWNLOAD of `data` (1 to MAX_CTO-2 bytes) that the memory hook permits at `m`, where
the destination is not the null pointer. -/
structure Spec.DownloadOk (cfg : Cfg) (env : Env) (m : Mta) (p : Pdu) (data : List UInt8) : Prop where
  code : Spec.code p = some 0xF0
  len : p.buf[1]? = some (UInt8.ofNat data.length)
  pos : 0 < data.length
  fits : data.length ≤ cfg.maxCto - 2
  payload : ∃ rest, p.buf.drop 2 = data ++ rest
  allowed : cfg.memCheck = true → env.memCheck m data.length .write false = true
  notNull : cfg.asserts = true → mapped cfg env m ≠ 0

theorem slice_ok {p : Pdu} {off : Nat} {data rest : List UInt8} (hl : data.length ≠ 0)
    (h : p.buf.drop off = data ++ rest) : p.slice off data.length = .ok data := by
  have hlen : p.buf.length - off = data.length + rest.length := by
    have := congrArg List.length h
    simpa using this
  unfold Pdu.slice
  rw [if_pos (by omega), h]
  simp

theorem copyIn_ok {cfg : Cfg} {env : Env} {s : St} {m : Mta} {data : List UInt8} (hl : data.length ≠ 0)
    (hn : cfg.asserts = true → mapped cfg env m ≠ 0) :
    copyIn cfg env s m data = .ok { s with mem := s.mem.write (mapped cfg env m) data } := by
  unfold copyIn
  rw [if_neg]
  intro h
  simp only [Bool.and_eq_true, Bool.or_eq_true, beq_iff_eq] at h
  rcases h with ⟨h1, h2 | h2⟩
  · exact hn h1 h2
  · exact hl h2

theorem downloadCopy_ok {cfg : Cfg} {env : Env} {s : St} {p : Pdu} {off : Nat} {data rest : List UInt8}
    (hl : data.length ≠ 0) (h : p.buf.drop off = data ++ rest)
    (hn : cfg.asserts = true → mapped cfg env s.mta ≠ 0) :
    downloadCopy cfg env s p off data.length = .ok { s with
      mem := s.mem.write (mapped cfg env s.mta) data, mta := s.mta.advance data.length } := by
  unfold downloadCopy
  rw [slice_ok hl h, ok_bind, copyIn_ok hl hn, ok_bind]
  rfl

theorem download_eq {cfg : Cfg} (hcto : cfg.maxCto ≤ 255) (hcal : cfg.cal = true)
    (hbs : cfg.masterBlock = true → cfg.maxCto - 2 ≤ cfg.maxBs * (cfg.maxCto - 2) % 65536)
    {env : Env} {s : St} (hr : Ready s) (hpg : s.pgm ≠ .active)
    {p : Pdu} {data : List UInt8} (hp : DownloadOk cfg env s.mta p data) :
    step cfg env s (.cmd p) = .ok (positive cfg { bumpReceived cfg s with
      mem := s.mem.write (mapped cfg env s.mta) data
      mta := s.mta.advance data.length
      masterBlk := if cfg.masterBlock then ⟨false, s.masterBlk.remaining⟩ else s.masterBlk }) := by
  obtain ⟨rest, hrest⟩ := hp.payload
  have h1 := hp.pos
  have h2 := hp.fits
  have hn : (UInt8.ofNat data.length).toNat = data.length := by simp; omega
  have hcopy : ∀ s1 : St, s1.mta = s.mta → downloadCopy cfg env s1 p 2 data.length = .ok { s1 with
      mem := s1.mem.write (mapped cfg env s.mta) data, mta := s.mta.advance data.length } := by
    intro s1 hm
    rw [← hm]
    exact downloadCopy_ok (by omega) hrest (by rw [hm]; exact hp.notNull)
  rw [hr.stepc env .download hp.code (by simp [Cfg.supports, Cmd.group, Cmd.mandatory, hcal])]
  simp only [handler, downloadRes, byte_eq hp.len, ok_bind, hn]
  rw [assertPgmIdle_pass (by simpa using hpg), checkMem_pass (by simpa using hp.allowed)]
  by_cases hmb : cfg.masterBlock
  · have := hbs hmb
    unfold Cfg.dlPayload
    rw [if_pos hmb, if_neg (by omega), if_neg (by omega), hcopy _ (by simp), ok_bind]
    simp [hmb]
  · unfold Cfg.dlPayload
    rw [if_neg hmb, if_neg (by omega), hcopy _ (by simp), ok_bind]
    simp [hmb]

/-- C12.  (With master block mode, MAX_BS packets must be able to hold at least one
packet's data, as any sensible setting does.) -/
theorem C12_download {cfg : Cfg} (hc : cfg.Ok) (hs : ShortOk cfg) (hcal : cfg.cal = true)
    (hbs : cfg.masterBlock = true → cfg.maxCto - 2 ≤ cfg.maxBs * (cfg.maxCto - 2) % 65536)
    (env : Env) {s : St} (hr : Ready s) (hpg : s.pgm ≠ .active)
    {p : Pdu} {data : List UInt8} (hp : DownloadOk cfg env s.mta p data) :
    ∃ s', step cfg env s (.cmd p) = .ok s' ∧ Answers cfg s s' [0xFF] ∧
      StoredAt s.mem s'.mem (if cfg.mapper then env.mapAddr s.mta else s.mta.addr) data ∧
      s'.mta = ⟨s.mta.ext, s.mta.addr + UInt32.ofNat data.length⟩ ∧
      Ready s' ∧ s'.daq = s.daq ∧ s'.pgm = s.pgm := by
  have h8 := hc.cto_hi
  have h2 := hp.fits
  refine ⟨_, download_eq h8 hcal hbs hr hpg hp, ?_, ?_, rfl, ⟨?_, ?_⟩, ?_, ?_⟩
  · exact send8_answers hs (by simp) (by simp)
  · exact write_stored _ _ (by omega)
  · simpa using hr.conn
  · simpa using hr.idle
  · simp
  · simp

/-- SET_MTA sets the memory transfer address. -/
theorem setMta_eq {cfg : Cfg} (hsup : cfg.supports .setMta = true) {env : Env} {s : St} (hr : Ready s)
    {p : Pdu} {ext : UInt8} {addr : Nat} (hp : code p = some 0xF6) (he : p.buf[3]? = some ext)
    (ha : Param cfg.motorola p 4 4 addr) (hw : cfg.wrapv = true ∨ addr < 2 ^ 31) :
    step cfg env s (.cmd p) = .ok (positive cfg { bumpReceived cfg s with mta := ⟨ext, UInt32.ofNat addr⟩ }) := by
  rw [hr.stepc env .setMta hp hsup]
  simp [handler, setMtaRes, byte_eq he, ha.dword hw]

/-- C12, round trip: DOWNLOAD, SET_MTA back to the same address, UPLOAD of the same length
returns the downloaded bytes. -/
theorem C12_download_upload {cfg : Cfg} (hc : cfg.Ok) (hcal : cfg.cal = true)
    (hsb : cfg.slaveBlock = false) (hmap : cfg.mapper = false)
    (hsup1 : cfg.supports .setMta = true) (hsup2 : cfg.supports .upload = true)
    (hbs : cfg.masterBlock = true → cfg.maxCto - 2 ≤ cfg.maxBs * (cfg.maxCto - 2) % 65536)
    {e1 e2 e3 : Env} {s : St} (hr : Ready s) (hpg : s.pgm ≠ .active) (ho : s.ctoOut.length = cfg.maxCto)
    {p1 p2 p3 : Pdu} {data : List UInt8} (hp1 : DownloadOk cfg e1 s.mta p1 data)
    (hp2 : code p2 = some 0xF6) (he2 : p2.buf[3]? = some s.mta.ext)
    (ha2 : Param cfg.motorola p2 4 4 s.mta.addr.toNat) (hw2 : cfg.wrapv = true ∨ s.mta.addr.toNat < 2 ^ 31)
    (hp3 : UploadOk cfg e3 s.mta p3 (UInt8.ofNat data.length)) :
    ∃ s1 s', run cfg s [(e1, .cmd p1), (e2, .cmd p2)] = .ok s1 ∧ step cfg e3 s1 (.cmd p3) = .ok s' ∧
      Answers cfg s1 s' (0xFF :: data) := by
  have h8 := hc.cto_hi
  have h7 := hc.cto_lo
  have hfit := hp1.fits
  have hd := download_eq h8 hcal hbs hr hpg hp1
  generalize hsd : positive cfg _ = sd at hd
  have hrd : Ready sd := by rw [← hsd]; exact ⟨by simpa using hr.conn, by simpa using hr.idle⟩
  have hm := setMta_eq (env := e2) hsup1 hrd hp2 he2 ha2 hw2
  generalize hsm : positive cfg _ = sm at hm
  have hmem : sm.mem = s.mem.write (mapped cfg e1 s.mta) data := by rw [← hsm, ← hsd]; simp
  have hmta : sm.mta = s.mta := by rw [← hsm]; simp
  have hout : ∀ (s : St) bs, s.ctoOut.length = cfg.maxCto → bs.length ≤ cfg.maxCto → (send8 cfg s bs).ctoOut.length = cfg.maxCto := by
    intro s bs h hb
    show (if _ ≤ 8 then overlay s.ctoOut _ else s.ctoOut).length = _
    split <;> split
    · apply overlay_length h; simp; omega
    · exact h
    · apply overlay_length h; simp; omega
    · exact h
  have hom : sm.ctoOut.length = cfg.maxCto := by
    rw [← hsm]
    refine hout _ _ ?_ (by simp; omega)
    rw [bumpReceived_ctoOut, ← hsd]
    exact hout _ _ (by simpa using ho) (by simp; omega)
  obtain ⟨s', h1, h2, -⟩ := C10_upload hsb hsup2 e3 (s := sm)
    (by rw [← hsm]; exact ⟨by simpa using hrd.conn, by simpa using hrd.idle⟩)
    (by rw [← hsm, ← hsd]; simpa using hpg) hom (p := p3) (n := UInt8.ofNat data.length) (by rw [hmta]; exact hp3)
  refine ⟨sm, s', ?_, h1, ?_⟩
  · simp only [run, hd, ok_bind, hm]
  · have hn : (UInt8.ofNat data.length).toNat = data.length := by simp; omega
    rw [hn, hmem, hmta] at h2
    have hst := write_stored s.mem (mapped cfg e1 s.mta) (data := data) (by omega)
    have := StoredAt_bytes hst
    simp only [mapped, hmap] at this h2
    rw [show (if false = true then e3.mapAddr s.mta else s.mta.addr) = s.mta.addr from rfl] at h2
    rw [show (if false = true then e1.mapAddr s.mta else s.mta.addr) = s.mta.addr from rfl] at h2 this
    rwa [this] at h2

/-- Three bytes written and read back on the simulator, with the neighbouring byte. -/
example : Ex.frames Ex.sim [Ex.c [0xFF], Ex.c [0xF6, 0, 0, 0, 0x34, 0x12, 0, 0], Ex.c [0xF0, 3, 9, 8, 7],
      Ex.c [0xF6, 0, 0, 0, 0x34, 0x12, 0, 0], Ex.c [0xF5, 4]] =
    some [[8, 0, 0, 0, 0xFF, 0x15, 0x80, 64, 64, 0, 1, 1], [1, 0, 1, 0, 0xFF], [1, 0, 2, 0, 0xFF],
      [1, 0, 3, 0, 0xFF], [5, 0, 4, 0, 0xFF, 9, 8, 7, 0x37]] := by decide +kernel

example : DownloadOk Ex.sim Ex.env ⟨0, 0x1234⟩ (Ex.pkt [0xF0, 3, 9, 8, 7]) [9, 8, 7] :=
  ⟨rfl, rfl, by decide, by decide, ⟨_, rfl⟩, (fun h => by cases h), by decide⟩

/-- DOWNLOAD_MAX stores MAX_CTO-1 bytes. -/
theorem C12_download_max {cfg : Cfg} (hc : cfg.Ok) (hs : ShortOk cfg) (hsup : cfg.supports .downloadMax = true)
    (env : Env) {s : St} (hr : Ready s) (hpg : s.pgm ≠ .active)
    {p : Pdu} {data rest : List UInt8} (hp : code p = some 0xEE) (hd : p.buf.drop 1 = data ++ rest)
    (hl : data.length = cfg.maxCto - 1)
    (hn : cfg.asserts = true → (if cfg.mapper then env.mapAddr s.mta else s.mta.addr) ≠ 0) :
    ∃ s', step cfg env s (.cmd p) = .ok s' ∧ Answers cfg s s' [0xFF] ∧
      StoredAt s.mem s'.mem (if cfg.mapper then env.mapAddr s.mta else s.mta.addr) data ∧
      s'.mta = ⟨s.mta.ext, s.mta.addr + UInt32.ofNat data.length⟩ := by
  have h8 := hc.cto_lo
  have h9 := hc.cto_hi
  have hl' : cfg.dlPayload + 1 = data.length := by unfold Cfg.dlPayload; omega
  refine ⟨positive cfg { bumpReceived cfg s with
      mem := s.mem.write (mapped cfg env s.mta) data, mta := s.mta.advance data.length }, ?_, ?_, ?_, rfl⟩
  · rw [hr.stepc env .downloadMax hp hsup]
    simp only [handler, downloadMaxRes]
    rw [assertPgmIdle_pass (by simpa using hpg), hl', downloadCopy_ok (by omega) hd (by simpa [mapped] using hn), ok_bind]
    simp
  · exact send8_answers hs (by simp) (by simp)
  · exact write_stored _ _ (by omega)

example : Ex.frames Ex.can [Ex.c [0xFF], Ex.c [0xF6, 0, 0, 0, 0x34, 0x12, 0, 0], Ex.c [0xEE, 1, 2, 3, 4, 5, 6, 7],
      Ex.c [0xF4, 7, 0, 0, 0x34, 0x12, 0, 0]] =
    some [[0xFF, 0x15, 0xC0, 8, 8, 0, 1, 1], [0xFF], [0xFF], [0xFF, 1, 2, 3, 4, 5, 6, 7]] := by decide +kernel

end Xcp
