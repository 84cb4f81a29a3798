import Verif.Proofs.Memory
import Verif.Model.Example
/-
C10: UPLOAD returns memory and advances the MTA (without slave block mode).
-/
set_option autoImplicit false
namespace Xcp
open Spec

/-- An UPLOAD of `n` bytes that fits one packet and that the memory hook permits at `m`. -/
structure Spec.UploadOk (cfg : Cfg) (env : Env) (m : Mta) (p : Pdu) (n : UInt8) : Prop where
  code : Spec.code p = some 0xF5
  len : p.buf[1]? = some n
  pos : 0 < n.toNat
  fits : n.toNat ≤ cfg.maxCto - 1
  allowed : cfg.memCheck = true → env.memCheck m n.toNat .read false = true

theorem upload_eq {cfg : Cfg} (hsb : cfg.slaveBlock = false)
    (hsup : cfg.supports .upload = true) {env : Env} {s : St} (hr : Ready s) (hpg : s.pgm ≠ .active)
    {p : Pdu} {n : UInt8} (hp : UploadOk cfg env s.mta p n) :
    step cfg env s (.cmd p) = .ok (sendRaw cfg { bumpReceived cfg s with mta := s.mta.advance n.toNat }
      (0xFF :: bytesAt s.mem (mapped cfg env s.mta) n.toNat)) := by
  have h1 := hp.pos
  have h2 := hp.fits
  rw [hr.stepc env .upload hp.code hsup]
  simp only [handler, uploadRes, byte_eq hp.len, ok_bind]
  rw [assertPgmIdle_pass (by simpa using hpg), checkMem_pass (by simpa using hp.allowed), if_neg (by omega)]
  unfold upload
  rw [if_neg (by simp [hsb]), copyGuard_pos (by omega)]
  rw [sendBytes_ok]
  · simp [read_eq]
  · simp only [List.length_cons, read_eq, bytesAt_length]; omega

/-- C10, one UPLOAD.  With an address mapper the bytes come from the mapped address. -/
theorem C10_upload {cfg : Cfg} (hsb : cfg.slaveBlock = false)
    (hsup : cfg.supports .upload = true) (env : Env) {s : St} (hr : Ready s) (hpg : s.pgm ≠ .active)
    (ho : s.ctoOut.length = cfg.maxCto) {p : Pdu} {n : UInt8} (hp : UploadOk cfg env s.mta p n) :
    ∃ s', step cfg env s (.cmd p) = .ok s' ∧
      Answers cfg s s' (0xFF :: bytesAt s.mem (if cfg.mapper then env.mapAddr s.mta else s.mta.addr) n.toNat) ∧
      s'.mta = ⟨s.mta.ext, s.mta.addr + UInt32.ofNat n.toNat⟩ ∧ s'.mem = s.mem ∧ Ready s' := by
  refine ⟨_, upload_eq hsb hsup hr hpg hp, ?_, rfl, by simp, ⟨?_, ?_⟩⟩
  · have := hp.fits
    have := hp.pos
    exact sendRaw_answers (by simp [bytesAt_length]; omega) (by simpa using ho) (by simp)
  · simpa using hr.conn
  · simpa using hr.idle

/-- C10, any sequence of UPLOADs reads consecutive memory. -/
theorem C10_upload_sequence {cfg : Cfg} (hsb : cfg.slaveBlock = false)
    (hsup : cfg.supports .upload = true) (hmap : cfg.mapper = false) {s : St} (hr : Ready s)
    (hpg : s.pgm ≠ .active) (ho : s.ctoOut.length = cfg.maxCto) (ups : List (Env × Pdu × UInt8))
    (hu : ∀ u ∈ ups, ∀ m, UploadOk cfg u.1 m u.2.1 u.2.2) :
    ∃ (s' : St) (fs : List Frame) (chunks : List (List UInt8)),
      run cfg s (ups.map fun u => (u.1, .cmd u.2.1)) = .ok s' ∧
      s'.tx = s.tx ++ fs ∧ CarriesAll cfg fs chunks ∧ chunks.length = ups.length ∧
      chunks.flatten = bytesAt s.mem s.mta.addr (ups.map fun u => u.2.2.toNat).sum ∧
      s'.mta = ⟨s.mta.ext, s.mta.addr + UInt32.ofNat (ups.map fun u => u.2.2.toNat).sum⟩ ∧
      s'.mem = s.mem := by
  induction ups generalizing s with
  | nil => exact ⟨s, [], [], rfl, by simp, trivial, rfl, rfl, by simp, rfl⟩
  | cons u rest ih =>
    obtain ⟨s1, h1, ⟨f, htx, hf⟩, hm, hmem, hr1⟩ :=
      C10_upload hsb hsup u.1 hr hpg ho (hu u List.mem_cons_self s.mta)
    have hs1 := upload_eq hsb hsup hr hpg (hu u List.mem_cons_self s.mta)
    rw [h1] at hs1
    cases hs1
    have hfit := (hu u List.mem_cons_self s.mta).fits
    have hpos := (hu u List.mem_cons_self s.mta).pos
    obtain ⟨s', fs, chunks, h2, htx2, hca, hcl, hfl, hm2, hmem2⟩ := ih hr1 (by simpa using hpg)
      (sendRaw_ctoOut_length (by simp [bytesAt_length]; omega) (by simpa using ho))
      (fun v hv => hu v (List.mem_cons_of_mem _ hv))
    refine ⟨s', f :: fs, bytesAt s.mem s.mta.addr u.2.2.toNat :: chunks, ?_, ?_, ⟨?_, hca⟩, by simp [hcl], ?_, ?_, ?_⟩
    · simp only [List.map_cons, run, h1, ok_bind]; exact h2
    · rw [htx2, htx]; simp
    · simpa [hmap] using hf
    · simp only [List.flatten_cons, hfl, List.map_cons, List.sum_cons, hmem, hm]
      rw [bytesAt_add]
    · rw [hm2, hm]
      simp [UInt32.ofNat_add, UInt32.add_assoc]
    · rw [hmem2, hmem]

/-- Two uploads on the simulator read memory from 0x1234 on. -/
example : Ex.frames Ex.sim [Ex.c [0xFF], Ex.c [0xF6, 0, 0, 0, 0x34, 0x12, 0, 0], Ex.c [0xF5, 3], Ex.c [0xF5, 2]] =
    some [[8, 0, 0, 0, 0xFF, 0x15, 0x80, 64, 64, 0, 1, 1], [1, 0, 1, 0, 0xFF],
      [4, 0, 2, 0, 0xFF, 0x34, 0x35, 0x36], [3, 0, 3, 0, 0xFF, 0x37, 0x38]] := by decide +kernel

example (m : Mta) : UploadOk Ex.sim Ex.env m (Ex.pkt [0xF5, 63]) 63 := by
  constructor <;> first | rfl | decide | (intro h; cases h)

end Xcp
