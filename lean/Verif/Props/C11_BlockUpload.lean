import Verif.Proofs.Memory
import Verif.Model.Example
/-
C11: a block upload delivers the whole block and ends.
-/
set_option autoImplicit false
namespace Xcp
open Spec

theorem uploadFrame_eq {cfg : Cfg} {env : Env} {s : St} {k : Nat} (hk : k ≠ 0) (hl : k + 1 ≤ cfg.maxCto) :
    uploadFrame cfg env s k = .ok (sendRaw cfg
      { s with
        mta := s.mta.advance k
        busy := if s.slaveBlk.remaining - k = 0 then false else s.busy
        slaveBlk := ⟨if s.slaveBlk.remaining - k = 0 then false else s.slaveBlk.active, s.slaveBlk.remaining - k⟩ }
      (0xFF :: bytesAt s.mem (mapped cfg env s.mta) k)) := by
  unfold uploadFrame
  rw [copyGuard_pos hk, sendBytes_ok (by simp [read_eq, bytesAt_length]; omega), ok_bind]
  by_cases h : s.slaveBlk.remaining - k = 0
  · rw [if_pos (by exact h)]
    simp only [h, if_true]
    rfl
  · rw [if_neg (by exact h)]
    simp only [h, if_false]
    rfl

/-- State after `k` more bytes of a block upload with `r` bytes remaining. -/
def blkNext (cfg : Cfg) (env : Env) (s : St) (r k : Nat) : St :=
  sendRaw cfg
    { s with
      mta := s.mta.advance k
      busy := if r - k = 0 then false else s.busy
      slaveBlk := ⟨if r - k = 0 then false else true, r - k⟩ }
    (0xFF :: bytesAt s.mem (mapped cfg env s.mta) k)

theorem uploadSingleBlock_eq {cfg : Cfg} (hcto : 8 ≤ cfg.maxCto) {env : Env} {s : St}
    (ha : s.slaveBlk.active = true) (hr : 0 < s.slaveBlk.remaining) {k : Nat}
    (hk : k = min s.slaveBlk.remaining (cfg.maxCto - 1)) :
    uploadSingleBlock cfg env s = .ok (blkNext cfg env s s.slaveBlk.remaining k) := by
  unfold uploadSingleBlock blkNext
  rw [if_neg (by simp [ha])]
  split
  · rename_i h
    rw [Nat.min_eq_left h] at hk
    subst hk
    rw [uploadFrame_eq (by omega) (by omega), ha]
  · rename_i h
    rw [Nat.min_eq_right (by omega)] at hk
    subst hk
    rw [uploadFrame_eq (by omega) (by omega), ha]

/-- `envs.length` main-function calls during a block upload. -/
theorem mains_block {cfg : Cfg} (hcto : 8 ≤ cfg.maxCto) (hsb : cfg.slaveBlock = true)
    (hmap : cfg.mapper = false) (envs : List Env) {s : St}
    (hck : s.ck.state = .idle) (ho : s.ctoOut.length = cfg.maxCto) {r : Nat}
    (hact : s.slaveBlk.active = decide (0 < r)) (hrem : s.slaveBlk.remaining = r) (hbz : s.busy = decide (0 < r))
    (hlen : envs.length = 0 ∨ (envs.length - 1) * (cfg.maxCto - 1) < r) :
    ∃ (s' : St) (fs : List Frame) (chunks : List (List UInt8)),
      run cfg s (envs.map fun e => (e, .main)) = .ok s' ∧
      s'.tx = s.tx ++ fs ∧ CarriesAll cfg fs chunks ∧ chunks.length = envs.length ∧
      chunks.flatten = bytesAt s.mem s.mta.addr (min (envs.length * (cfg.maxCto - 1)) r) ∧
      s'.mta = ⟨s.mta.ext, s.mta.addr + UInt32.ofNat (min (envs.length * (cfg.maxCto - 1)) r)⟩ ∧
      s'.mem = s.mem ∧ s'.busy = decide (envs.length * (cfg.maxCto - 1) < r) ∧
      s'.slaveBlk.active = decide (envs.length * (cfg.maxCto - 1) < r) ∧ s'.connected = s.connected := by
  induction envs generalizing s r with
  | nil =>
    refine ⟨s, [], [], rfl, by simp, trivial, rfl, by simp [bytesAt], by simp, rfl, ?_, ?_, rfl⟩
    · simp [hbz]
    · simp [hact]
  | cons e rest ih =>
    have hr0 : 0 < r := by
      rcases hlen with h | h
      · simp at h
      · omega
    obtain ⟨k, hk⟩ : ∃ k, k = min s.slaveBlk.remaining (cfg.maxCto - 1) := ⟨_, rfl⟩
    have hstep : step cfg e s .main = .ok (blkNext cfg e s s.slaveBlk.remaining k) := by
      have h1 := uploadSingleBlock_eq (env := e) hcto (by simp [hact, hr0]) (by omega) hk
      show mainFunction cfg e s = _
      unfold mainFunction mainUpload
      rw [if_pos hsb, h1, ok_bind]
      unfold mainChecksum checksumMain
      have : (blkNext cfg e s s.slaveBlk.remaining k).ck.state = .idle := hck
      simp only [this, ite_self]
      rfl
    have hk' : k = min r (cfg.maxCto - 1) := by rw [hk, hrem]
    rw [hrem] at hstep
    generalize hs1 : blkNext cfg e s r k = s1 at hstep
    unfold blkNext at hs1
    have hkl : (0xFF :: bytesAt s.mem (mapped cfg e s.mta) k).length ≤ cfg.maxCto := by
      simp [bytesAt_length]; omega
    have htx : ∃ f, s1.tx = s.tx ++ [f] ∧ Carries cfg f (0xFF :: bytesAt s.mem s.mta.addr k) := by
      rw [← hs1]
      have := sendRaw_answers (cfg := cfg) (s := { s with
          mta := s.mta.advance k
          busy := if r - k = 0 then false else s.busy
          slaveBlk := ⟨if r - k = 0 then false else true, r - k⟩ })
        (s0 := s) hkl ho rfl
      simpa [Answers, mapped, hmap] using this
    obtain ⟨f, htx, hf⟩ := htx
    have hm1 : s1.mta = s.mta.advance k := by rw [← hs1]; rfl
    have hmem1 : s1.mem = s.mem := by rw [← hs1]; rfl
    obtain ⟨s', fs, chunks, h2, htx2, hca, hcl, hfl, hm2, hmem2, hb2, ha2, hcn2⟩ := ih (s := s1) (r := r - k)
      (by rw [← hs1]; exact hck)
      (by rw [← hs1]; exact sendRaw_ctoOut_length hkl ho)
      (by rw [← hs1]; simp only [sendRaw_slaveBlk]; by_cases h : r - k = 0 <;> simp [h]; omega)
      (by rw [← hs1]; rfl)
      (by rw [← hs1]; simp only [sendRaw_busy, hbz]; by_cases h : r - k = 0 <;> simp [h]; omega)
      (by
        rcases hlen with h | h
        · simp at h
        · by_cases hz : rest.length = 0
          · exact Or.inl hz
          · right
            obtain ⟨m, hm⟩ := Nat.exists_eq_succ_of_ne_zero hz
            simp only [hm, Nat.succ_eq_add_one, List.length_cons, Nat.add_sub_cancel, Nat.add_mul, Nat.one_mul] at h ⊢
            omega)
    have harith : k + min (rest.length * (cfg.maxCto - 1)) (r - k) =
        min ((rest.length + 1) * (cfg.maxCto - 1)) r := by
      rw [Nat.add_mul, Nat.one_mul]
      omega
    refine ⟨s', f :: fs, bytesAt s.mem s.mta.addr k :: chunks, ?_, ?_, ⟨hf, hca⟩, by simp [hcl], ?_, ?_, ?_, ?_, ?_, ?_⟩
    · simp only [List.map_cons, run, hstep, ok_bind]; exact h2
    · rw [htx2, htx]; simp
    · simp only [List.flatten_cons, hfl, hmem1, hm1, List.length_cons, Mta.advance]
      rw [← bytesAt_add, harith]
    · rw [hm2, hm1]
      simp only [Mta.advance, List.length_cons, ← harith, UInt32.ofNat_add, UInt32.add_assoc]
    · rw [hmem2, hmem1]
    · rw [hb2]
      simp only [List.length_cons, Nat.add_mul, Nat.one_mul, decide_eq_decide]
      omega
    · rw [ha2]
      simp only [List.length_cons, Nat.add_mul, Nat.one_mul, decide_eq_decide]
      omega
    · rw [hcn2, ← hs1]; rfl

/-- C11.  After an UPLOAD of `n` bytes and `envs.length` main-function calls, as long as
the block needs them all, `m = envs.length + 1` packets were sent; together they carry
the first `m * (MAX_CTO - 1)` bytes of the block, or all of it.  The slave is busy
exactly while bytes are missing. -/
theorem C11_block_upload {cfg : Cfg} (hcto : 8 ≤ cfg.maxCto) (hsb : cfg.slaveBlock = true)
    (hmap : cfg.mapper = false) (hsup : cfg.supports .upload = true) (env : Env) {s : St} (hr : Ready s)
    (hck : s.ck.state = .idle) (hpg : s.pgm ≠ .active) (ho : s.ctoOut.length = cfg.maxCto)
    {p : Pdu} {n : UInt8} (hp : code p = some 0xF5) (hn : p.buf[1]? = some n) (hn0 : 0 < n.toNat)
    (hal : cfg.memCheck = true → env.memCheck s.mta n.toNat .read false = true)
    (envs : List Env) (hlen : envs.length * (cfg.maxCto - 1) < n.toNat) :
    ∃ (s' : St) (fs : List Frame) (chunks : List (List UInt8)),
      run cfg s ((env, .cmd p) :: envs.map fun e => (e, .main)) = .ok s' ∧
      s'.tx = s.tx ++ fs ∧ CarriesAll cfg fs chunks ∧ chunks.length = envs.length + 1 ∧
      chunks.flatten = bytesAt s.mem s.mta.addr (min ((envs.length + 1) * (cfg.maxCto - 1)) n.toNat) ∧
      s'.mta = ⟨s.mta.ext,
        s.mta.addr + UInt32.ofNat (min ((envs.length + 1) * (cfg.maxCto - 1)) n.toNat)⟩ ∧
      s'.mem = s.mem ∧ s'.connected = true ∧
      s'.busy = decide ((envs.length + 1) * (cfg.maxCto - 1) < n.toNat) := by
  obtain ⟨k, hk⟩ : ∃ k, k = min n.toNat (cfg.maxCto - 1) := ⟨_, rfl⟩
  have hstep : step cfg env s (.cmd p) = .ok (blkNext cfg env
      (setSlaveActive { bumpReceived cfg s with slaveBlk := ⟨(bumpReceived cfg s).slaveBlk.active, n.toNat⟩ } true)
      n.toNat k) := by
    rw [hr.stepc env .upload hp hsup]
    simp only [handler, uploadRes, byte_eq hn, ok_bind]
    rw [assertPgmIdle_pass (by simpa using hpg), checkMem_pass (by simpa using hal), if_neg (by simp [hsb])]
    unfold upload
    rw [if_pos hsb]
    exact uploadSingleBlock_eq hcto rfl (by exact hn0) hk
  simp only [blkNext, setSlaveActive, bumpReceived_mta, bumpReceived_mem] at hstep
  have hkl : (0xFF :: bytesAt s.mem (mapped cfg env s.mta) k).length ≤ cfg.maxCto := by
    simp [bytesAt_length]; omega
  generalize hs1 : sendRaw cfg _ _ = s1 at hstep
  have htx : ∃ f, s1.tx = s.tx ++ [f] ∧ Carries cfg f (0xFF :: bytesAt s.mem s.mta.addr k) := by
    rw [← hs1]
    obtain ⟨f, h1, h2⟩ := sendRaw_answers (cfg := cfg) (s := { bumpReceived cfg s with
          mta := s.mta.advance k
          busy := if n.toNat - k = 0 then false else true
          slaveBlk := ⟨if n.toNat - k = 0 then false else true, n.toNat - k⟩ })
        (s0 := s) hkl (by simpa using ho) (by simp)
    exact ⟨f, by simpa using h1, by simpa [mapped, hmap] using h2⟩
  obtain ⟨f, htx, hf⟩ := htx
  have hm1 : s1.mta = s.mta.advance k := by rw [← hs1]; rfl
  have hmem1 : s1.mem = s.mem := by rw [← hs1]; simp
  obtain ⟨s', fs, chunks, h2, htx2, hca, hcl, hfl, hm2, hmem2, hb2, ha2, hcn2⟩ :=
    mains_block hcto hsb hmap envs (s := s1) (r := n.toNat - k)
      (by rw [← hs1]; simpa using hck)
      (by rw [← hs1]; exact sendRaw_ctoOut_length hkl (by simpa using ho))
      (by rw [← hs1]; simp only [sendRaw_slaveBlk]; by_cases h : n.toNat - k = 0 <;> simp [h]; omega)
      (by rw [← hs1]; rfl)
      (by rw [← hs1]; simp only [sendRaw_busy]; by_cases h : n.toNat - k = 0 <;> simp [h]; omega)
      (by
        by_cases hz : envs.length = 0
        · exact Or.inl hz
        · right
          obtain ⟨m, hm⟩ := Nat.exists_eq_succ_of_ne_zero hz
          simp only [hm, Nat.succ_eq_add_one, Nat.add_sub_cancel, Nat.add_mul, Nat.one_mul] at hlen ⊢
          omega)
  have harith : k + min (envs.length * (cfg.maxCto - 1)) (n.toNat - k) =
      min ((envs.length + 1) * (cfg.maxCto - 1)) n.toNat := by
    rw [Nat.add_mul, Nat.one_mul]; omega
  refine ⟨s', f :: fs, bytesAt s.mem s.mta.addr k :: chunks, ?_, ?_, ⟨hf, hca⟩, by simp [hcl], ?_, ?_, ?_, ?_, ?_⟩
  · simp only [run, hstep, ok_bind]; exact h2
  · rw [htx2, htx]; simp
  · simp only [List.flatten_cons, hfl, hmem1, hm1, Mta.advance]
    rw [← bytesAt_add, harith]
  · rw [hm2, hm1]
    simp only [Mta.advance, ← harith, UInt32.ofNat_add, UInt32.add_assoc]
  · rw [hmem2, hmem1]
  · rw [hcn2, ← hs1]; simpa using hr.conn
  · rw [hb2]
    simp only [Nat.add_mul, Nat.one_mul, decide_eq_decide]
    omega

/-- C11, the complete transfer: with `ceil (n / (MAX_CTO - 1)) - 1` main-function calls the
whole block has been sent and the slave is ready. -/
theorem C11_block_upload_complete {cfg : Cfg} (hcto : 8 ≤ cfg.maxCto) (hsb : cfg.slaveBlock = true)
    (hmap : cfg.mapper = false) (hsup : cfg.supports .upload = true) (env : Env) {s : St} (hr : Ready s)
    (hck : s.ck.state = .idle) (hpg : s.pgm ≠ .active) (ho : s.ctoOut.length = cfg.maxCto)
    {p : Pdu} {n : UInt8} (hp : code p = some 0xF5) (hn : p.buf[1]? = some n) (hn0 : 0 < n.toNat)
    (hal : cfg.memCheck = true → env.memCheck s.mta n.toNat .read false = true)
    (envs : List Env) (hlen : envs.length + 1 = (n.toNat + (cfg.maxCto - 2)) / (cfg.maxCto - 1)) :
    ∃ (s' : St) (fs : List Frame) (chunks : List (List UInt8)),
      run cfg s ((env, .cmd p) :: envs.map fun e => (e, .main)) = .ok s' ∧
      s'.tx = s.tx ++ fs ∧ CarriesAll cfg fs chunks ∧
      fs.length = (n.toNat + (cfg.maxCto - 2)) / (cfg.maxCto - 1) ∧
      chunks.flatten = bytesAt s.mem s.mta.addr n.toNat ∧
      s'.mta = ⟨s.mta.ext, s.mta.addr + UInt32.ofNat n.toNat⟩ ∧
      s'.mem = s.mem ∧ Ready s' := by
  have hK : 0 < cfg.maxCto - 1 := by omega
  have h1 : (envs.length + 1) * (cfg.maxCto - 1) ≤ n.toNat + (cfg.maxCto - 2) := by
    rw [hlen]; exact Nat.div_mul_le_self _ _
  have h2 : n.toNat + (cfg.maxCto - 2) < (envs.length + 1 + 1) * (cfg.maxCto - 1) := by
    rw [hlen, Nat.add_mul, Nat.one_mul]
    have := Nat.div_add_mod (n.toNat + (cfg.maxCto - 2)) (cfg.maxCto - 1)
    have := Nat.mod_lt (n.toNat + (cfg.maxCto - 2)) hK
    rw [Nat.mul_comm]
    omega
  simp only [Nat.add_mul, Nat.one_mul] at h1 h2
  obtain ⟨s', fs, chunks, g1, g2, g3, g4, g5, g6, g7, g8, g9⟩ :=
    C11_block_upload hcto hsb hmap hsup env hr hck hpg ho hp hn hn0 hal envs (by omega)
  have hmin : min ((envs.length + 1) * (cfg.maxCto - 1)) n.toNat = n.toNat := by
    rw [Nat.add_mul, Nat.one_mul]; omega
  rw [hmin] at g5 g6
  refine ⟨s', fs, chunks, g1, g2, g3, ?_, g5, g6, g7, g8, ?_⟩
  · rw [CarriesAll_length g3, g4, hlen]
  · rw [g9]; simp only [Nat.add_mul, Nat.one_mul, decide_eq_false_iff_not]; omega

/-- 20 bytes on CAN: three packets. -/
example : Ex.frames Ex.can [Ex.c [0xFF], Ex.c [0xF6, 0, 0, 0, 0x40, 0, 0, 0], Ex.c [0xF5, 20],
      (Ex.env, .main), (Ex.env, .main), (Ex.env, .main)] =
    some [[0xFF, 0x15, 0xC0, 8, 8, 0, 1, 1], [0xFF], [0xFF, 0x40, 0x41, 0x42, 0x43, 0x44, 0x45, 0x46],
      [0xFF, 0x47, 0x48, 0x49, 0x4A, 0x4B, 0x4C, 0x4D], [0xFF, 0x4E, 0x4F, 0x50, 0x51, 0x52, 0x53]] := by
  decide +kernel

example : (20 + (Ex.can.maxCto - 2)) / (Ex.can.maxCto - 1) = 2 + 1 := by decide

end Xcp
