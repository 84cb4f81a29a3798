import Verif.Proofs.Ck
import Verif.Proofs.Busy
import Verif.Model.Example
/-
C43: a background checksum equals the direct checksum.

`C43_background_partial` proves it for blocks of at least two chunks and for the methods
whose intermediate result is a valid start value: CRC_16_CITT, the byte sums, and the word
and double word sums if the chunk size is a multiple of the summand.

For the other blocks it is false: `C43_fails_short_block` (more than one and less than two
chunks: the size wraps below zero, nothing is answered for 2^32 bytes' worth of calls of the
main function, and memory behind the block is read), `C43_fails_crc16` (the intermediate
CRC_16 is reflected and then continued unreflected), `C43_fails_odd_chunk`.
-/
set_option autoImplicit false
namespace Xcp
open Spec

/-- The checksum of a block can be continued from the checksum of its first chunks. -/
def Spec.Continues (m : CkMethod) (chunk : Nat) : Prop :=
  m = .crc16citt ∨ ∃ k j, addSizes m = some (k, j) ∧ k ∣ chunk

theorem calc_lt {m : CkMethod} {k j : Nat} (h : addSizes m = some (k, j)) (l : List UInt8) :
    calcChecksum m l 0 true < 256 ^ j := by
  rw [calc_add h l 0 true (Nat.pow_pos (by omega))]
  exact Nat.mod_lt _ (Nat.pow_pos (by omega))

theorem calc_append {m : CkMethod} {c : Nat} (h : Continues m c) (a b : List UInt8) (ha : c ∣ a.length) :
    calcChecksum m b (calcChecksum m a 0 true) false = calcChecksum m (a ++ b) 0 true := by
  rcases h with rfl | ⟨k, j, h, hk⟩
  · simp [calcChecksum, List.foldl_append]
  · have hk0 : 0 < k := by cases m <;> simp [addSizes] at h <;> omega
    rw [calc_add h b _ false (calc_lt h a), calc_add h (a ++ b) 0 true (Nat.pow_pos (by omega)),
      calc_add h a 0 true (Nat.pow_pos (by omega)), groups_append k hk0 a b (Nat.dvd_trans hk ha)]
    simp [List.sum_append]

/-- The slave with a job in progress. -/
def jobState (b : St) (st : CkState) (addr : UInt32) (size interim : Nat) : St :=
  { b with busy := true, ck := ⟨st, addr, size, interim⟩ }

theorem main_ck {cfg : Cfg} (hon : cfg.on .buildChecksum = true) (hch : cfg.chunked = true) (env : Env) {s : St}
    (ha : s.slaveBlk.active = false) : step cfg env s .main = .ok (checksumMain cfg s) := by
  show mainFunction cfg env s = _
  have : mainUpload cfg env s = .ok s := by
    unfold mainUpload uploadSingleBlock
    split <;> simp [ha]
  unfold mainFunction mainChecksum
  simp [this, hon, hch]

theorem mains_idle {cfg : Cfg} (hon : cfg.on .buildChecksum = true) (hch : cfg.chunked = true) {s : St}
    (ha : s.slaveBlk.active = false) (hi : s.ck.state = .idle) (envs : List Env) :
    run cfg s (envs.map fun e => (e, .main)) = .ok s := by
  induction envs with
  | nil => rfl
  | cons e rest ih =>
    have : checksumMain cfg s = s := by unfold checksumMain; rw [hi]
    simp only [List.map_cons, run, main_ck hon hch e ha, ok_bind, this, ih]

theorem sub32_le {a b : Nat} (h : b ≤ a) (ha : a < 2 ^ 32) : sub32 a b = a - b := by
  unfold sub32
  rw [Nat.mod_eq_of_lt (show b < 2 ^ 32 by omega)]
  omega

theorem sub32_wrap {a b : Nat} (h : a < b) (hb : b < 2 ^ 32) : sub32 a b = a + 2 ^ 32 - b := by
  unfold sub32
  rw [Nat.mod_eq_of_lt hb]
  omega

theorem addr_chunk (a : UInt32) (i c : Nat) :
    a + UInt32.ofNat (i * c) + UInt32.ofNat c = a + UInt32.ofNat ((i + 1) * c) := by
  rw [Nat.succ_mul, UInt32.ofNat_add, UInt32.add_assoc]

/-- What has to hold at the end. -/
structure JobDone (cfg : Cfg) (s s' : St) (v : Nat) : Prop where
  ans : Answers cfg s s' ([0xFF, cfg.ckMethod.code, 0, 0] ++ enc false 4 v)
  idle : s'.ck.state = .idle
  busy : s'.busy = false
  same : { s' with ck := s.ck, busy := s.busy, tx := s.tx, counter := s.counter, ctoOut := s.ctoOut, stats := s.stats } = s

theorem job_final {cfg : Cfg} (hs : ShortOk cfg) (hon : cfg.on .buildChecksum = true) (hch : cfg.chunked = true)
    (hct : Continues cfg.ckMethod cfg.chunkSize) {b : St} (ha : b.slaveBlk.active = false) (a : UInt32) (i r : Nat)
    (envs : List Env) (hl : 0 < envs.length) :
    ∃ s', run cfg (jobState b .final (a + UInt32.ofNat (i * cfg.chunkSize)) r
        (calcChecksum cfg.ckMethod (bytesAt b.mem a (i * cfg.chunkSize)) 0 true))
        (envs.map fun e => (e, .main)) = .ok s' ∧
      JobDone cfg b s' (calcChecksum cfg.ckMethod (bytesAt b.mem a (i * cfg.chunkSize + r)) 0 true) := by
  cases envs with
  | nil => simp at hl
  | cons e rest =>
    simp only [List.map_cons, run]
    rw [main_ck hon hch e (by exact ha), ok_bind]
    have e1 : checksumMain cfg (jobState b .final (a + UInt32.ofNat (i * cfg.chunkSize)) r
        (calcChecksum cfg.ckMethod (bytesAt b.mem a (i * cfg.chunkSize)) 0 true)) =
      checksumFinish cfg (jobState b .final (a + UInt32.ofNat (i * cfg.chunkSize)) r
        (calcChecksum cfg.ckMethod (bytesAt b.mem a (i * cfg.chunkSize)) 0 true))
        (calcChecksum cfg.ckMethod (bytesAt b.mem a (i * cfg.chunkSize + r)) 0 true) := by
      unfold checksumMain
      show checksumFinish cfg _ (calcChecksum cfg.ckMethod (bytesAt b.mem (a + UInt32.ofNat (i * cfg.chunkSize)) r)
        (calcChecksum cfg.ckMethod (bytesAt b.mem a (i * cfg.chunkSize)) 0 true) false) = _
      rw [calc_append hct _ _ (by rw [bytesAt_length]; exact Nat.dvd_mul_left ..), ← bytesAt_add]
    rw [e1]
    refine ⟨_, mains_idle hon hch (by exact ha) rfl rest, ?_, rfl, rfl, rfl⟩
    unfold checksumFinish checksumResponse
    rw [← leBytes_enc]
    exact send8_answers (s0 := b) (s := { jobState b .final _ r _ with busy := false }) hs (by simp [leBytes_length]) rfl

theorem job_step {cfg : Cfg} (hon : cfg.on .buildChecksum = true) (hch : cfg.chunked = true)
    (hct : Continues cfg.ckMethod cfg.chunkSize) {b : St} (ha : b.slaveBlk.active = false) (a : UInt32) (i size : Nat)
    (env : Env) :
    step cfg env (jobState b .remaining (a + UInt32.ofNat (i * cfg.chunkSize)) size
        (calcChecksum cfg.ckMethod (bytesAt b.mem a (i * cfg.chunkSize)) 0 true)) .main =
      .ok (jobState b (if sub32 size cfg.chunkSize ≤ cfg.chunkSize then .final else .remaining)
        (a + UInt32.ofNat ((i + 1) * cfg.chunkSize)) (sub32 size cfg.chunkSize)
        (calcChecksum cfg.ckMethod (bytesAt b.mem a ((i + 1) * cfg.chunkSize)) 0 true)) := by
  rw [main_ck hon hch env (by exact ha)]
  unfold checksumMain
  show Except.ok (checksumChunk cfg _ (if sub32 size cfg.chunkSize ≤ cfg.chunkSize then .final else .remaining)
    (calcChecksum cfg.ckMethod (bytesAt b.mem (a + UInt32.ofNat (i * cfg.chunkSize)) cfg.chunkSize)
      (calcChecksum cfg.ckMethod (bytesAt b.mem a (i * cfg.chunkSize)) 0 true) false)) = _
  rw [calc_append hct _ _ (by rw [bytesAt_length]; exact Nat.dvd_mul_left ..), ← bytesAt_add, ← Nat.succ_mul]
  unfold checksumChunk jobState
  simp only [addr_chunk]

theorem job_loop {cfg : Cfg} (hs : ShortOk cfg) (hon : cfg.on .buildChecksum = true) (hch : cfg.chunked = true)
    (hc0 : 0 < cfg.chunkSize) (hct : Continues cfg.ckMethod cfg.chunkSize) {b : St} (ha : b.slaveBlk.active = false)
    (a : UInt32) (n : Nat) (hn : n < 2 ^ 32) (envs : List Env) :
    ∀ i, (i + 1) * cfg.chunkSize ≤ n → n / cfg.chunkSize + 1 ≤ envs.length + i →
    ∃ s', run cfg (jobState b .remaining (a + UInt32.ofNat (i * cfg.chunkSize)) (n - i * cfg.chunkSize)
        (calcChecksum cfg.ckMethod (bytesAt b.mem a (i * cfg.chunkSize)) 0 true))
        (envs.map fun e => (e, .main)) = .ok s' ∧
      JobDone cfg b s' (calcChecksum cfg.ckMethod (bytesAt b.mem a n) 0 true) := by
  induction envs with
  | nil =>
    intro i hi hl
    have : i + 1 ≤ n / cfg.chunkSize := (Nat.le_div_iff_mul_le hc0).mpr hi
    simp at hl; omega
  | cons e rest ih =>
    intro i hi hl
    have hq : i + 1 ≤ n / cfg.chunkSize := (Nat.le_div_iff_mul_le hc0).mpr hi
    simp only [List.length_cons] at hl
    simp only [List.map_cons, run]
    rw [job_step hon hch hct ha, ok_bind]
    rw [Nat.succ_mul] at hi
    have e1 : sub32 (n - i * cfg.chunkSize) cfg.chunkSize = n - (i + 1) * cfg.chunkSize := by
      rw [sub32_le (by omega) (by omega), Nat.succ_mul]; omega
    rw [e1]
    by_cases hf : n - (i + 1) * cfg.chunkSize ≤ cfg.chunkSize
    · rw [if_pos hf]
      have := job_final hs hon hch hct ha a (i + 1) (n - (i + 1) * cfg.chunkSize) rest (by omega)
      rw [show (i + 1) * cfg.chunkSize + (n - (i + 1) * cfg.chunkSize) = n by rw [Nat.succ_mul]; omega] at this
      exact this
    · rw [if_neg hf]
      refine ih (i + 1) ?_ (by omega)
      rw [Nat.succ_mul]; omega

theorem job_start {cfg : Cfg} (hon : cfg.on .buildChecksum = true) (hch : cfg.chunked = true)
    {b : St} (ha : b.slaveBlk.active = false) (a : UInt32) (n v : Nat) (env : Env) :
    step cfg env (jobState b .initial a n v) .main =
      .ok (jobState b .remaining (a + UInt32.ofNat (1 * cfg.chunkSize)) (sub32 n cfg.chunkSize)
        (calcChecksum cfg.ckMethod (bytesAt b.mem a (1 * cfg.chunkSize)) 0 true)) := by
  rw [main_ck hon hch env (by exact ha), Nat.one_mul]
  rfl

theorem build_starts {cfg : Cfg} (hsup : cfg.supports .buildChecksum = true) (hch : cfg.chunked = true) (env : Env)
    {s : St} (hr : Ready s) (hi : s.ck.state = .idle) (hpg : s.pgm ≠ .active) {p : Pdu} {n : Nat}
    (hp : ChecksumOk cfg env s.mta p n) (hn : cfg.chunkSize < n) :
    step cfg env s (.cmd p) = .ok (jobState (bumpReceived cfg s) .initial s.mta.addr n s.ck.interim) := by
  rw [buildChecksum_eq hsup env hr hpg hp, if_pos ⟨hch, hn⟩]
  unfold startChecksum
  rw [if_neg (by simp [hi, hr.idle])]
  simp [jobState]

/-- C43.  A BUILD_CHECKSUM of `n` bytes, at least two chunks, followed by at least
`n / chunk + 1` calls of the main function: in all that time exactly one packet is sent, it
carries the checksum of the block as `Xcp_CalculateChecksum` computes it directly, and the
slave is ready again.  The answer mentions no memory outside the block. -/
theorem C43_background_partial {cfg : Cfg} (hs : ShortOk cfg) (hsup : cfg.supports .buildChecksum = true)
    (hch : cfg.chunked = true) (hc0 : 0 < cfg.chunkSize) (hct : Continues cfg.ckMethod cfg.chunkSize) (env : Env)
    {s : St} (hr : Ready s) (hi : s.ck.state = .idle) (ha : s.slaveBlk.active = false) (hpg : s.pgm ≠ .active)
    {p : Pdu} {n : Nat} (hp : ChecksumOk cfg env s.mta p n) (hn : 2 * cfg.chunkSize ≤ n) (envs : List Env)
    (hl : n / cfg.chunkSize + 1 ≤ envs.length) :
    ∃ s', run cfg s ((env, .cmd p) :: envs.map fun e => (e, .main)) = .ok s' ∧
      Answers cfg s s' ([0xFF, cfg.ckMethod.code, 0, 0] ++
        enc false 4 (calcChecksum cfg.ckMethod (bytesAt s.mem s.mta.addr n) 0 true)) ∧
      Ready s' ∧ s'.ck.state = .idle ∧ s'.mem = s.mem ∧ s'.mta = s.mta ∧ s'.daq = s.daq := by
  have hon : cfg.on .buildChecksum = true := by simpa [Cfg.supports, Cmd.mandatory, Cmd.group] using hsup
  have hq : 2 ≤ n / cfg.chunkSize := (Nat.le_div_iff_mul_le hc0).mpr hn
  have hsame := bumpReceived_same cfg s
  cases envs with
  | nil => simp at hl
  | cons e rest =>
    simp only [List.length_cons] at hl
    have := job_loop hs hon hch hc0 hct (b := bumpReceived cfg s) (by simpa using ha) s.mta.addr n hp.lt rest 1
      (by omega) (by omega)
    obtain ⟨s', h1, hd⟩ := this
    refine ⟨s', ?_, ?_, ⟨?_, hd.busy⟩, hd.idle, ?_, ?_, ?_⟩
    · simp only [List.map_cons, run]
      rw [build_starts hsup hch env hr hi hpg hp (by omega), ok_bind, job_start hon hch (by simpa using ha), ok_bind,
        sub32_le (by omega) hp.lt]
      rw [Nat.one_mul] at h1 ⊢
      exact h1
    · obtain ⟨f, h2, h3⟩ := hd.ans
      exact ⟨f, by simpa using h2, by simpa using h3⟩
    · have := congrArg St.connected hd.same
      simpa [hr.conn] using this
    · simpa using congrArg St.mem hd.same
    · simpa using congrArg St.mta hd.same
    · simpa using congrArg St.daq hd.same

/-- C43 fails for all blocks of more than one and less than two chunks.  However often the
main function is called, as long as fewer than 2^32 bytes have been summed up: no answer,
the slave stays busy, and the checksum so far includes all memory from the MTA on. -/
theorem C43_fails_short_block {cfg : Cfg} (hsup : cfg.supports .buildChecksum = true)
    (hch : cfg.chunked = true) (hct : Continues cfg.ckMethod cfg.chunkSize) (env : Env)
    {s : St} (hr : Ready s) (hi : s.ck.state = .idle) (ha : s.slaveBlk.active = false) (hpg : s.pgm ≠ .active)
    {p : Pdu} {n : Nat} (hp : ChecksumOk cfg env s.mta p n) (hlo : cfg.chunkSize < n) (hhi : n < 2 * cfg.chunkSize)
    (envs : List Env) (hl : 2 ≤ envs.length) (hl2 : (envs.length + 1) * cfg.chunkSize ≤ 2 ^ 32) :
    ∃ s', run cfg s ((env, .cmd p) :: envs.map fun e => (e, .main)) = .ok s' ∧
      Silent s s' ∧ s'.busy = true ∧ n < envs.length * cfg.chunkSize ∧
      s'.ck.interim = calcChecksum cfg.ckMethod (bytesAt s.mem s.mta.addr (envs.length * cfg.chunkSize)) 0 true := by
  have hon : cfg.on .buildChecksum = true := by simpa [Cfg.supports, Cmd.mandatory, Cmd.group] using hsup
  have hab : (bumpReceived cfg s).slaveBlk.active = false := by simpa using ha
  have key : ∀ (l : List Env) (i : Nat), 2 ≤ i → (i + l.length + 1) * cfg.chunkSize ≤ 2 ^ 32 →
      run cfg (jobState (bumpReceived cfg s) .remaining (s.mta.addr + UInt32.ofNat (i * cfg.chunkSize))
        (n + 2 ^ 32 - i * cfg.chunkSize)
        (calcChecksum cfg.ckMethod (bytesAt s.mem s.mta.addr (i * cfg.chunkSize)) 0 true)) (l.map fun e => (e, .main)) =
      .ok (jobState (bumpReceived cfg s) .remaining (s.mta.addr + UInt32.ofNat ((i + l.length) * cfg.chunkSize))
        (n + 2 ^ 32 - (i + l.length) * cfg.chunkSize)
        (calcChecksum cfg.ckMethod (bytesAt s.mem s.mta.addr ((i + l.length) * cfg.chunkSize)) 0 true)) := by
    intro l
    induction l with
    | nil => intro i _ _; rfl
    | cons e rest ih =>
      intro i h2 hlen
      simp only [List.map_cons, run, List.length_cons] at hlen ⊢
      have hlen1 : (i + 1 + rest.length + 1) * cfg.chunkSize ≤ 2 ^ 32 := by
        rw [show i + 1 + rest.length + 1 = i + (rest.length + 1) + 1 by omega]; exact hlen
      have hlen2 : (i + 2) * cfg.chunkSize ≤ 2 ^ 32 :=
        Nat.le_trans (Nat.mul_le_mul_right _ (by omega)) hlen1
      have hi2 : 2 * cfg.chunkSize ≤ i * cfg.chunkSize := Nat.mul_le_mul_right _ h2
      rw [Nat.add_mul] at hlen2
      have := job_step hon hch hct hab s.mta.addr i (n + 2 ^ 32 - i * cfg.chunkSize) e
      simp only [bumpReceived_mem] at this
      rw [this, ok_bind, sub32_le (by omega) (by omega), if_neg (by omega),
        show n + 2 ^ 32 - i * cfg.chunkSize - cfg.chunkSize = n + 2 ^ 32 - (i + 1) * cfg.chunkSize by
          rw [Nat.succ_mul]; omega,
        ih (i + 1) (by omega) hlen1,
        show i + 1 + rest.length = i + (rest.length + 1) by omega]
  match envs, hl with
  | e1 :: e2 :: rest, _ =>
    simp only [List.length_cons] at hl2 ⊢
    have k := key rest 2 (by omega) (by
      rw [show 2 + rest.length + 1 = rest.length + 1 + 1 + 1 by omega]; exact hl2)
    have h3 : 3 * cfg.chunkSize ≤ 2 ^ 32 := Nat.le_trans (Nat.mul_le_mul_right _ (by omega)) hl2
    have js := job_step hon hch hct hab s.mta.addr 1 (n - cfg.chunkSize) e2
    simp only [bumpReceived_mem] at js
    have jb := job_start hon hch hab s.mta.addr n s.ck.interim e1
    simp only [bumpReceived_mem] at jb
    refine ⟨jobState (bumpReceived cfg s) .remaining (s.mta.addr + UInt32.ofNat ((2 + rest.length) * cfg.chunkSize))
        (n + 2 ^ 32 - (2 + rest.length) * cfg.chunkSize)
        (calcChecksum cfg.ckMethod (bytesAt s.mem s.mta.addr ((2 + rest.length) * cfg.chunkSize)) 0 true),
      ?_, ?_, ?_, ?_, ?_⟩
    · simp only [List.map_cons, run]
      rw [build_starts hsup hch env hr hi hpg hp hlo, ok_bind, jb, ok_bind, sub32_le (by omega) hp.lt, js, ok_bind,
        sub32_wrap (by omega) (by omega), if_neg (by omega),
        show n - cfg.chunkSize + 2 ^ 32 - cfg.chunkSize = n + 2 ^ 32 - 2 * cfg.chunkSize by omega]
      exact k
    · exact bumpReceived_tx cfg s
    · rfl
    · have : 2 * cfg.chunkSize ≤ (rest.length + 1 + 1) * cfg.chunkSize := Nat.mul_le_mul_right _ (by omega)
      omega
    · rw [show rest.length + 1 + 1 = 2 + rest.length by omega]
      rfl

/-- Witness: the simulator with chunks of 64 bytes, block of 100 bytes, 50 calls of the
main function, no answer; a 128 byte block is answered by the third call. -/
theorem C43_fails_witness :
    (Ex.frames { Ex.sim with chunked := true }
      ([Ex.c [0xFF], Ex.c [0xF3, 0, 0, 0, 100, 0, 0, 0]] ++ List.replicate 50 (Ex.env, .main))).map List.length = some 1 ∧
    (Ex.frames { Ex.sim with chunked := true }
      ([Ex.c [0xFF], Ex.c [0xF3, 0, 0, 0, 128, 0, 0, 0]] ++ List.replicate 3 (Ex.env, .main))).map (·.drop 1) =
      some [[8, 0, 1, 0] ++ [0xFF, 8, 0, 0] ++ enc false 4 (crcCitt (bytesAt Ex.mem 0 128))] := by
  decide +kernel

/-- C43 fails for CRC_16: 128 bytes in two chunks of 64 give another checksum than computed
directly. -/
theorem C43_fails_crc16 :
    (Ex.frames { Ex.sim with chunked := true, ckMethod := .crc16 }
      ([Ex.c [0xFF], Ex.c [0xF3, 0, 0, 0, 128, 0, 0, 0]] ++ List.replicate 3 (Ex.env, .main))) ≠
    (Ex.frames { Ex.sim with chunked := false, ckMethod := .crc16 }
      [Ex.c [0xFF], Ex.c [0xF3, 0, 0, 0, 128, 0, 0, 0]]) := by
  decide +kernel

/-- C43 fails for word sums in chunks of odd size: with chunks of 3 bytes, every third byte
of a block of 8 is left out. -/
theorem C43_fails_odd_chunk :
    (Ex.frames { Ex.sim with chunked := true, chunkSize := 3, ckMethod := .add22 }
      ([Ex.c [0xFF], Ex.c [0xF3, 0, 0, 0, 8, 0, 0, 0]] ++ List.replicate 3 (Ex.env, .main))) ≠
    (Ex.frames { Ex.sim with chunked := false, ckMethod := .add22 }
      [Ex.c [0xFF], Ex.c [0xF3, 0, 0, 0, 8, 0, 0, 0]]) := by
  decide +kernel

example : Continues .crc16citt 64 ∧ Continues .add44 64 ∧ ¬ Continues .add22 3 := by
  refine ⟨Or.inl rfl, Or.inr ⟨4, 4, rfl, by decide⟩, ?_⟩
  rintro (h | ⟨k, j, h, hd⟩)
  · cases h
  · cases h; revert hd; decide

end Xcp
