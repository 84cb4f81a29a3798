import Verif.Props.C43_Background
import Verif.Model.Jobs
/-
C89: checksums in the background, with the main function in a thread of its own.

False as a whole: the state of the job is set before its address and size, so the main function can start with
those of the job before (`C89_fails_start`: a wrong checksum, computed from address 0 after start-up), and the slave
is free again before the job has ended, so the next request can get lost for good (`C89_fails_lost`: a tool
that sends it as soon as the answer to the first one is there).

`C89_jobs_partial`: under all schedules without these two encounters every request is answered, by ERR_CMD_BUSY or
by the checksum of its own block, in the order of the requests; `C89_answered`: and soon.
-/
set_option autoImplicit false
namespace Xcp
open Spec

/-- The checksums sent. -/
def Spec.sums (out : List JobAns) : List Nat := out.filterMap fun | .value v => some v | _ => none

/-- The checksum of a block. -/
def Spec.ckOf (cfg : Cfg) (mem : Mem) (p : UInt32 × Nat) : Nat := calcChecksum cfg.ckMethod (bytesAt mem p.1 p.2) 0 true

/-- No job and no start of a job in progress. -/
structure Spec.JobRest (x : JobSys) : Prop where
  main : x.main = .poll
  cmd : x.cmd = .wait
  state : x.job.state = .idle

/-- The encounters excluded: the main function runs while the address and size of a job are still those of the job before;
a job is started while the main function is still busy with the end of the job before. -/
def Spec.Undisturbed (cfg : Cfg) : JobSys → List JobThread → Prop
  | _, [] => True
  | x, t :: ts =>
    (t = .main → ∀ a n, x.cmd ≠ .addr a n ∧ x.cmd ≠ .size a n) ∧
    (t = .cmd → ∀ a n, x.cmd = .test a n → x.main ≠ .send ∧ x.main ≠ .last) ∧ Undisturbed cfg (x.step cfg t) ts

/-- Blocks of at least two chunks (see C43). -/
def Spec.JobFits (cfg : Cfg) (p : UInt32 × Nat) : Prop := 2 * cfg.chunkSize ≤ p.2 ∧ p.2 < 2 ^ 32

/-- The builds of C43. -/
structure Spec.JobCfg (cfg : Cfg) : Prop where
  chunk : 0 < cfg.chunkSize
  continues : Continues cfg.ckMethod cfg.chunkSize

/-- State of a job of `n` bytes after `i` chunks. -/
def JobAt (cfg : Cfg) (n i : Nat) : CkState → Prop
  | .idle => False
  | .initial => i = 0
  | .remaining => 1 ≤ i ∧ (i + 1) * cfg.chunkSize ≤ n
  | .final => 1 ≤ i ∧ i * cfg.chunkSize ≤ n

/-- The checksum of the first `i` chunks. -/
def chunks (cfg : Cfg) (mem : Mem) (a : UInt32) (i : Nat) : Nat :=
  calcChecksum cfg.ckMethod (bytesAt mem a (i * cfg.chunkSize)) 0 true

/-- Where both threads are; the requests not yet answered. -/
inductive JobPhase (cfg : Cfg) (x : JobSys) : List (UInt32 × Nat) → Prop where
  | rest (hm : x.main = .poll) (hs : x.job.state = .idle) (hb : x.busy = false) (hc : x.cmd = .wait) : JobPhase cfg x []
  | asked (a : UInt32) (n : Nat) (hm : x.main = .poll) (hs : x.job.state = .idle) (hb : x.busy = false) (hc : x.cmd = .test a n) :
      JobPhase cfg x [(a, n)]
  | start1 (a : UInt32) (n : Nat) (hm : x.main = .poll) (hs : x.job.state = .idle) (hb : x.busy = false) (hc : x.cmd = .busy a n) :
      JobPhase cfg x [(a, n)]
  | start2 (a : UInt32) (n : Nat) (hm : x.main = .poll) (hs : x.job.state = .idle) (hb : x.busy = true) (hc : x.cmd = .state a n) :
      JobPhase cfg x [(a, n)]
  | start3 (a : UInt32) (n : Nat) (hm : x.main = .poll) (hs : x.job.state = .initial) (hb : x.busy = true) (hc : x.cmd = .addr a n) :
      JobPhase cfg x [(a, n)]
  | start4 (a : UInt32) (n : Nat) (hm : x.main = .poll) (hs : x.job.state = .initial) (hb : x.busy = true) (hc : x.cmd = .size a n)
      (ha : x.job.addr = a) : JobPhase cfg x [(a, n)]
  | run (a : UInt32) (n i v : Nat) (st : CkState) (hi : JobAt cfg n i st) (hm : x.main = .poll ∨ x.main = .sum st) (hb : x.busy = true)
      (hc : x.cmd = .wait) (hj : x.job = ⟨st, a + UInt32.ofNat (i * cfg.chunkSize), n - i * cfg.chunkSize, v⟩)
      (hv : st ≠ .initial → v = chunks cfg x.mem a i) : JobPhase cfg x [(a, n)]
  | summed (a : UInt32) (n i : Nat) (st : CkState) (hi : JobAt cfg n i st) (hf : st ≠ .final) (hm : x.main = .size st) (hb : x.busy = true)
      (hc : x.cmd = .wait) (hj : x.job = ⟨st, a + UInt32.ofNat (i * cfg.chunkSize), n - i * cfg.chunkSize, chunks cfg x.mem a (i + 1)⟩) :
      JobPhase cfg x [(a, n)]
  | sized (a : UInt32) (n i : Nat) (st : CkState) (hi : JobAt cfg n i st) (hf : st ≠ .final) (hm : x.main = .addr st) (hb : x.busy = true)
      (hc : x.cmd = .wait)
      (hj : x.job = ⟨st, a + UInt32.ofNat (i * cfg.chunkSize), n - (i + 1) * cfg.chunkSize, chunks cfg x.mem a (i + 1)⟩) :
      JobPhase cfg x [(a, n)]
  | moved (a : UInt32) (n i : Nat) (st : CkState) (hi : JobAt cfg n i st) (hf : st ≠ .final) (hm : x.main = .next st) (hb : x.busy = true)
      (hc : x.cmd = .wait)
      (hj : x.job = ⟨st, a + UInt32.ofNat ((i + 1) * cfg.chunkSize), n - (i + 1) * cfg.chunkSize, chunks cfg x.mem a (i + 1)⟩) :
      JobPhase cfg x [(a, n)]
  | free (a : UInt32) (n : Nat) (hm : x.main = .free) (hb : x.busy = true) (hc : x.cmd = .wait) (hs : x.job.state = .final)
      (hv : x.job.interim = ckOf cfg x.mem (a, n)) : JobPhase cfg x [(a, n)]
  | send (a : UInt32) (n : Nat) (hm : x.main = .send) (hb : x.busy = false) (hc : x.cmd = .wait) (hs : x.job.state = .final)
      (hv : x.job.interim = ckOf cfg x.mem (a, n)) : JobPhase cfg x [(a, n)]
  | sendAsked (a b : UInt32) (n m : Nat) (hm : x.main = .send) (hb : x.busy = false) (hc : x.cmd = .test b m) (hs : x.job.state = .final)
      (hv : x.job.interim = ckOf cfg x.mem (a, n)) : JobPhase cfg x [(a, n), (b, m)]
  | last (hm : x.main = .last) (hb : x.busy = false) (hc : x.cmd = .wait) (hs : x.job.state = .final) : JobPhase cfg x []
  | lastAsked (b : UInt32) (m : Nat) (hm : x.main = .last) (hb : x.busy = false) (hc : x.cmd = .test b m) (hs : x.job.state = .final) :
      JobPhase cfg x [(b, m)]

/-- What holds all the time. -/
structure JobInv (cfg : Cfg) (mem : Mem) (x : JobSys) (done cur : List (UInt32 × Nat)) : Prop where
  image : x.mem = mem
  fits : ∀ p ∈ x.taken, JobFits cfg p
  later : ∀ a n, .build a n ∈ x.todo → JobFits cfg (a, n)
  taken : x.taken = done ++ cur
  out : sums x.out = done.map (ckOf cfg mem)
  phase : JobPhase cfg x cur

theorem sums_append (a b : List JobAns) : sums (a ++ b) = sums a ++ sums b := by simp [sums]

theorem chunk_next {cfg : Cfg} (h : JobCfg cfg) (mem : Mem) (a : UInt32) (i : Nat) :
    calcChecksum cfg.ckMethod (mem.read (a + UInt32.ofNat (i * cfg.chunkSize)) cfg.chunkSize) (chunks cfg mem a i) false =
      chunks cfg mem a (i + 1) := by
  show calcChecksum cfg.ckMethod (bytesAt mem (a + UInt32.ofNat (i * cfg.chunkSize)) cfg.chunkSize)
    (calcChecksum cfg.ckMethod (bytesAt mem a (i * cfg.chunkSize)) 0 true) false = _
  rw [calc_append h.continues _ _ (by rw [bytesAt_length]; exact Nat.dvd_mul_left ..), ← bytesAt_add, ← Nat.succ_mul]
  rfl

theorem chunk_rest {cfg : Cfg} (h : JobCfg cfg) (mem : Mem) (a : UInt32) (n i : Nat) (hi : i * cfg.chunkSize ≤ n) :
    calcChecksum cfg.ckMethod (mem.read (a + UInt32.ofNat (i * cfg.chunkSize)) (n - i * cfg.chunkSize)) (chunks cfg mem a i) false =
      ckOf cfg mem (a, n) := by
  show calcChecksum cfg.ckMethod (bytesAt mem (a + UInt32.ofNat (i * cfg.chunkSize)) (n - i * cfg.chunkSize))
    (calcChecksum cfg.ckMethod (bytesAt mem a (i * cfg.chunkSize)) 0 true) false = _
  rw [calc_append h.continues _ _ (by rw [bytesAt_length]; exact Nat.dvd_mul_left ..), ← bytesAt_add]
  unfold ckOf
  congr 2
  show _ = n
  omega

theorem chunk_first {cfg : Cfg} (mem : Mem) (a : UInt32) :
    calcChecksum cfg.ckMethod (mem.read (a + UInt32.ofNat (0 * cfg.chunkSize)) cfg.chunkSize) 0 true = chunks cfg mem a 1 := by
  have : a + UInt32.ofNat (0 * cfg.chunkSize) = a := by simp
  rw [this, chunks, Nat.one_mul]
  rfl

/-- The main function's next access. -/
theorem job_main {cfg : Cfg} (h : JobCfg cfg) {mem : Mem} {x : JobSys} {done cur : List (UInt32 × Nat)} (hx : JobInv cfg mem x done cur)
    (hq : ∀ a n, x.cmd ≠ .addr a n ∧ x.cmd ≠ .size a n) : ∃ done' cur', JobInv cfg mem (x.mainStep cfg) done' cur' := by
  obtain ⟨hmem, hfits, hlater, htaken, hout, hph⟩ := hx
  have keep : x.mainStep cfg = x → ∃ done' cur', JobInv cfg mem (x.mainStep cfg) done' cur' := fun e =>
    ⟨done, cur, by rw [e]; exact ⟨hmem, hfits, hlater, htaken, hout, hph⟩⟩
  have fit : ∀ p ∈ cur, JobFits cfg p := fun p hp => hfits p (by rw [htaken]; exact List.mem_append_right _ hp)
  cases hph with
  | rest hm hs hb hc => exact keep (by simp [JobSys.mainStep, hm, hs])
  | asked a n hm hs hb hc => exact keep (by simp [JobSys.mainStep, hm, hs])
  | start1 a n hm hs hb hc => exact keep (by simp [JobSys.mainStep, hm, hs])
  | start2 a n hm hs hb hc => exact keep (by simp [JobSys.mainStep, hm, hs])
  | start3 a n hm hs hb hc => exact absurd hc (hq a n).1
  | start4 a n hm hs hb hc ha => exact absurd hc (hq a n).2
  | run a n i v st hi hm hb hc hj hv =>
    rcases hm with hm | hm
    · have hne : x.job.state ≠ .idle := by rw [hj]; rintro rfl; exact hi
      have e : x.mainStep cfg = { x with main := .sum st } := by
        simp only [JobSys.mainStep, hm, if_neg hne]; rw [hj]
      rw [e]
      exact ⟨done, _, hmem, hfits, hlater, htaken, hout, .run a n i v st hi (.inr rfl) hb hc hj hv⟩
    · cases st with
      | idle => exact hi.elim
      | initial =>
        obtain rfl : i = 0 := hi
        refine ⟨done, [(a, n)], ?_⟩
        simp only [JobSys.mainStep, hm]
        refine ⟨hmem, hfits, hlater, htaken, hout, .summed a n 0 .initial rfl (by simp) rfl hb hc ?_⟩
        simp only [hj, chunk_first]
      | remaining =>
        refine ⟨done, [(a, n)], ?_⟩
        simp only [JobSys.mainStep, hm]
        refine ⟨hmem, hfits, hlater, htaken, hout, .summed a n i .remaining hi (by simp) rfl hb hc ?_⟩
        simp only [hj, hv (by simp), chunk_next h]
      | final =>
        refine ⟨done, [(a, n)], ?_⟩
        simp only [JobSys.mainStep, hm]
        refine ⟨hmem, hfits, hlater, htaken, hout, .free a n rfl hb hc ?_ ?_⟩
        · simp only [hj]
        · simp only [hj, hv (by simp), chunk_rest h _ _ _ _ hi.2]
  | summed a n i st hi hf hm hb hc hj =>
    refine ⟨done, [(a, n)], ?_⟩
    simp only [JobSys.mainStep, hm]
    refine ⟨hmem, hfits, hlater, htaken, hout, .sized a n i st hi hf rfl hb hc ?_⟩
    have hn := fit (a, n) (List.mem_cons_self ..)
    simp only [JobFits] at hn
    have : sub32 (n - i * cfg.chunkSize) cfg.chunkSize = n - (i + 1) * cfg.chunkSize := by
      rw [sub32_le _ (by omega), Nat.succ_mul]
      · omega
      · cases st with
        | idle => exact hi.elim
        | initial => obtain rfl : i = 0 := hi; simp; omega
        | remaining => have := hi.2; rw [Nat.succ_mul] at this; omega
        | final => exact absurd rfl hf
    simp only [hj, this]
  | sized a n i st hi hf hm hb hc hj =>
    refine ⟨done, [(a, n)], ?_⟩
    simp only [JobSys.mainStep, hm]
    refine ⟨hmem, hfits, hlater, htaken, hout, .moved a n i st hi hf rfl hb hc ?_⟩
    simp only [hj, addr_chunk]
  | moved a n i st hi hf hm hb hc hj =>
    have hn := fit (a, n) (List.mem_cons_self ..)
    simp only [JobFits] at hn
    cases st with
    | idle => exact hi.elim
    | initial =>
      obtain rfl : i = 0 := hi
      refine ⟨done, [(a, n)], ?_⟩
      simp only [JobSys.mainStep, hm]
      refine ⟨hmem, hfits, hlater, htaken, hout, .run a n 1 _ .remaining ⟨by omega, by omega⟩ (.inl rfl) hb hc ?_ fun _ => rfl⟩
      simp only [hj]
    | remaining =>
      refine ⟨done, [(a, n)], ?_⟩
      simp only [JobSys.mainStep, hm]
      by_cases hle : n - (i + 1) * cfg.chunkSize ≤ cfg.chunkSize
      · refine ⟨hmem, hfits, hlater, htaken, hout, .run a n (i + 1) _ .final ⟨by omega, hi.2⟩ (.inl rfl) hb hc ?_ fun _ => rfl⟩
        simp only [hj, if_pos hle]
      · refine ⟨hmem, hfits, hlater, htaken, hout, .run a n (i + 1) _ .remaining ⟨by omega, ?_⟩ (.inl rfl) hb hc ?_ fun _ => rfl⟩
        · rw [Nat.succ_mul]; omega
        · simp only [hj, if_neg hle]
    | final => exact absurd rfl hf
  | free a n hm hb hc hs hv =>
    refine ⟨done, [(a, n)], ?_⟩
    simp only [JobSys.mainStep, hm, hc, CmdPc.holds, Bool.false_eq_true, if_false]
    exact ⟨hmem, hfits, hlater, htaken, hout, .send a n rfl rfl rfl hs hv⟩
  | send a n hm hb hc hs hv =>
    refine ⟨done ++ [(a, n)], [], ?_⟩
    simp only [JobSys.mainStep, hm]
    refine ⟨hmem, hfits, hlater, by simp [htaken], ?_, .last rfl hb hc hs⟩
    rw [sums_append, hout, hv, hmem]
    simp [sums]
  | sendAsked a b n m hm hb hc hs hv =>
    refine ⟨done ++ [(a, n)], [(b, m)], ?_⟩
    simp only [JobSys.mainStep, hm]
    refine ⟨hmem, hfits, hlater, by simp [htaken], ?_, .lastAsked b m rfl hb hc hs⟩
    rw [sums_append, hout, hv, hmem]
    simp [sums]
  | last hm hb hc hs =>
    refine ⟨done, [], ?_⟩
    simp only [JobSys.mainStep, hm]
    exact ⟨hmem, hfits, hlater, htaken, hout, .rest rfl rfl hb hc⟩
  | lastAsked b m hm hb hc hs =>
    refine ⟨done, [(b, m)], ?_⟩
    simp only [JobSys.mainStep, hm]
    exact ⟨hmem, hfits, hlater, htaken, hout, .asked b m rfl rfl hb hc⟩

/-- A packet arrives while a job is running. -/
theorem job_busy {cfg : Cfg} {mem : Mem} {x : JobSys} {done cur : List (UInt32 × Nat)} (hx : JobInv cfg mem x done cur) (hb : x.busy = true)
    (hc : x.cmd = .wait) : ∃ done' cur', JobInv cfg mem x.cmdStep done' cur' := by
  obtain ⟨hmem, hfits, hlater, htaken, hout, hph⟩ := hx
  refine ⟨done, cur, ?_⟩
  unfold JobSys.cmdStep
  rw [hc]
  cases ht : x.todo with
  | nil => exact ⟨hmem, hfits, hlater, htaken, hout, hph⟩
  | cons r rest =>
    simp only [hb, if_true]
    refine ⟨hmem, hfits, fun a n hm => hlater a n (by rw [ht]; exact List.mem_cons_of_mem _ hm), htaken, ?_, ?_⟩
    · rw [sums_append, hout]; simp [sums]
    · cases hph with
      | rest hm hs hb' hc => rw [hb] at hb'; cases hb'
      | asked a n hm hs hb' hc => rw [hb] at hb'; cases hb'
      | start1 a n hm hs hb' hc => rw [hb] at hb'; cases hb'
      | start2 a n hm hs hb' hc' => rw [hc] at hc'; cases hc'
      | start3 a n hm hs hb' hc' => rw [hc] at hc'; cases hc'
      | start4 a n hm hs hb' hc' => rw [hc] at hc'; cases hc'
      | run a n i v st hi hm hb hc hj hv => exact .run a n i v st hi hm rfl rfl hj hv
      | summed a n i st hi hf hm hb hc hj => exact .summed a n i st hi hf hm rfl rfl hj
      | sized a n i st hi hf hm hb hc hj => exact .sized a n i st hi hf hm rfl rfl hj
      | moved a n i st hi hf hm hb hc hj => exact .moved a n i st hi hf hm rfl rfl hj
      | free a n hm hb hc hs hv => exact .free a n hm rfl rfl hs hv
      | send a n hm hb' hc hs hv => rw [hb] at hb'; cases hb'
      | sendAsked a b n m hm hb' hc hs hv => rw [hb] at hb'; cases hb'
      | last hm hb' hc hs => rw [hb] at hb'; cases hb'
      | lastAsked b m hm hb' hc hs => rw [hb] at hb'; cases hb'

/-- A packet arrives while the slave is free. -/
theorem job_packet {cfg : Cfg} {mem : Mem} {x : JobSys} {done cur : List (UInt32 × Nat)} (hx : JobInv cfg mem x done cur) (hb : x.busy = false)
    (hc : x.cmd = .wait) : ∃ done' cur', JobInv cfg mem x.cmdStep done' cur' := by
  obtain ⟨hmem, hfits, hlater, htaken, hout, hph⟩ := hx
  unfold JobSys.cmdStep
  rw [hc]
  cases ht : x.todo with
  | nil => exact ⟨done, cur, hmem, hfits, hlater, htaken, hout, hph⟩
  | cons r rest =>
    have hl : ∀ a n, .build a n ∈ rest → JobFits cfg (a, n) := fun a n hm => hlater a n (by rw [ht]; exact List.mem_cons_of_mem _ hm)
    simp only [hb, Bool.false_eq_true, if_false]
    cases r with
    | other =>
      refine ⟨done, cur, hmem, hfits, hl, htaken, ?_, ?_⟩
      · rw [sums_append, hout]; simp [sums]
      · cases hph with
        | rest hm hs hb' hc => exact .rest hm hs rfl rfl
        | asked a n hm hs hb' hc' => rw [hc] at hc'; cases hc'
        | start1 a n hm hs hb' hc' => rw [hc] at hc'; cases hc'
        | start2 a n hm hs hb' hc' => rw [hc] at hc'; cases hc'
        | start3 a n hm hs hb' hc' => rw [hc] at hc'; cases hc'
        | start4 a n hm hs hb' hc' => rw [hc] at hc'; cases hc'
        | run a n i v st hi hm hb' hc hj hv => rw [hb] at hb'; cases hb'
        | summed a n i st hi hf hm hb' hc hj => rw [hb] at hb'; cases hb'
        | sized a n i st hi hf hm hb' hc hj => rw [hb] at hb'; cases hb'
        | moved a n i st hi hf hm hb' hc hj => rw [hb] at hb'; cases hb'
        | free a n hm hb' hc hs hv => rw [hb] at hb'; cases hb'
        | send a n hm hb' hc hs hv => exact .send a n hm rfl rfl hs hv
        | sendAsked a b n m hm hb' hc' hs hv => rw [hc] at hc'; cases hc'
        | last hm hb' hc hs => exact .last hm rfl rfl hs
        | lastAsked b m hm hb' hc' hs => rw [hc] at hc'; cases hc'
    | build a n =>
      have hn : JobFits cfg (a, n) := hlater a n (by rw [ht]; exact List.mem_cons_self ..)
      refine ⟨done, cur ++ [(a, n)], hmem, ?_, hl, by simp [htaken], hout, ?_⟩
      · intro p hp
        rcases List.mem_append.mp hp with hp | hp
        · exact hfits p hp
        · rw [List.mem_singleton.mp hp]; exact hn
      · cases hph with
        | rest hm hs hb' hc => exact .asked a n hm hs rfl rfl
        | asked a n hm hs hb' hc' => rw [hc] at hc'; cases hc'
        | start1 a n hm hs hb' hc' => rw [hc] at hc'; cases hc'
        | start2 a n hm hs hb' hc' => rw [hc] at hc'; cases hc'
        | start3 a n hm hs hb' hc' => rw [hc] at hc'; cases hc'
        | start4 a n hm hs hb' hc' => rw [hc] at hc'; cases hc'
        | run a n i v st hi hm hb' hc hj hv => rw [hb] at hb'; cases hb'
        | summed a n i st hi hf hm hb' hc hj => rw [hb] at hb'; cases hb'
        | sized a n i st hi hf hm hb' hc hj => rw [hb] at hb'; cases hb'
        | moved a n i st hi hf hm hb' hc hj => rw [hb] at hb'; cases hb'
        | free a n hm hb' hc hs hv => rw [hb] at hb'; cases hb'
        | send a' n' hm hb' hc hs hv => exact .sendAsked a' a n' n hm rfl rfl hs hv
        | sendAsked a b n m hm hb' hc' hs hv => rw [hc] at hc'; cases hc'
        | last hm hb' hc hs => exact .lastAsked a n hm rfl rfl hs
        | lastAsked b m hm hb' hc' hs => rw [hc] at hc'; cases hc'

/-- The command thread's next access. -/
theorem job_cmd {cfg : Cfg} {mem : Mem} {x : JobSys} {done cur : List (UInt32 × Nat)} (hx : JobInv cfg mem x done cur)
    (hq : ∀ a n, x.cmd = .test a n → x.main ≠ .send ∧ x.main ≠ .last) : ∃ done' cur', JobInv cfg mem x.cmdStep done' cur' := by
  by_cases hw : x.cmd = .wait
  · cases hb : x.busy with
    | true => exact job_busy hx hb hw
    | false => exact job_packet hx hb hw
  obtain ⟨hmem, hfits, hlater, htaken, hout, hph⟩ := hx
  refine ⟨done, cur, ?_⟩
  cases hph with
  | rest hm hs hb hc => exact absurd hc hw
  | asked a n hm hs hb hc =>
    have e : x.cmdStep = { x with cmd := .busy a n } := by simp [JobSys.cmdStep, hc, hs, hb]
    rw [e]
    exact ⟨hmem, hfits, hlater, htaken, hout, .start1 a n hm hs hb rfl⟩
  | start1 a n hm hs hb hc =>
    simp only [JobSys.cmdStep, hc]
    exact ⟨hmem, hfits, hlater, htaken, hout, .start2 a n hm hs rfl rfl⟩
  | start2 a n hm hs hb hc =>
    simp only [JobSys.cmdStep, hc]
    exact ⟨hmem, hfits, hlater, htaken, hout, .start3 a n hm rfl hb rfl⟩
  | start3 a n hm hs hb hc =>
    simp only [JobSys.cmdStep, hc]
    exact ⟨hmem, hfits, hlater, htaken, hout, .start4 a n hm hs hb rfl rfl⟩
  | start4 a n hm hs hb hc ha =>
    simp only [JobSys.cmdStep, hc]
    refine ⟨hmem, hfits, hlater, htaken, hout, .run a n 0 x.job.interim .initial rfl (.inl hm) hb rfl ?_ (by simp)⟩
    simp [hs, ha]
  | run a n i v st hi hm hb hc hj hv => exact absurd hc hw
  | summed a n i st hi hf hm hb hc hj => exact absurd hc hw
  | sized a n i st hi hf hm hb hc hj => exact absurd hc hw
  | moved a n i st hi hf hm hb hc hj => exact absurd hc hw
  | free a n hm hb hc hs hv => exact absurd hc hw
  | send a n hm hb hc hs hv => exact absurd hc hw
  | sendAsked a b n m hm hb hc hs hv => exact absurd hm (hq b m hc).1
  | last hm hb hc hs => exact absurd hc hw
  | lastAsked b m hm hb hc hs => exact absurd hm (hq b m hc).2

theorem job_inv {cfg : Cfg} (h : JobCfg cfg) {mem : Mem} : ∀ (sched : List JobThread) {x : JobSys} {done cur : List (UInt32 × Nat)},
    JobInv cfg mem x done cur → Undisturbed cfg x sched → ∃ done' cur', JobInv cfg mem (x.run cfg sched) done' cur'
  | [], _, done, cur, hx, _ => ⟨done, cur, hx⟩
  | .main :: ts, x, done, cur, hx, hu => by
    obtain ⟨d, c, hy⟩ := job_main h hx (hu.1 rfl)
    exact job_inv h ts hy hu.2.2
  | .cmd :: ts, x, done, cur, hx, hu => by
    obtain ⟨d, c, hy⟩ := job_cmd hx (hu.2.1 rfl)
    exact job_inv h ts hy hu.2.2

theorem job_init {cfg : Cfg} {mem : Mem} {todo : List JobReq} (hf : ∀ a n, .build a n ∈ todo → JobFits cfg (a, n)) :
    JobInv cfg mem (.init mem todo) [] [] :=
  ⟨rfl, fun _ h => (nomatch h), hf, rfl, rfl, .rest rfl rfl rfl rfl⟩

/-- C89, without the two encounters: at any time the checksums sent are those of the blocks asked for, in the order of the
requests; once both threads are at rest, all of them. -/
theorem C89_jobs_partial {cfg : Cfg} (h : JobCfg cfg) (mem : Mem) {todo : List JobReq}
    (hf : ∀ a n, .build a n ∈ todo → JobFits cfg (a, n)) {sched : List JobThread} (hu : Undisturbed cfg (.init mem todo) sched) :
    let x := (JobSys.init mem todo).run cfg sched
    sums x.out <+: x.taken.map (ckOf cfg mem) ∧ (JobRest x → sums x.out = x.taken.map (ckOf cfg mem) ∧ x.busy = false) := by
  obtain ⟨done, cur, hx⟩ := job_inv h sched (job_init hf) hu
  refine ⟨⟨cur.map (ckOf cfg mem), ?_⟩, fun hr => ?_⟩
  · rw [hx.out, hx.taken, List.map_append]
  · obtain ⟨r1, r2, r3⟩ := hr
    have : cur = [] ∧ ((JobSys.init mem todo).run cfg sched).busy = false := by
      cases hx.phase with
      | rest hm hs hb hc => exact ⟨rfl, hb⟩
      | asked a n hm hs hb hc => rw [hc] at r2; cases r2
      | start1 a n hm hs hb hc => rw [hc] at r2; cases r2
      | start2 a n hm hs hb hc => rw [hc] at r2; cases r2
      | start3 a n hm hs hb hc => rw [hc] at r2; cases r2
      | start4 a n hm hs hb hc ha => rw [hc] at r2; cases r2
      | run a n i v st hi hm hb hc hj hv => rw [hj] at r3; rw [show st = .idle from r3] at hi; exact hi.elim
      | summed a n i st hi hf hm hb hc hj => rw [hm] at r1; cases r1
      | sized a n i st hi hf hm hb hc hj => rw [hm] at r1; cases r1
      | moved a n i st hi hf hm hb hc hj => rw [hm] at r1; cases r1
      | free a n hm hb hc hs hv => rw [hm] at r1; cases r1
      | send a n hm hb hc hs hv => rw [hm] at r1; cases r1
      | sendAsked a b n m hm hb hc hs hv => rw [hm] at r1; cases r1
      | last hm hb hc hs => rw [hm] at r1; cases r1
      | lastAsked b m hm hb hc hs => rw [hm] at r1; cases r1
    refine ⟨?_, this.2⟩
    rw [hx.out, hx.taken, this.1, List.append_nil]

/-! The end of every job. -/

/-- Number of accesses before the end of the job, at most. -/
def jobRank (x : JobSys) : Nat :=
  match x.main with
  | .poll => 8 * x.job.size + 9
  | .sum .final => 4
  | .sum _ => 8 * x.job.size + 8
  | .size _ => 8 * x.job.size + 7
  | .addr _ => 8 * x.job.size + 11
  | .next _ => 8 * x.job.size + 10
  | .free => 3
  | .send => 2
  | .last => 0

theorem main_keeps (cfg : Cfg) (x : JobSys) :
    (x.mainStep cfg).cmd = x.cmd ∧ (x.mainStep cfg).taken = x.taken ∧ (x.mainStep cfg).todo = x.todo := by
  unfold JobSys.mainStep
  split <;> try exact ⟨rfl, rfl, rfl⟩
  all_goals (split <;> exact ⟨rfl, rfl, rfl⟩)

theorem job_closer {cfg : Cfg} (h : JobCfg cfg) {mem : Mem} {x : JobSys} {done cur : List (UInt32 × Nat)} (hx : JobInv cfg mem x done cur)
    (hw : x.cmd = .wait) : JobRest x ∨ x.main = .last ∨ jobRank (x.mainStep cfg) < jobRank x := by
  obtain ⟨hmem, hfits, hlater, htaken, hout, hph⟩ := hx
  have fit : ∀ p ∈ cur, JobFits cfg p := fun p hp => hfits p (by rw [htaken]; exact List.mem_append_right _ hp)
  have hpos := h.chunk
  cases hph with
  | rest hm hs hb hc => exact .inl ⟨hm, hc, hs⟩
  | asked a n hm hs hb hc => rw [hc] at hw; cases hw
  | start1 a n hm hs hb hc => rw [hc] at hw; cases hw
  | start2 a n hm hs hb hc => rw [hc] at hw; cases hw
  | start3 a n hm hs hb hc => rw [hc] at hw; cases hw
  | start4 a n hm hs hb hc ha => rw [hc] at hw; cases hw
  | run a n i v st hi hm hb hc hj hv =>
    refine .inr (.inr ?_)
    rcases hm with hm | hm
    · have hst : x.job.state = st := by rw [hj]
      cases st with
      | idle => exact hi.elim
      | initial => simp [JobSys.mainStep, jobRank, hm, hst]
      | remaining => simp [JobSys.mainStep, jobRank, hm, hst]
      | final => simp [JobSys.mainStep, jobRank, hm, hst]
    · cases st with
      | idle => exact hi.elim
      | initial => simp [JobSys.mainStep, jobRank, hm]
      | remaining => simp [JobSys.mainStep, jobRank, hm]
      | final => simp [JobSys.mainStep, jobRank, hm]
  | summed a n i st hi hf hm hb hc hj =>
    refine .inr (.inr ?_)
    have hn := fit (a, n) (List.mem_cons_self ..)
    simp only [JobFits] at hn
    have hle : cfg.chunkSize ≤ n - i * cfg.chunkSize := by
      cases st with
      | idle => exact hi.elim
      | initial => obtain rfl : i = 0 := hi; simp; omega
      | remaining => have := hi.2; rw [Nat.succ_mul] at this; omega
      | final => exact absurd rfl hf
    have hsz : x.job.size = n - i * cfg.chunkSize := by rw [hj]
    simp only [JobSys.mainStep, jobRank, hm, hsz]
    rw [sub32_le hle (by omega)]
    omega
  | sized a n i st hi hf hm hb hc hj =>
    refine .inr (.inr ?_)
    simp [JobSys.mainStep, jobRank, hm]
  | moved a n i st hi hf hm hb hc hj =>
    refine .inr (.inr ?_)
    cases st <;> simp [JobSys.mainStep, jobRank, hm]
  | free a n hm hb hc hs hv => exact .inr (.inr (by simp [JobSys.mainStep, jobRank, hm, hc, CmdPc.holds]))
  | send a n hm hb hc hs hv => exact .inr (.inr (by simp [JobSys.mainStep, jobRank, hm]))
  | sendAsked a b n m hm hb hc hs hv => rw [hc] at hw; cases hw
  | last hm hb hc hs => exact .inr (.inl hm)
  | lastAsked b m hm hb hc hs => rw [hc] at hw; cases hw

/-- Without further packets the main function alone comes to the end of the job. -/
theorem job_last {cfg : Cfg} (h : JobCfg cfg) {mem : Mem} : ∀ (r : Nat) {x : JobSys} {done cur : List (UInt32 × Nat)},
    jobRank x ≤ r → JobInv cfg mem x done cur → x.cmd = .wait →
    JobRest x ∨ ∃ k : Nat, let y := x.run cfg (List.replicate k .main)
      y.main = .last ∧ y.cmd = .wait ∧ y.taken = x.taken ∧ y.todo = x.todo ∧ ∃ done' cur', JobInv cfg mem y done' cur'
  | r, x, done, cur, hr, hx, hw => by
    rcases job_closer h hx hw with hlt | hlt | hlt
    · exact .inl hlt
    · exact .inr ⟨0, hlt, hw, rfl, rfl, done, cur, hx⟩
    · match r with
      | 0 => omega
      | r + 1 =>
        obtain ⟨k1, k2, k3⟩ := main_keeps cfg x
        obtain ⟨d, c, hy⟩ := job_main h hx (fun a n => by rw [hw]; exact ⟨nofun, nofun⟩)
        rcases job_last h r (by omega) hy (k1.trans hw) with hR | ⟨k, l1, l2, l3, l4, l5⟩
        · exfalso
          -- the only way to rest is from `last`
          by_cases hx0 : JobRest x
          · have e : x.mainStep cfg = x := by simp [JobSys.mainStep, hx0.main, hx0.state]
            rw [e] at hlt; omega
          have h1 := hR.main
          have h3 := hR.state
          cases hx.phase with
          | rest hm hs hb hc => exact hx0 ⟨hm, hc, hs⟩
          | asked a n hm hs hb hc => rw [hc] at hw; cases hw
          | start1 a n hm hs hb hc => rw [hc] at hw; cases hw
          | start2 a n hm hs hb hc => rw [hc] at hw; cases hw
          | start3 a n hm hs hb hc => rw [hc] at hw; cases hw
          | start4 a n hm hs hb hc ha => rw [hc] at hw; cases hw
          | run a n i v st hi hm hb hc hj hv =>
            have hst : x.job.state = st := by rw [hj]
            rcases hm with hm | hm
            · cases st with
              | idle => exact hi.elim
              | _ => simp [JobSys.mainStep, hm, hst] at h1
            · cases st with
              | idle => exact hi.elim
              | _ => simp [JobSys.mainStep, hm] at h1
          | summed a n i st hi hf hm hb hc hj => simp [JobSys.mainStep, hm] at h1
          | sized a n i st hi hf hm hb hc hj => simp [JobSys.mainStep, hm] at h1
          | moved a n i st hi hf hm hb hc hj =>
            have hst : x.job.state = st := by rw [hj]
            cases st with
            | idle => exact hi.elim
            | initial => simp [JobSys.mainStep, hm] at h3
            | remaining => simp only [JobSys.mainStep, hm, hst] at h3; split at h3 <;> cases h3
            | final => exact absurd rfl hf
          | free a n hm hb hc hs hv => simp [JobSys.mainStep, hm, hc, CmdPc.holds] at h1
          | send a n hm hb hc hs hv => simp [JobSys.mainStep, hm] at h1
          | sendAsked a b n m hm hb hc hs hv => rw [hc] at hw; cases hw
          | last hm hb hc hs =>
            have : jobRank x = 0 := by simp [jobRank, hm]
            omega
          | lastAsked b m hm hb hc hs => rw [hc] at hw; cases hw
        · exact .inr ⟨k + 1, l1, l2, l3.trans k2, l4.trans k3, l5⟩

theorem replicate_main_undisturbed {cfg : Cfg} : ∀ (k : Nat) {x : JobSys}, x.cmd = .wait → Undisturbed cfg x (List.replicate k .main)
  | 0, _, _ => trivial
  | k + 1, x, hw => ⟨fun _ a n => by rw [hw]; exact ⟨nofun, nofun⟩, nofun,
      replicate_main_undisturbed k ((main_keeps cfg x).1.trans hw)⟩

theorem job_run_append (cfg : Cfg) (x : JobSys) (a b : List JobThread) : x.run cfg (a ++ b) = (x.run cfg a).run cfg b := by
  simp [JobSys.run]

/-- C89: and every request is answered after a number of accesses of the main function, without any help of the tool. -/
theorem C89_answered {cfg : Cfg} (h : JobCfg cfg) (mem : Mem) {todo : List JobReq}
    (hf : ∀ a n, .build a n ∈ todo → JobFits cfg (a, n)) {sched : List JobThread} (hu : Undisturbed cfg (.init mem todo) sched)
    (hw : ((JobSys.init mem todo).run cfg sched).cmd = .wait) :
    ∃ k : Nat, let x := (JobSys.init mem todo).run cfg sched
      let y := x.run cfg (List.replicate k .main)
      JobRest y ∧ y.busy = false ∧ y.taken = x.taken ∧ sums y.out = x.taken.map (ckOf cfg mem) := by
  obtain ⟨done, cur, hx⟩ := job_inv h sched (job_init hf) hu
  rcases job_last h _ (Nat.le_refl _) hx hw with hr | ⟨k, l1, l2, l3, l4, d, c, hy⟩
  · have := (C89_jobs_partial h mem hf hu).2 hr
    exact ⟨0, hr, this.2, rfl, this.1⟩
  · refine ⟨k + 1, ?_⟩
    rw [List.replicate_succ']
    simp only [job_run_append]
    generalize JobSys.run cfg (JobSys.run cfg (JobSys.init mem todo) sched) (List.replicate k .main) = y at *
    have e : y.run cfg [.main] = { y with main := .poll, job := { y.job with state := .idle } } := by
      simp [JobSys.run, JobSys.step, JobSys.mainStep, l1]
    rw [e]
    have : c = [] ∧ y.busy = false := by
      cases hy.phase with
      | last hm hb hc hs => exact ⟨rfl, hb⟩
      | rest hm hs hb hc => exact ⟨rfl, hb⟩
      | asked a n hm hs hb hc => rw [hc] at l2; cases l2
      | start1 a n hm hs hb hc => rw [hc] at l2; cases l2
      | start2 a n hm hs hb hc => rw [hc] at l2; cases l2
      | start3 a n hm hs hb hc => rw [hc] at l2; cases l2
      | start4 a n hm hs hb hc ha => rw [hc] at l2; cases l2
      | run a n i v st hi hm hb hc hj hv => rw [l1] at hm; rcases hm with hm | hm <;> cases hm
      | summed a n i st hi hf hm hb hc hj => rw [hm] at l1; cases l1
      | sized a n i st hi hf hm hb hc hj => rw [hm] at l1; cases l1
      | moved a n i st hi hf hm hb hc hj => rw [hm] at l1; cases l1
      | free a n hm hb hc hs hv => rw [hm] at l1; cases l1
      | send a n hm hb hc hs hv => rw [hm] at l1; cases l1
      | sendAsked a b n m hm hb hc hs hv => rw [hm] at l1; cases l1
      | lastAsked b m hm hb hc hs => rw [hc] at l2; cases l2
    refine ⟨⟨rfl, l2, rfl⟩, this.2, l3, ?_⟩
    rw [← l3, hy.out, hy.taken, this.1, List.append_nil]

/-! The two encounters. -/

/-- The first one: the main function runs after the command thread has set the state of the job.  It starts reading at
address 0, whatever the block asked for. -/
theorem C89_fails_start (cfg : Cfg) (mem : Mem) (a : UInt32) (n : Nat) :
    ∃ sched, let x := (JobSys.init mem [.build a n]).run cfg sched
      x.taken = [(a, n)] ∧ x.main = .sum .initial ∧ x.job.addr = 0 :=
  ⟨[.cmd, .cmd, .cmd, .cmd, .main], rfl, rfl, rfl⟩

/-- Nothing to do for either thread. -/
theorem rest_stays {cfg : Cfg} : ∀ (sched : List JobThread) {x : JobSys}, JobRest x → x.todo = [] → x.run cfg sched = x
  | [], _, _, _ => rfl
  | t :: ts, x, hr, ht => by
    have e : x.step cfg t = x := by
      cases t with
      | main => simp [JobSys.step, JobSys.mainStep, hr.main, hr.state]
      | cmd => simp [JobSys.step, JobSys.cmdStep, hr.cmd, ht]
    show (x.step cfg t).run cfg ts = x
    rw [e]
    exact rest_stays ts hr ht

def OnlySums (out : List JobAns) : Prop := ∀ r ∈ out, ∃ v, r = .value v

theorem onlySums_one {out : List JobAns} (h : OnlySums out) {v : Nat} (he : sums out = [v]) : out = [.value v] := by
  have e : out = (sums out).map JobAns.value := by
    clear he
    induction out with
    | nil => rfl
    | cons r rs ih =>
      obtain ⟨w, rfl⟩ := h r (List.mem_cons_self ..)
      have := ih fun q hq => h q (List.mem_cons_of_mem _ hq)
      show _ = JobAns.value w :: (sums rs).map JobAns.value
      rw [← this]
  rw [e, he]
  rfl

theorem step_onlySums {cfg : Cfg} {x : JobSys} (h : OnlySums x.out) : OnlySums (x.mainStep cfg).out := by
  have : (x.mainStep cfg).out = x.out ∨ ∃ v, (x.mainStep cfg).out = x.out ++ [.value v] := by
    cases hm : x.main with
    | poll => by_cases hs : x.job.state = .idle <;> simp [JobSys.mainStep, hm, hs]
    | sum st => cases st <;> simp [JobSys.mainStep, hm]
    | size st => simp [JobSys.mainStep, hm]
    | addr st => simp [JobSys.mainStep, hm]
    | next st => cases st <;> simp [JobSys.mainStep, hm]
    | free => cases hs : x.cmd.holds <;> simp [JobSys.mainStep, hm, hs]
    | send => simp [JobSys.mainStep, hm]
    | last => simp [JobSys.mainStep, hm]
  rcases this with e | ⟨v, e⟩
  · rw [e]; exact h
  · rw [e]
    intro r hr
    rcases List.mem_append.mp hr with hr | hr
    · exact h r hr
    · exact ⟨v, List.mem_singleton.mp hr⟩

theorem main_onlySums {cfg : Cfg} : ∀ (k : Nat) {x : JobSys}, OnlySums x.out → OnlySums (x.run cfg (List.replicate k .main)).out
  | 0, _, h => h
  | k + 1, x, h => by
    have e : x.run cfg (List.replicate (k + 1) .main) = (x.mainStep cfg).run cfg (List.replicate k .main) := rfl
    rw [e]
    exact main_onlySums k (step_onlySums h)

theorem lost_aux {cfg : Cfg} (h : JobCfg cfg) {mem : Mem} {x : JobSys} {a b : UInt32} {n m : Nat} {done cur : List (UInt32 × Nat)}
    (hx : JobInv cfg mem x done cur) (hw : x.cmd = .wait) (ht : x.todo = [.build b m]) (hnr : x.job.state ≠ .idle)
    (hk : x.taken = [(a, n)]) (ho : OnlySums x.out) :
    ∃ sched, ∀ more, let z := x.run cfg (sched ++ more)
      z.taken = [(a, n), (b, m)] ∧ z.out = [.value (ckOf cfg mem (a, n))] := by
  rcases job_last h _ (Nat.le_refl _) hx hw with hr | ⟨k, l1, l2, l3, l4, d, c, hy⟩
  · exact absurd hr.state hnr
  have hv := main_onlySums (cfg := cfg) k ho
  refine ⟨List.replicate k .main ++ [.cmd, .cmd, .main], fun more => ?_⟩
  rw [hk] at l3
  rw [ht] at l4
  simp only [job_run_append]
  generalize x.run cfg (List.replicate k .main) = y at *
  have : c = [] ∧ y.busy = false ∧ y.job.state = .final := by
    cases hy.phase with
    | last hm hb hc hs => exact ⟨rfl, hb, hs⟩
    | rest hm hs hb hc => rw [hm] at l1; cases l1
    | asked a n hm hs hb hc => rw [hc] at l2; cases l2
    | start1 a n hm hs hb hc => rw [hc] at l2; cases l2
    | start2 a n hm hs hb hc => rw [hc] at l2; cases l2
    | start3 a n hm hs hb hc => rw [hc] at l2; cases l2
    | start4 a n hm hs hb hc ha => rw [hc] at l2; cases l2
    | run a n i v st hi hm hb hc hj hv => rw [l1] at hm; rcases hm with hm | hm <;> cases hm
    | summed a n i st hi hf hm hb hc hj => rw [hm] at l1; cases l1
    | sized a n i st hi hf hm hb hc hj => rw [hm] at l1; cases l1
    | moved a n i st hi hf hm hb hc hj => rw [hm] at l1; cases l1
    | free a n hm hb hc hs hv => rw [hm] at l1; cases l1
    | send a n hm hb hc hs hv => rw [hm] at l1; cases l1
    | sendAsked a b n m hm hb hc hs hv => rw [hm] at l1; cases l1
    | lastAsked b m hm hb hc hs => rw [hc] at l2; cases l2
  obtain ⟨rfl, hb, hs⟩ := this
  have hd : d = [(a, n)] := by rw [← l3, hy.taken, List.append_nil]
  have ho : y.out = [.value (ckOf cfg mem (a, n))] := by
    have := hy.out
    rw [hd] at this
    exact onlySums_one hv this
  have e : y.run cfg [.cmd, .cmd, .main] =
      { y with main := .poll, cmd := .wait, todo := [], taken := y.taken ++ [(b, m)], job := { y.job with state := .idle } } := by
    simp [JobSys.run, JobSys.step, JobSys.cmdStep, JobSys.mainStep, l1, l2, l4, hb, hs]
  rw [e, rest_stays more ⟨rfl, rfl, rfl⟩ rfl]
  exact ⟨by simp [l3], ho⟩

/-- The second one: the tool sends a second request as soon as the answer to the first one is there.  It is taken, and
never answered. -/
theorem C89_fails_lost {cfg : Cfg} (h : JobCfg cfg) (mem : Mem) {a b : UInt32} {n m : Nat} (h1 : JobFits cfg (a, n))
    (h2 : JobFits cfg (b, m)) :
    ∃ sched, ∀ more, let x := (JobSys.init mem [.build a n, .build b m]).run cfg (sched ++ more)
      x.taken = [(a, n), (b, m)] ∧ x.out = [.value (ckOf cfg mem (a, n))] := by
  have hf : ∀ c l, JobReq.build c l ∈ [JobReq.build b m] → JobFits cfg (c, l) := by
    intro c l hm
    simp only [List.mem_cons, List.not_mem_nil, or_false, JobReq.build.injEq] at hm
    obtain ⟨rfl, rfl⟩ := hm
    exact h2
  have hx : JobInv cfg mem ⟨mem, true, ⟨.initial, a, n, 0⟩, .poll, .wait, [.build b m], [(a, n)], []⟩ [] [(a, n)] :=
    ⟨rfl, fun p hp => by rw [List.mem_singleton.mp hp]; exact h1, hf, rfl, rfl,
      .run a n 0 0 .initial rfl (.inl rfl) rfl rfl (by simp) (by simp)⟩
  obtain ⟨sched, hs⟩ := lost_aux h hx rfl rfl (by simp) rfl (fun r hr => nomatch hr)
  refine ⟨List.replicate 6 .cmd ++ sched, fun more => ?_⟩
  rw [List.append_assoc, job_run_append]
  exact hs more

/-- The simulator with chunks of four bytes. -/
def Ex.jobs : Cfg := { Ex.sim with chunked := true, chunkSize := 4 }

theorem Ex.jobs_cfg : JobCfg Ex.jobs := ⟨by decide, .inl rfl⟩

/-- Four accesses of the command thread, five of the main function, two of the command thread, and the rest of the job. -/
def Ex.early : List JobThread := List.replicate 4 .cmd ++ List.replicate 5 .main ++ List.replicate 2 .cmd ++ List.replicate 25 .main

/-- C89 as a whole is false: the checksum sent is that of the first chunk of the memory followed by the block. -/
theorem C89_fails : JobCfg Ex.jobs ∧ JobFits Ex.jobs (100, 16) ∧
    let x := (JobSys.init Ex.mem [.build 100 16]).run Ex.jobs Ex.early
    JobRest x ∧ x.taken = [(100, 16)] ∧ sums x.out = [crcCitt (bytesAt Ex.mem 0 4 ++ bytesAt Ex.mem 100 16)] ∧
      ¬ sums x.out <+: x.taken.map (ckOf Ex.jobs Ex.mem) := by
  refine ⟨Ex.jobs_cfg, ⟨by decide, by decide⟩, ⟨by decide +kernel, by decide +kernel, by decide +kernel⟩, by decide +kernel, by decide +kernel, by decide +kernel⟩

/-- A request during the job is refused, the job goes on: both threads taking turns. -/
example :
    let x := (JobSys.init Ex.mem [.build 100 16, .other, .build 8 8]).run Ex.jobs
      (List.replicate 6 .cmd ++ [.main, .main, .cmd, .main, .main, .cmd] ++ List.replicate 30 .main)
    x.out = [.busy, .busy, .value (crcCitt (bytesAt Ex.mem 100 16))] ∧ x.job.state = .idle := by
  decide +kernel

/-- Such a schedule is undisturbed. -/
example : Undisturbed Ex.jobs (.init Ex.mem [.build 100 16, .other]) [.cmd, .main, .cmd, .main, .cmd, .cmd, .cmd, .cmd, .main, .cmd] := by
  refine ⟨nofun, nofun, fun _ _ _ => ⟨nofun, nofun⟩, nofun, nofun, fun _ _ _ _ => ⟨nofun, nofun⟩, fun _ _ _ => ⟨nofun, nofun⟩, nofun,
    nofun, nofun, nofun, nofun, nofun, nofun, nofun, nofun, fun _ _ _ => ⟨nofun, nofun⟩, nofun, nofun, nofun, trivial⟩

/-- The second request gets lost: sent after the answer to the first. -/
example :
    let x := (JobSys.init Ex.mem [.build 100 8, .build 8 8]).run Ex.jobs
      (List.replicate 6 .cmd ++ List.replicate 14 .main ++ [.cmd, .cmd] ++ List.replicate 30 .main)
    x.out = [.value (crcCitt (bytesAt Ex.mem 100 8))] ∧ x.taken = [(100, 8), (8, 8)] ∧ x.cmd = .wait ∧ x.job.state = .idle := by
  decide +kernel

/-! The accesses are those of the sequential model. -/

/-- The main function without interruption: `checksumMain` (C43). -/
theorem C89_main {cfg : Cfg} {s : St} {x : JobSys} (hm : x.main = .poll) (hh : x.cmd.holds = false) (hmem : x.mem = s.mem)
    (hj : x.job = s.ck) (hb : x.busy = s.busy) :
    ∃ k ≤ 5, let y := x.run cfg (List.replicate k .main)
      y.main = .poll ∧ y.cmd = x.cmd ∧ y.job = (checksumMain cfg s).ck ∧ y.busy = (checksumMain cfg s).busy ∧
      y.out = x.out ++ (if s.ck.state = .final then [.value y.job.interim] else []) := by
  cases hs : s.ck.state with
  | idle => exact ⟨0, by omega, hm, rfl, by simp [checksumMain, hs, JobSys.run, hj], by simp [checksumMain, hs, JobSys.run, hb], by simp [JobSys.run]⟩
  | initial => 
    refine ⟨5, by omega, ?_⟩
    simp [JobSys.run, JobSys.step, List.replicate, JobSys.mainStep, hm, hj, hs, checksumMain, checksumChunk, hmem, hb]
  | remaining => 
    refine ⟨5, by omega, ?_⟩
    simp [JobSys.run, JobSys.step, List.replicate, JobSys.mainStep, hm, hj, hs, checksumMain, checksumChunk, hmem, hb]
  | final => 
    refine ⟨5, by omega, ?_⟩
    simp [JobSys.run, JobSys.step, List.replicate, JobSys.mainStep, hm, hj, hs, checksumMain, checksumFinish, checksumResponse, hmem, hh]

/-- The command thread without interruption: `startChecksum`. -/
theorem C89_start {cfg : Cfg} {s s' : St} {x : JobSys} {a : UInt32} {n : Nat} (hc : x.cmd = .test a n)
    (hj : x.job = s.ck) (hb : x.busy = s.busy) (he : startChecksum s a n = .ok s') :
    ∃ k ≤ 5, let y := x.run cfg (List.replicate k .cmd)
      y.cmd = .wait ∧ y.main = x.main ∧ y.job = s'.ck ∧ y.busy = s'.busy ∧ y.out = x.out := by
  unfold startChecksum at he
  split at he
  · cases he
    exact ⟨1, by omega, by simp_all [JobSys.run, JobSys.step, JobSys.cmdStep]⟩
  · cases he
    exact ⟨5, by omega, by simp_all [JobSys.run, JobSys.step, List.replicate, JobSys.cmdStep]⟩

end Xcp
