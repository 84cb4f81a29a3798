import Verif.Props.C11_BlockUpload
import Verif.Model.Blocks
import Verif.Model.Example
/-
C91: uploads in slave block mode, with the main function in a thread of its own.

False as a whole: both threads execute `Xcp_UploadSingleBlock`, without a lock, on the same state and the same
buffer (`C91_fails_…`).  `C91_blocks_partial`: under all schedules in which one thread at a time builds a packet
every upload is sent completely, in order, and nothing else; `C91_answered`: and soon.
-/
set_option autoImplicit false
namespace Xcp
open Spec

/-- Packet `i` of an upload of `n` bytes at `a`, if a packet has room for `cap` bytes. -/
def Spec.blockFrame (cap : Nat) (mem : Mem) (a : UInt32) (n i : Nat) : List UInt8 :=
  0xFF :: bytesAt mem (a + UInt32.ofNat (i * cap)) (min cap (n - i * cap))

/-- How many there are: at least one. -/
def Spec.blockCount (cap n : Nat) : Nat := max 1 ((n + (cap - 1)) / cap)

/-- All packets of an upload. -/
def Spec.blockFrames (cap : Nat) (mem : Mem) (p : UInt32 × UInt8) : List (List UInt8) :=
  (List.range (blockCount cap p.2.toNat)).map (blockFrame cap mem p.1 p.2.toNat)

/-- The packets sent by uploads, and the other answers. -/
def Spec.datas (out : List BlkOut) : List (List UInt8) := out.filterMap fun | .data f => some f | _ => none
def Spec.answers (out : List BlkOut) : List (List UInt8) := out.filterMap fun | .answer f => some f | _ => none

/-- ERR_CMD_BUSY and the positive answer to SET_MTA. -/
def Spec.IsAnswer (f : List UInt8) : Prop := f = [0xFE, 0x10] ∨ f = [0xFF]

/-- The main function builds a packet. -/
def Spec.building : UpPc → Bool
  | .test | .check | .free1 | .free2 => false
  | _ => true

/-- The encounters excluded: the main function starts with a block while a packet is executed; a packet is executed while the
main function builds a block. -/
def Spec.OneAtATime (cfg : Cfg) : BlkSys → List JobThread → Prop
  | _, [] => True
  | x, t :: ts =>
    (t = .main → x.main = .test → x.active = true → x.cmd = .wait) ∧
    (t = .cmd → x.cmd = .wait → building x.main = false) ∧ OneAtATime cfg (x.step cfg t) ts

/-- No upload and no other command in progress. -/
structure Spec.BlkRest (x : BlkSys) : Prop where
  main : x.main = .test
  cmd : x.cmd = .wait
  active : x.active = false

theorem datas_append (a b : List BlkOut) : datas (a ++ b) = datas a ++ datas b := by simp [datas]
theorem answers_append (a b : List BlkOut) : answers (a ++ b) = answers a ++ answers b := by simp [answers]

theorem ceil_of {cap n i : Nat} (hc : 0 < cap) (h0 : i = 0 ∨ i * cap < n) (h1 : n ≤ (i + 1) * cap) : i + 1 = blockCount cap n := by
  unfold blockCount
  rw [Nat.add_mul, Nat.one_mul] at h1
  by_cases hn : n = 0
  · subst hn
    rw [Nat.zero_add, Nat.div_eq_of_lt (by omega)]
    rcases h0 with h | h <;> omega
  · have : (n + (cap - 1)) / cap = i + 1 := by
      rw [Nat.div_eq_iff hc, Nat.add_mul, Nat.one_mul]
      rcases h0 with h | h
      · subst h; simp at *; omega
      · omega
    rw [this]
    omega

/-- The bytes sent are those of the block. -/
theorem C91_frames {cap : Nat} (hc : 0 < cap) (mem : Mem) (p : UInt32 × UInt8) :
    ((blockFrames cap mem p).map List.tail).flatten = bytesAt mem p.1 p.2.toNat ∧
      ∀ f ∈ blockFrames cap mem p, f.head? = some 0xFF ∧ f.length ≤ cap + 1 := by
  constructor
  · have key : ∀ k, ((List.range k).map (fun i => bytesAt mem (p.1 + UInt32.ofNat (i * cap)) (min cap (p.2.toNat - i * cap)))).flatten =
        bytesAt mem p.1 (min (k * cap) p.2.toNat) := by
      intro k
      induction k with
      | zero => simp [bytesAt]
      | succ k ih =>
        rw [List.range_succ, List.map_append, List.flatten_append, ih, Nat.add_mul, Nat.one_mul]
        simp only [List.map_cons, List.map_nil, List.flatten_cons, List.flatten_nil, List.append_nil]
        by_cases hk : k * cap ≤ p.2.toNat
        · rw [Nat.min_eq_left hk, ← bytesAt_add]
          congr 1
          omega
        · rw [show min (k * cap) p.2.toNat = p.2.toNat by omega, show min (k * cap + cap) p.2.toNat = p.2.toNat by omega,
            show min cap (p.2.toNat - k * cap) = 0 by omega]
          simp [bytesAt]
    have h : p.2.toNat ≤ blockCount cap p.2.toNat * cap := by
      have h1 : (p.2.toNat + (cap - 1)) / cap * cap ≤ blockCount cap p.2.toNat * cap := Nat.mul_le_mul_right _ (Nat.le_max_right ..)
      have h2 := Nat.div_add_mod (p.2.toNat + (cap - 1)) cap
      have h3 := Nat.mod_lt (p.2.toNat + (cap - 1)) hc
      rw [Nat.mul_comm] at h2
      omega
    have := key (blockCount cap p.2.toNat)
    rw [Nat.min_eq_right h] at this
    rw [← this]
    simp [blockFrames, List.map_map, Function.comp_def, blockFrame]
  · intro f hf
    simp only [blockFrames, List.mem_map] at hf
    obtain ⟨i, _, rfl⟩ := hf
    simp only [blockFrame, List.head?_cons, List.length_cons, bytesAt_length, true_and]
    omega

/-- Where an upload of `n` bytes at `a` stands, of which `k` packets were sent. -/
def UpAt (cfg : Cfg) (mem : Mem) (x : BlkSys) (a : UInt32) (n k : Nat) : UpPc → Prop
  | .test => x.remaining.toNat = n - k * (cfg.maxCto - 1) ∧ x.mta = a + UInt32.ofNat (k * (cfg.maxCto - 1)) ∧ (k = 0 ∨ k * (cfg.maxCto - 1) < n)
  | .head => x.remaining.toNat = n - k * (cfg.maxCto - 1) ∧ x.mta = a + UInt32.ofNat (k * (cfg.maxCto - 1)) ∧ (k = 0 ∨ k * (cfg.maxCto - 1) < n)
  | .pick => x.remaining.toNat = n - k * (cfg.maxCto - 1) ∧ x.mta = a + UInt32.ofNat (k * (cfg.maxCto - 1)) ∧ (k = 0 ∨ k * (cfg.maxCto - 1) < n) ∧
      x.buf.take 1 = [0xFF]
  | .length => x.remaining.toNat = n - k * (cfg.maxCto - 1) ∧ x.mta = a + UInt32.ofNat (k * (cfg.maxCto - 1)) ∧ (k = 0 ∨ k * (cfg.maxCto - 1) < n) ∧
      x.buf.take 1 = [0xFF] ∧ n - k * (cfg.maxCto - 1) ≤ cfg.maxCto - 1
  | .setLen l => x.remaining.toNat = n - k * (cfg.maxCto - 1) ∧ x.mta = a + UInt32.ofNat (k * (cfg.maxCto - 1)) ∧ (k = 0 ∨ k * (cfg.maxCto - 1) < n) ∧
      x.buf.take 1 = [0xFF] ∧ l = min (cfg.maxCto - 1) (n - k * (cfg.maxCto - 1))
  | .copy l => x.remaining.toNat = n - k * (cfg.maxCto - 1) ∧ x.mta = a + UInt32.ofNat (k * (cfg.maxCto - 1)) ∧ (k = 0 ∨ k * (cfg.maxCto - 1) < n) ∧
      x.buf.take 1 = [0xFF] ∧ l = min (cfg.maxCto - 1) (n - k * (cfg.maxCto - 1)) ∧ x.len = l + 1
  | .move l => x.remaining.toNat = n - k * (cfg.maxCto - 1) ∧ x.mta = a + UInt32.ofNat (k * (cfg.maxCto - 1)) ∧ (k = 0 ∨ k * (cfg.maxCto - 1) < n) ∧
      x.buf.take x.len = blockFrame (cfg.maxCto - 1) mem a n k ∧ l = min (cfg.maxCto - 1) (n - k * (cfg.maxCto - 1))
  | .sub l => x.remaining.toNat = n - k * (cfg.maxCto - 1) ∧ x.mta = a + UInt32.ofNat (k * (cfg.maxCto - 1) + l) ∧ (k = 0 ∨ k * (cfg.maxCto - 1) < n) ∧
      x.buf.take x.len = blockFrame (cfg.maxCto - 1) mem a n k ∧ l = min (cfg.maxCto - 1) (n - k * (cfg.maxCto - 1))
  | .send => x.remaining.toNat = n - (k + 1) * (cfg.maxCto - 1) ∧
      (x.remaining ≠ 0 → x.mta = a + UInt32.ofNat ((k + 1) * (cfg.maxCto - 1))) ∧ (k = 0 ∨ k * (cfg.maxCto - 1) < n) ∧
      x.buf.take x.len = blockFrame (cfg.maxCto - 1) mem a n k
  | .check => x.remaining.toNat = n - k * (cfg.maxCto - 1) ∧
      (x.remaining ≠ 0 → x.mta = a + UInt32.ofNat (k * (cfg.maxCto - 1)) ∧ k * (cfg.maxCto - 1) < n) ∧
      (x.remaining = 0 → k = blockCount (cfg.maxCto - 1) n)
  | .free1 => k = blockCount (cfg.maxCto - 1) n
  | .free2 => k = blockCount (cfg.maxCto - 1) n

/-- What an access of `Xcp_UploadSingleBlock` leaves alone. -/
structure UpSame (x y : BlkSys) : Prop where
  mem : y.mem = x.mem
  busy : y.busy = x.busy
  active : y.active = x.active
  lock : y.lock = x.lock
  main : y.main = x.main
  cmd : y.cmd = x.cmd
  todo : y.todo = x.todo
  taken : y.taken = x.taken
  answers : answers y.out = answers x.out

/-- From the test to the comparison with 0. -/
theorem up_work {cfg : Cfg} (hc : 2 ≤ cfg.maxCto) {x : BlkSys} {a : UInt32} {n k : Nat} (hn : n < 256) (who : JobThread) {pc : UpPc}
    (h : UpAt cfg x.mem x a n k pc) (ha : x.active = true) (hbuf : x.buf.length = cfg.maxCto) (ho : x.over = false)
    (hp : pc ≠ .check ∧ pc ≠ .free1 ∧ pc ≠ .free2) :
    ∃ y pc' k', x.up cfg who pc = (y, some pc') ∧ UpAt cfg x.mem y a n k' pc' ∧ (building pc' = true ∨ pc' = .check) ∧ UpSame x y ∧
      y.buf.length = cfg.maxCto ∧ y.over = false ∧
      ((k' = k ∧ datas y.out = datas x.out) ∨
        k' = k + 1 ∧ datas y.out = datas x.out ++ [blockFrame (cfg.maxCto - 1) x.mem a n k]) := by
  have same : UpSame x x := ⟨rfl, rfl, rfl, rfl, rfl, rfl, rfl, rfl, rfl⟩
  cases pc with
  | test => exact ⟨x, .head, k, by simp [BlkSys.up, ha], h, .inl rfl, same, hbuf, ho, .inl ⟨rfl, rfl⟩⟩
  | head =>
    refine ⟨_, .pick, k, rfl, ⟨h.1, h.2.1, h.2.2, ?_⟩, .inl rfl, ⟨rfl, rfl, rfl, rfl, rfl, rfl, rfl, rfl, rfl⟩, by simpa using hbuf, ho, .inl ⟨rfl, rfl⟩⟩
    cases hb : x.buf with
    | nil => rw [hb] at hbuf; simp at hbuf; omega
    | cons b bs => rfl
  | pick =>
    by_cases hr : x.remaining.toNat ≤ cfg.maxCto - 1
    · exact ⟨x, .length, k, by simp [BlkSys.up, hr], ⟨h.1, h.2.1, h.2.2.1, h.2.2.2, by rw [← h.1]; exact hr⟩, .inl rfl, same, hbuf, ho, .inl ⟨rfl, rfl⟩⟩
    · refine ⟨x, .setLen (cfg.maxCto - 1), k, by simp [BlkSys.up, hr], ⟨h.1, h.2.1, h.2.2.1, h.2.2.2, ?_⟩, .inl rfl, same, hbuf, ho, .inl ⟨rfl, rfl⟩⟩
      rw [h.1] at hr
      omega
  | length =>
    obtain ⟨h1, h2, h3, h4, h5⟩ := h
    exact ⟨x, _, k, rfl, ⟨h1, h2, h3, h4, by rw [h1]; omega⟩, .inl rfl, same, hbuf, ho, .inl ⟨rfl, rfl⟩⟩
  | setLen l =>
    obtain ⟨h1, h2, h3, h4, h5⟩ := h
    exact ⟨_, _, k, rfl, ⟨h1, h2, h3, h4, h5, rfl⟩, .inl rfl, ⟨rfl, rfl, rfl, rfl, rfl, rfl, rfl, rfl, rfl⟩, hbuf, ho, .inl ⟨rfl, rfl⟩⟩
  | copy l =>
    obtain ⟨h1, h2, h3, h4, h5, h6⟩ := h
    have hl : (x.mem.read x.mta l).length = l := bytesAt_length ..
    refine ⟨_, _, k, rfl, ⟨h1, h2, h3, ?_, h5⟩, .inl rfl, ⟨rfl, rfl, rfl, rfl, rfl, rfl, rfl, rfl, rfl⟩, ?_, ?_, .inl ⟨rfl, rfl⟩⟩
    · show (x.buf.take 1 ++ x.mem.read x.mta l ++ x.buf.drop (l + 1)).take x.len = _
      rw [h4, h6, List.take_append_of_le_length (by simp [hl]), List.take_of_length_le (by simp [hl]), h2, h5]
      rfl
    · show (x.buf.take 1 ++ x.mem.read x.mta l ++ x.buf.drop (l + 1)).length = _
      simp only [List.length_append, hl, List.length_take, List.length_drop, hbuf]
      omega
    · show (x.over || decide (cfg.maxCto < l + 1)) = false
      rw [ho]
      simp
      omega
  | move l =>
    obtain ⟨h1, h2, h3, h4, h5⟩ := h
    refine ⟨_, _, k, rfl, ⟨h1, ?_, h3, h4, h5⟩, .inl rfl, ⟨rfl, rfl, rfl, rfl, rfl, rfl, rfl, rfl, rfl⟩, hbuf, ho, .inl ⟨rfl, rfl⟩⟩
    show x.mta + UInt32.ofNat l = _
    rw [h2, UInt32.ofNat_add, UInt32.add_assoc]
  | sub l =>
    obtain ⟨h1, h2, h3, h4, h5⟩ := h
    have hl : (UInt8.ofNat l).toNat = l := by
      rw [UInt8.toNat_ofNat']; exact Nat.mod_eq_of_lt (by omega)
    have hsub : (x.remaining - UInt8.ofNat l).toNat = n - (k + 1) * (cfg.maxCto - 1) := by
      rw [UInt8.toNat_sub_of_le _ _ (by rw [UInt8.le_iff_toNat_le, hl, h1, h5]; omega), hl, h1, Nat.add_mul, Nat.one_mul]
      omega
    refine ⟨_, _, k, rfl, ⟨hsub, ?_, h3, h4⟩, .inl rfl, ⟨rfl, rfl, rfl, rfl, rfl, rfl, rfl, rfl, rfl⟩, hbuf, ho, .inl ⟨rfl, rfl⟩⟩
    intro hne
    show x.mta = _
    have : (x.remaining - UInt8.ofNat l).toNat ≠ 0 := fun h => hne (UInt8.toNat_inj.mp h)
    rw [hsub, Nat.add_mul, Nat.one_mul] at this
    rw [h2, Nat.add_mul, Nat.one_mul, show l = cfg.maxCto - 1 by omega]
  | send =>
    obtain ⟨h1, h2, h3, h4⟩ := h
    refine ⟨_, _, k + 1, rfl, ⟨h1, fun hne => ⟨h2 hne, ?_⟩, fun h0 => ?_⟩, .inr rfl, ⟨rfl, rfl, rfl, rfl, rfl, rfl, rfl, rfl, ?_⟩, hbuf, ho, .inr ⟨rfl, ?_⟩⟩
    · have : x.remaining.toNat ≠ 0 := fun h => hne (UInt8.toNat_inj.mp h)
      omega
    · have h0 : x.remaining = 0 := h0
      have : x.remaining.toNat = 0 := by rw [h0]; rfl
      exact ceil_of (by omega) h3 (by omega)
    · simp [answers]
    · show datas (x.out ++ [.data (x.buf.take x.len)]) = _
      rw [datas_append, h4]
      rfl
  | check => exact absurd rfl hp.1
  | free1 => exact absurd rfl hp.2.1
  | free2 => exact absurd rfl hp.2.2

/-- The command thread is between two packets or gives an answer. -/
inductive CmdAns (x : BlkSys) : Prop where
  | wait (h : x.cmd = .wait)
  | fill (bs : List UInt8) (h : x.cmd = .fill bs) (hb : IsAnswer bs)
  | send (h : x.cmd = .send) (hb : IsAnswer (x.buf.take x.len))

/-- The command thread has not yet started an upload: `cur` is the one it is going to start. -/
inductive CmdIdle (x : BlkSys) : List (UInt32 × UInt8) → Prop where
  | ans (h : CmdAns x) : CmdIdle x []
  | mta (a : UInt32) (h : x.cmd = .mta a) : CmdIdle x []
  | rem (n : UInt8) (h : x.cmd = .rem n) : CmdIdle x [(x.mta, n)]
  | act (h : x.cmd = .act1) : CmdIdle x [(x.mta, x.remaining)]

/-- Where both threads are; the upload in progress; how many of its packets were sent. -/
inductive BlkPhase (cfg : Cfg) (x : BlkSys) : List (UInt32 × UInt8) → Nat → Prop where
  | idle (cur : List (UInt32 × UInt8)) (hm : x.main = .test) (hl : x.lock = none) (hb : x.busy = false) (ha : x.active = false)
      (hc : CmdIdle x cur) : BlkPhase cfg x cur 0
  | set (hm : x.main = .test) (hl : x.lock = some .cmd) (hb : x.busy = true) (ha : x.active = false)
      (hc : x.cmd = .act2) : BlkPhase cfg x [(x.mta, x.remaining)] 0
  | first (a : UInt32) (n : UInt8) (pc : UpPc) (k : Nat) (hp : pc ≠ .free2) (hm : x.main = .test) (hl : x.lock = none)
      (hb : x.busy = true) (ha : x.active = true) (hc : x.cmd = .up pc) (hu : UpAt cfg x.mem x a n.toNat k pc) : BlkPhase cfg x [(a, n)] k
  | firstLast (hm : x.main = .test) (hl : x.lock = some .cmd) (hb : x.busy = false) (ha : x.active = true)
      (hc : x.cmd = .up .free2) : BlkPhase cfg x [] 0
  | between (a : UInt32) (n : UInt8) (k : Nat) (hm : x.main = .test) (hl : x.lock = none) (hb : x.busy = true) (ha : x.active = true)
      (hc : CmdAns x) (hu : UpAt cfg x.mem x a n.toNat k .test) : BlkPhase cfg x [(a, n)] k
  | block (a : UInt32) (n : UInt8) (pc : UpPc) (k : Nat) (hp : building pc = true) (hm : x.main = pc) (hl : x.lock = none) (hb : x.busy = true)
      (ha : x.active = true) (hc : x.cmd = .wait) (hu : UpAt cfg x.mem x a n.toNat k pc) : BlkPhase cfg x [(a, n)] k
  | ending (a : UInt32) (n : UInt8) (pc : UpPc) (k : Nat) (hp : pc = .check ∨ pc = .free1) (hm : x.main = pc) (hl : x.lock = none)
      (hb : x.busy = true) (ha : x.active = true) (hc : CmdAns x) (hu : UpAt cfg x.mem x a n.toNat k pc) : BlkPhase cfg x [(a, n)] k
  | last (cur : List (UInt32 × UInt8)) (hm : x.main = .free2) (hl : x.lock = some .main) (hb : x.busy = false) (ha : x.active = true)
      (hc : CmdIdle x cur) : BlkPhase cfg x cur 0

/-- The first `k` packets of the upload in progress. -/
def partFrames (cfg : Cfg) (mem : Mem) (cur : List (UInt32 × UInt8)) (k : Nat) : List (List UInt8) :=
  cur.flatMap fun p => (List.range k).map (blockFrame (cfg.maxCto - 1) mem p.1 p.2.toNat)

/-- An answer is on its way. -/
def pending : BlkPc → Nat
  | .fill _ | .send | .mta _ => 1
  | _ => 0

/-- What holds all the time. -/
structure BlkInv (cfg : Cfg) (mem : Mem) (total : Nat) (x : BlkSys) (done cur : List (UInt32 × UInt8)) (k : Nat) : Prop where
  image : x.mem = mem
  room : x.buf.length = cfg.maxCto
  inside : x.over = false
  taken : x.taken = done ++ cur
  datas : datas x.out = done.flatMap (blockFrames (cfg.maxCto - 1) mem) ++ partFrames cfg mem cur k
  answers : ∀ f ∈ answers x.out, IsAnswer f
  count : (Spec.answers x.out).length + x.taken.length + x.todo.length + pending x.cmd = total
  phase : BlkPhase cfg x cur k

theorem part_zero (cfg : Cfg) (mem : Mem) (cur : List (UInt32 × UInt8)) : partFrames cfg mem cur 0 = [] := by
  simp [partFrames]

theorem part_succ (cfg : Cfg) (mem : Mem) (a : UInt32) (n : UInt8) (k : Nat) :
    partFrames cfg mem [(a, n)] (k + 1) = partFrames cfg mem [(a, n)] k ++ [blockFrame (cfg.maxCto - 1) mem a n.toNat k] := by
  simp [partFrames, List.range_succ]

theorem part_all (cfg : Cfg) (mem : Mem) (a : UInt32) (n : UInt8) :
    partFrames cfg mem [(a, n)] (blockCount (cfg.maxCto - 1) n.toNat) = blockFrames (cfg.maxCto - 1) mem (a, n) := by
  simp [partFrames, blockFrames]

theorem CmdAns.keep {x y : BlkSys} (h : CmdAns x) (hc : y.cmd = x.cmd) (hb : y.buf = x.buf) (hl : y.len = x.len) : CmdAns y := by
  cases h with
  | wait h => exact .wait (hc.trans h)
  | fill bs h hbs => exact .fill bs (hc.trans h) hbs
  | send h hbs => exact .send (hc.trans h) (by rw [hb, hl]; exact hbs)

theorem CmdIdle.keep {x y : BlkSys} {cur : List (UInt32 × UInt8)} (h : CmdIdle x cur) (hc : y.cmd = x.cmd) (hb : y.buf = x.buf)
    (hl : y.len = x.len) (hm : y.mta = x.mta) (hr : y.remaining = x.remaining) : CmdIdle y cur := by
  cases h with
  | ans h => exact .ans (h.keep hc hb hl)
  | mta a h => exact .mta a (hc.trans h)
  | rem n h => rw [← hm]; exact .rem n (hc.trans h)
  | act h => rw [← hm, ← hr]; exact .act (hc.trans h)

/-- An access of the main function. -/
theorem blk_main {cfg : Cfg} (hc : 2 ≤ cfg.maxCto) {mem : Mem} {total : Nat} {x : BlkSys} {done cur : List (UInt32 × UInt8)} {k : Nat}
    (h : BlkInv cfg mem total x done cur k) (hu : x.main = .test → x.active = true → x.cmd = .wait) :
    ∃ d c j, BlkInv cfg mem total (x.mainStep cfg) d c j := by
  obtain ⟨i1, i2, i3, i4, i5, i6, i7, ph⟩ := h
  have still : x.main = .test → x.active = false → x.mainStep cfg = x := by
    intro hm ha
    cases x
    simp_all [BlkSys.mainStep, BlkSys.up]
  -- an access that builds a block
  have work : ∀ (a : UInt32) (n : UInt8), cur = [(a, n)] → UpAt cfg x.mem x a n.toNat k x.main → x.active = true → x.lock = none → x.busy = true →
      x.cmd = .wait → x.main ≠ .check ∧ x.main ≠ .free1 ∧ x.main ≠ .free2 → ∃ d c j, BlkInv cfg mem total (x.mainStep cfg) d c j := by
    intro a n hcur hup ha hl hb hw hp
    subst hcur
    obtain ⟨y, pc', k', e, hup', hpc, hs, r1, r2, hk⟩ := up_work hc (UInt8.toNat_lt n) .main hup ha i2 i3 hp
    have e' : x.mainStep cfg = { y with main := pc' } := by
      unfold BlkSys.mainStep
      rw [e]
      rfl
    rw [e']
    have hup2 : UpAt cfg y.mem { y with main := pc' } a n.toNat k' pc' := by
      rw [hs.mem]
      cases pc' <;> exact hup'
    refine ⟨done, [(a, n)], k', hs.mem.trans i1, r1, r2, hs.taken.trans i4, ?_, ?_, ?_, ?_⟩
    · rcases hk with ⟨rfl, h⟩ | ⟨rfl, h⟩
      · exact h.trans i5
      · rw [part_succ, ← List.append_assoc, ← i5, ← i1]; exact h
    · intro f hf; exact i6 f (by rw [← hs.answers]; exact hf)
    · show (Spec.answers y.out).length + y.taken.length + y.todo.length + pending y.cmd = total
      rw [hs.answers, hs.taken, hs.todo, hs.cmd]; exact i7
    · rcases hpc with hpc | hpc
      · exact .block a n pc' k' hpc rfl (hs.lock.trans hl) (hs.busy.trans hb) (hs.active.trans ha) (hs.cmd.trans hw) hup2
      · exact .ending a n pc' k' (.inl hpc) rfl (hs.lock.trans hl) (hs.busy.trans hb) (hs.active.trans ha) (.wait (hs.cmd.trans hw)) hup2
  cases ph with
  | idle _ hm hl hb ha hc => rw [still hm ha]; exact ⟨done, _, 0, i1, i2, i3, i4, i5, i6, i7, .idle _ hm hl hb ha hc⟩
  | set hm hl hb ha hc => rw [still hm ha]; exact ⟨done, _, 0, i1, i2, i3, i4, i5, i6, i7, .set hm hl hb ha hc⟩
  | first a n pc k hp hm hl hb ha hc hup => rw [hu hm ha] at hc; cases hc
  | firstLast hm hl hb ha hc => rw [hu hm ha] at hc; cases hc
  | between a n k hm hl hb ha hc hup => exact work a n rfl (by rw [hm]; exact hup) ha hl hb (hu hm ha) (by rw [hm]; simp)
  | block a n pc k hp hm hl hb ha hc hup =>
    subst hm
    refine work a n rfl hup ha hl hb hc ⟨?_, ?_, ?_⟩ <;> intro h <;> rw [h] at hp <;> cases hp
  | ending a n pc k hp hm hl hb ha hc hup =>
    rcases hp with rfl | rfl
    · obtain ⟨u1, u2, u3⟩ := hup
      by_cases hr : x.remaining = 0
      · have e : x.mainStep cfg = { x with main := .free1 } := by simp [BlkSys.mainStep, BlkSys.up, hm, hr]
        rw [e]
        exact ⟨done, _, k, i1, i2, i3, i4, i5, i6, i7, .ending a n .free1 k (.inr rfl) rfl hl hb ha (hc.keep rfl rfl rfl) (u3 hr)⟩
      · have e : x.mainStep cfg = { x with main := .test } := by simp [BlkSys.mainStep, BlkSys.up, hm, hr]
        rw [e]
        exact ⟨done, _, k, i1, i2, i3, i4, i5, i6, i7, .between a n k rfl hl hb ha (hc.keep rfl rfl rfl) ⟨u1, (u2 hr).1, .inr (u2 hr).2⟩⟩
    · have e : x.mainStep cfg = { x with main := .free2, lock := some .main, busy := false } := by simp [BlkSys.mainStep, BlkSys.up, hm, hl]
      rw [e]
      refine ⟨done ++ [(a, n)], [], 0, i1, i2, i3, by simpa using i4, ?_, i6, i7, .last [] rfl rfl rfl ha (.ans (hc.keep rfl rfl rfl))⟩
      have hk : k = _ := hup
      rw [part_zero, List.append_nil, List.flatMap_append]
      show Spec.datas x.out = _
      rw [i5, hk, part_all]
      simp
  | last _ hm hl hb ha hc =>
    have e : x.mainStep cfg = { x with main := .test, lock := none, active := false } := by simp [BlkSys.mainStep, BlkSys.up, hm]
    rw [e]
    exact ⟨done, _, 0, i1, i2, i3, i4, i5, i6, i7, .idle _ rfl rfl hb rfl (hc.keep rfl rfl rfl rfl rfl)⟩

/-- What an answer leaves alone. -/
structure AnsSame (x y : BlkSys) : Prop where
  mem : y.mem = x.mem
  busy : y.busy = x.busy
  active : y.active = x.active
  lock : y.lock = x.lock
  main : y.main = x.main
  mta : y.mta = x.mta
  remaining : y.remaining = x.remaining
  taken : y.taken = x.taken
  over : y.over = x.over
  datas : datas y.out = datas x.out

/-- An access of the command thread that concerns an answer. -/
theorem ans_step {cfg : Cfg} (hc : 2 ≤ cfg.maxCto) {x : BlkSys} (h : CmdAns x) (hw : x.cmd = .wait → x.busy = true ∨ x.todo = [])
    (hr : x.buf.length = cfg.maxCto) (ha : ∀ f ∈ answers x.out, IsAnswer f) :
    let y := x.cmdStep cfg
    CmdAns y ∧ AnsSame x y ∧ y.buf.length = cfg.maxCto ∧ (∀ f ∈ answers y.out, IsAnswer f) ∧
      (answers y.out).length + y.todo.length + pending y.cmd = (answers x.out).length + x.todo.length + pending x.cmd := by
  cases h with
  | wait h =>
    cases ht : x.todo with
    | nil =>
      have e : x.cmdStep cfg = x := by simp [BlkSys.cmdStep, h, ht]
      rw [e]
      exact ⟨.wait h, ⟨rfl, rfl, rfl, rfl, rfl, rfl, rfl, rfl, rfl, rfl⟩, hr, ha, by rw [ht]⟩
    | cons r rest =>
      have hb : x.busy = true := by
        rcases hw h with hb | hb
        · exact hb
        · rw [ht] at hb; cases hb
      have e : x.cmdStep cfg = { x with todo := rest, cmd := .fill [0xFE, 0x10] } := by simp [BlkSys.cmdStep, h, ht, hb]
      rw [e]
      refine ⟨.fill _ rfl (.inl rfl), ⟨rfl, rfl, rfl, rfl, rfl, rfl, rfl, rfl, rfl, rfl⟩, hr, ha, ?_⟩
      simp [pending, h]
      omega
  | fill bs h hbs =>
    have e : x.cmdStep cfg = { x with buf := bs ++ x.buf.drop bs.length, len := bs.length, cmd := .send } := by simp [BlkSys.cmdStep, h]
    rw [e]
    refine ⟨.send rfl ?_, ⟨rfl, rfl, rfl, rfl, rfl, rfl, rfl, rfl, rfl, rfl⟩, ?_, ha, by simp [pending, h]⟩
    · show IsAnswer ((bs ++ x.buf.drop bs.length).take bs.length)
      rw [List.take_left]
      exact hbs
    · show (bs ++ x.buf.drop bs.length).length = _
      have : bs.length ≤ 2 := by rcases hbs with rfl | rfl <;> simp
      simp only [List.length_append, List.length_drop]
      omega
  | send h hbs =>
    have e : x.cmdStep cfg = { x with out := x.out ++ [.answer (x.buf.take x.len)], cmd := .wait } := by simp [BlkSys.cmdStep, h]
    rw [e]
    refine ⟨.wait rfl, ⟨rfl, rfl, rfl, rfl, rfl, rfl, rfl, rfl, rfl, by simp [datas]⟩, hr, ?_, ?_⟩
    · intro f hf
      rw [answers_append] at hf
      rcases List.mem_append.mp hf with hf | hf
      · exact ha f hf
      · have hf : f = x.buf.take x.len := by simpa [answers] using hf
        rw [hf]; exact hbs
    · simp [pending, h, answers]
      omega

/-- An access of the command thread. -/
theorem blk_cmd {cfg : Cfg} (hc : 2 ≤ cfg.maxCto) {mem : Mem} {total : Nat} {x : BlkSys} {done cur : List (UInt32 × UInt8)} {k : Nat}
    (h : BlkInv cfg mem total x done cur k) (hu : x.cmd = .wait → building x.main = false) :
    ∃ d c j, BlkInv cfg mem total (x.cmdStep cfg) d c j := by
  obtain ⟨i1, i2, i3, i4, i5, i6, i7, ph⟩ := h
  -- answers
  have ans : CmdAns x → (x.cmd = .wait → x.busy = true ∨ x.todo = []) →
      (∀ y : BlkSys, CmdAns y → AnsSame x y → BlkPhase cfg y cur k) → ∃ d c j, BlkInv cfg mem total (x.cmdStep cfg) d c j := by
    intro ha hw hph
    obtain ⟨a1, a2, a3, a4, a5⟩ := ans_step hc ha hw i2 i6
    refine ⟨done, cur, k, a2.mem.trans i1, a3, a2.over.trans i3, a2.taken.trans i4, a2.datas.trans i5, a4, ?_, hph _ a1 a2⟩
    rw [a2.taken]
    omega
  -- the steps before an upload
  have idle : CmdIdle x cur → k = 0 → x.busy = false → (x.lock = none → x.main = .test ∧ x.active = false) →
      (∀ y : BlkSys, ∀ c, CmdIdle y c → y.mem = x.mem → y.busy = x.busy → y.active = x.active → y.lock = x.lock → y.main = x.main →
        BlkPhase cfg y c 0) → ∃ d c j, BlkInv cfg mem total (x.cmdStep cfg) d c j := by
    intro hi hk hb hl hph
    subst hk
    cases hi with
    | ans h =>
      by_cases hw : x.cmd = .wait
      · cases ht : x.todo with
        | nil =>
          exact ans h (fun _ => .inr ht) fun y hy hs => hph y _ (.ans hy) hs.mem hs.busy hs.active hs.lock hs.main
        | cons r rest =>
          rw [part_zero] at i5
          rw [hw, ht, List.length_cons] at i7
          cases r with
          | setMta a =>
            have e : x.cmdStep cfg = { x with todo := rest, cmd := .mta a } := by simp [BlkSys.cmdStep, hw, ht, hb]
            rw [e]
            refine ⟨done, [], 0, i1, i2, i3, i4, by rw [part_zero]; exact i5, i6, ?_, hph _ _ (.mta a rfl) rfl rfl rfl rfl rfl⟩
            simp [pending] at i7 ⊢
            omega
          | upload n =>
            have e : x.cmdStep cfg = { x with todo := rest, cmd := .rem n, taken := x.taken ++ [(x.mta, n)] } := by
              simp [BlkSys.cmdStep, hw, ht, hb]
            rw [e]
            refine ⟨done, [(x.mta, n)], 0, i1, i2, i3, by rw [i4]; simp, by rw [part_zero]; exact i5, i6, ?_, hph _ _ (.rem n rfl) rfl rfl rfl rfl rfl⟩
            simp [pending] at i7 ⊢
            omega
      · exact ans h (fun h => absurd h hw) fun y hy hs => hph y _ (.ans hy) hs.mem hs.busy hs.active hs.lock hs.main
    | mta a h =>
      have e : x.cmdStep cfg = { x with mta := a, cmd := .fill [0xFF] } := by simp [BlkSys.cmdStep, h]
      rw [e]
      exact ⟨done, [], 0, i1, i2, i3, i4, i5, i6, by rw [h] at i7; exact i7, hph _ _ (.ans (.fill _ rfl (.inr rfl))) rfl rfl rfl rfl rfl⟩
    | rem n h =>
      have e : x.cmdStep cfg = { x with remaining := n, cmd := .act1 } := by simp [BlkSys.cmdStep, h]
      rw [e]
      exact ⟨done, _, 0, i1, i2, i3, i4, i5, i6, by rw [h] at i7; exact i7, hph _ _ (.act rfl) rfl rfl rfl rfl rfl⟩
    | act h =>
      by_cases hl0 : x.lock = none
      · have e : x.cmdStep cfg = { x with lock := some .cmd, busy := true, cmd := .act2 } := by simp [BlkSys.cmdStep, h, hl0]
        rw [e]
        exact ⟨done, _, 0, i1, i2, i3, i4, i5, i6, by rw [h] at i7; exact i7, .set (hl hl0).1 rfl rfl (hl hl0).2 rfl⟩
      · have e : x.cmdStep cfg = x := by simp [BlkSys.cmdStep, h, hl0]
        rw [e]
        exact ⟨done, _, 0, i1, i2, i3, i4, i5, i6, i7, hph _ _ (.act h) rfl rfl rfl rfl rfl⟩
  cases ph with
  | idle _ hm hl hb ha hc =>
    exact idle hc rfl hb (fun _ => ⟨hm, ha⟩) fun y c hy g1 g2 g3 g4 g5 => .idle c (g5.trans hm) (g4.trans hl) (g2.trans hb) (g3.trans ha) hy
  | last _ hm hl hb ha hc =>
    exact idle hc rfl hb (fun h => by rw [hl] at h; cases h) fun y c hy g1 g2 g3 g4 g5 => .last c (g5.trans hm) (g4.trans hl) (g2.trans hb) (g3.trans ha) hy
  | set hm hl hb ha hcm =>
    have e : x.cmdStep cfg = { x with lock := none, active := true, cmd := .up .test } := by simp [BlkSys.cmdStep, hcm]
    rw [e]
    exact ⟨done, _, 0, i1, i2, i3, i4, i5, i6, by rw [hcm] at i7; exact i7, .first _ _ .test 0 (by simp) hm rfl hb rfl rfl ⟨by simp, by simp, .inl rfl⟩⟩
  | first a n pc k hp hm hl hb ha hcm hup =>
    rw [hcm] at i7
    by_cases hw : pc ≠ .check ∧ pc ≠ .free1 ∧ pc ≠ .free2
    · obtain ⟨y, pc', k', e, hup', hpc, hs, r1, r2, hk⟩ := up_work hc (UInt8.toNat_lt n) .cmd hup ha i2 i3 hw
      have e' : x.cmdStep cfg = { y with cmd := .up pc' } := by
        simp only [BlkSys.cmdStep, hcm]
        rw [e]
        rfl
      rw [e']
      have hup2 : UpAt cfg y.mem { y with cmd := .up pc' } a n.toNat k' pc' := by
        rw [hs.mem]
        cases pc' <;> exact hup'
      refine ⟨done, [(a, n)], k', hs.mem.trans i1, r1, r2, hs.taken.trans i4, ?_, ?_, ?_, .first a n pc' k' ?_ (hs.main.trans hm) (hs.lock.trans hl)
        (hs.busy.trans hb) (hs.active.trans ha) rfl hup2⟩
      · rcases hk with ⟨rfl, h⟩ | ⟨rfl, h⟩
        · exact h.trans i5
        · rw [part_succ, ← List.append_assoc, ← i5, ← i1]; exact h
      · intro f hf; exact i6 f (by rw [← hs.answers]; exact hf)
      · show (Spec.answers y.out).length + y.taken.length + y.todo.length + 0 = total
        rw [hs.answers, hs.taken, hs.todo]; exact i7
      · rintro rfl
        rcases hpc with h | h <;> cases h
    · have hpc : pc = .check ∨ pc = .free1 := by
        by_cases h1 : pc = .check
        · exact .inl h1
        · by_cases h2 : pc = .free1
          · exact .inr h2
          · exact absurd ⟨h1, h2, hp⟩ hw
      rcases hpc with rfl | rfl
      · obtain ⟨u1, u2, u3⟩ := hup
        by_cases hr : x.remaining = 0
        · have e : x.cmdStep cfg = { x with cmd := .up .free1 } := by simp [BlkSys.cmdStep, BlkSys.up, hcm, hr]
          rw [e]
          exact ⟨done, _, k, i1, i2, i3, i4, i5, i6, i7, .first a n .free1 k (by simp) hm hl hb ha rfl (u3 hr)⟩
        · have e : x.cmdStep cfg = { x with cmd := .wait } := by simp [BlkSys.cmdStep, BlkSys.up, hcm, hr]
          rw [e]
          exact ⟨done, _, k, i1, i2, i3, i4, i5, i6, i7, .between a n k hm hl hb ha (.wait rfl) ⟨u1, (u2 hr).1, .inr (u2 hr).2⟩⟩
      · have e : x.cmdStep cfg = { x with cmd := .up .free2, lock := some .cmd, busy := false } := by simp [BlkSys.cmdStep, BlkSys.up, hcm, hl]
        rw [e]
        refine ⟨done ++ [(a, n)], [], 0, i1, i2, i3, by simpa using i4, ?_, i6, i7, .firstLast hm rfl rfl ha rfl⟩
        have hk : k = _ := hup
        rw [part_zero, List.append_nil, List.flatMap_append]
        show Spec.datas x.out = _
        rw [i5, hk, part_all]
        simp
  | firstLast hm hl hb ha hcm =>
    have e : x.cmdStep cfg = { x with cmd := .wait, lock := none, active := false } := by simp [BlkSys.cmdStep, BlkSys.up, hcm]
    rw [e]
    exact ⟨done, [], 0, i1, i2, i3, i4, i5, i6, by rw [hcm] at i7; exact i7, .idle [] hm rfl hb rfl (.ans (.wait rfl))⟩
  | between a n k hm hl hb ha hcm hup =>
    refine ans hcm (fun _ => .inl hb) fun y hy hs => .between a n k (hs.main.trans hm) (hs.lock.trans hl) (hs.busy.trans hb) (hs.active.trans ha) hy ?_
    obtain ⟨u1, u2, u3⟩ := hup
    exact ⟨by rw [hs.remaining]; exact u1, by rw [hs.mta]; exact u2, u3⟩
  | block a n pc k hp hm hl hb ha hcm hup =>
    have := hu hcm
    rw [hm, hp] at this
    cases this
  | ending a n pc k hp hm hl hb ha hcm hup =>
    refine ans hcm (fun _ => .inl hb) fun y hy hs => .ending a n pc k hp (hs.main.trans hm) (hs.lock.trans hl) (hs.busy.trans hb) (hs.active.trans ha) hy ?_
    rcases hp with rfl | rfl
    · obtain ⟨u1, u2, u3⟩ := hup
      exact ⟨by rw [hs.remaining]; exact u1, by rw [hs.remaining, hs.mta]; exact u2, by rw [hs.remaining]; exact u3⟩
    · exact hup

theorem blk_inv {cfg : Cfg} (hc : 2 ≤ cfg.maxCto) {mem : Mem} {total : Nat} (sched : List JobThread) {x : BlkSys} {done cur : List (UInt32 × UInt8)} {k : Nat}
    (h : BlkInv cfg mem total x done cur k) (hu : OneAtATime cfg x sched) : ∃ d c j, BlkInv cfg mem total (x.run cfg sched) d c j := by
  induction sched generalizing x done cur k with
  | nil => exact ⟨_, _, _, h⟩
  | cons t ts ih =>
    obtain ⟨u1, u2, u3⟩ := hu
    cases t with
    | main =>
      obtain ⟨d, c, j, h'⟩ := blk_main hc h (u1 rfl)
      exact ih h' u3
    | cmd =>
      obtain ⟨d, c, j, h'⟩ := blk_cmd hc h (u2 rfl)
      exact ih h' u3

theorem blk_init (cfg : Cfg) (mem : Mem) (mta : UInt32) (todo : List BlkReq) :
    BlkInv cfg mem todo.length (.init cfg mem mta todo) [] [] 0 :=
  ⟨rfl, List.length_replicate .., rfl, rfl, rfl, fun _ h => by simp [BlkSys.init, answers] at h, by simp [BlkSys.init, answers, pending],
    .idle [] rfl rfl rfl rfl (.ans (.wait rfl))⟩

theorem BlkPhase.cur_le {cfg : Cfg} {x : BlkSys} {cur : List (UInt32 × UInt8)} {k : Nat} (h : BlkPhase cfg x cur k) : cur.length ≤ 1 := by
  cases h with
  | idle _ _ _ _ _ h => cases h <;> simp
  | last _ _ _ _ _ h => cases h <;> simp
  | _ => simp

/-- C91, for schedules in which one thread at a time builds a packet: what uploads have sent are the packets of the
uploads taken so far, in order, the last of them perhaps not yet all; all other packets are answers; no byte is
written behind the buffer.  In the end every packet was either taken as an upload, and sent completely, or answered. -/
theorem C91_blocks_partial {cfg : Cfg} (hc : 2 ≤ cfg.maxCto) (mem : Mem) (mta : UInt32) (todo : List BlkReq) {sched : List JobThread}
    (hu : OneAtATime cfg (.init cfg mem mta todo) sched) :
    let x := (BlkSys.init cfg mem mta todo).run cfg sched
    (∃ done cur k, x.taken = done ++ cur ∧ cur.length ≤ 1 ∧
      datas x.out = done.flatMap (blockFrames (cfg.maxCto - 1) mem) ++
        cur.flatMap fun p => (List.range k).map (blockFrame (cfg.maxCto - 1) mem p.1 p.2.toNat)) ∧
    (∀ f ∈ answers x.out, IsAnswer f) ∧ x.over = false ∧
    (BlkRest x → datas x.out = x.taken.flatMap (blockFrames (cfg.maxCto - 1) mem) ∧ x.busy = false ∧
      (answers x.out).length + x.taken.length + x.todo.length = todo.length) := by
  obtain ⟨d, c, j, h⟩ := blk_inv hc sched (blk_init cfg mem mta todo) hu
  obtain ⟨i1, i2, i3, i4, i5, i6, i7, ph⟩ := h
  refine ⟨⟨d, c, j, i4, ph.cur_le, i5⟩, i6, i3, fun hr => ?_⟩
  have key : c = [] ∧ BlkSys.busy ((BlkSys.init cfg mem mta todo).run cfg sched) = false := by
    have hr2 := hr.active
    have hr1 := hr.cmd
    cases ph with
    | idle _ hm hl hb ha hcm =>
      cases hcm with
      | ans h => exact ⟨rfl, hb⟩
      | mta a h => exact ⟨rfl, hb⟩
      | rem n h => rw [hr1] at h; cases h
      | act h => rw [hr1] at h; cases h
    | set hm hl hb ha hcm => rw [hr1] at hcm; cases hcm
    | first a n pc k hp hm hl hb ha _ _ => rw [hr2] at ha; cases ha
    | firstLast hm hl hb ha _ => rw [hr2] at ha; cases ha
    | between a n k hm hl hb ha _ _ => rw [hr2] at ha; cases ha
    | block a n pc k hp hm hl hb ha _ _ => rw [hr2] at ha; cases ha
    | ending a n pc k hp hm hl hb ha _ _ => rw [hr2] at ha; cases ha
    | last _ hm hl hb ha _ => rw [hr2] at ha; cases ha
  obtain ⟨rfl, hb⟩ := key
  refine ⟨?_, hb, by rw [hr.cmd] at i7; exact i7⟩
  rw [i5, i4]
  simp [partFrames]

/-- Distance to the end of a block. -/
def UpPc.rank : UpPc → Nat
  | .test => 11
  | .head => 10
  | .pick => 9
  | .length => 8
  | .setLen _ => 7
  | .copy _ => 6
  | .move _ => 5
  | .sub _ => 4
  | .send => 3
  | .check => 2
  | .free1 => 1
  | .free2 => 0

/-- An upper bound of the accesses to come. -/
def BlkSys.toGo (x : BlkSys) : Nat :=
  if x.remaining = 0 then x.main.rank
  else x.remaining.toNat * 16 + 16 + (if x.main = .send then 15 else if x.main = .check then 14 else x.main.rank)

theorem toGo_same {x y : BlkSys} (hr : y.remaining = x.remaining) (hlt : y.main.rank < x.main.rank) (h1 : y.main ≠ .send) (h2 : y.main ≠ .check) :
    y.toGo < x.toGo := by
  unfold BlkSys.toGo
  rw [hr, if_neg h1, if_neg h2]
  split
  · exact hlt
  · split
    · rename_i h; rw [h] at hlt; have : UpPc.rank .send = 3 := rfl; omega
    · split
      · rename_i h; rw [h] at hlt; have : UpPc.rank .check = 2 := rfl; omega
      · omega

/-- The main function comes closer to the end. -/
theorem blk_closer {cfg : Cfg} (hc : 2 ≤ cfg.maxCto) {mem : Mem} {total : Nat} {x : BlkSys} {done cur : List (UInt32 × UInt8)} {k : Nat}
    (h : BlkInv cfg mem total x done cur k) (hw : x.cmd = .wait) (hr : ¬ BlkRest x) :
    (x.mainStep cfg).cmd = .wait ∧ (BlkRest (x.mainStep cfg) ∨ (x.mainStep cfg).toGo < x.toGo) := by
  have ph := h.phase
  have hcmd : (x.mainStep cfg).cmd = .wait := by
    unfold BlkSys.mainStep
    cases x.main <;> simp only [BlkSys.up] <;> first | exact hw | (split <;> exact hw)
  refine ⟨hcmd, ?_⟩
  cases ph with
  | idle _ hm hl hb ha hcm => exact absurd ⟨hm, hw, ha⟩ hr
  | set hm hl hb ha hcm => rw [hw] at hcm; cases hcm
  | first a n pc k hp hm hl hb ha hcm _ => rw [hw] at hcm; cases hcm
  | firstLast hm hl hb ha hcm => rw [hw] at hcm; cases hcm
  | between a n k hm hl hb ha hcm hup =>
    right
    have e : x.mainStep cfg = { x with main := .head } := by simp [BlkSys.mainStep, BlkSys.up, hm, ha]
    rw [e]
    exact toGo_same rfl (by rw [hm]; simp [UpPc.rank]) (by simp) (by simp)
  | block a n pc k hp hm hl hb ha hcm hup =>
    right
    cases pc with
    | test => cases hp
    | head =>
      refine toGo_same ?_ ?_ ?_ ?_ <;> simp [BlkSys.mainStep, BlkSys.up, hm, UpPc.rank]
    | pick =>
      refine toGo_same ?_ ?_ ?_ ?_ <;> simp only [BlkSys.mainStep, BlkSys.up, hm] <;> split <;> simp [UpPc.rank]
    | length =>
      refine toGo_same ?_ ?_ ?_ ?_ <;> simp [BlkSys.mainStep, BlkSys.up, hm, UpPc.rank]
    | setLen l =>
      refine toGo_same ?_ ?_ ?_ ?_ <;> simp [BlkSys.mainStep, BlkSys.up, hm, UpPc.rank]
    | copy l =>
      refine toGo_same ?_ ?_ ?_ ?_ <;> simp [BlkSys.mainStep, BlkSys.up, hm, UpPc.rank]
    | move l =>
      refine toGo_same ?_ ?_ ?_ ?_ <;> simp [BlkSys.mainStep, BlkSys.up, hm, UpPc.rank]
    | sub l =>
      have e : x.mainStep cfg = { x with main := .send, remaining := x.remaining - UInt8.ofNat l } := by simp [BlkSys.mainStep, BlkSys.up, hm]
      rw [e]
      obtain ⟨h1, h2, h3, h4, h5⟩ := hup
      have hn := UInt8.toNat_lt n
      have hl : (UInt8.ofNat l).toNat = l := by
        rw [UInt8.toNat_ofNat']; exact Nat.mod_eq_of_lt (by omega)
      have hsub : (x.remaining - UInt8.ofNat l).toNat = x.remaining.toNat - l := by
        rw [UInt8.toNat_sub_of_le _ _ (by rw [UInt8.le_iff_toNat_le, hl, h1, h5]; omega), hl]
      by_cases h0 : x.remaining = 0
      · have : x.remaining - UInt8.ofNat l = 0 := by
          rw [← UInt8.toNat_inj, hsub, h0]; simp
        simp [BlkSys.toGo, h0, hm, UpPc.rank] at this ⊢
        rw [if_pos this]
        omega
      · have hpos : x.remaining.toNat ≠ 0 := fun h => h0 (UInt8.toNat_inj.mp h)
        simp only [BlkSys.toGo, h0, hm, if_false, UpPc.rank]
        split
        · simp
        · rw [hsub]
          simp
          omega
    | send =>
      have e : (x.mainStep cfg).main = .check ∧ (x.mainStep cfg).remaining = x.remaining := by simp [BlkSys.mainStep, BlkSys.up, hm]
      simp only [BlkSys.toGo, e, hm]
      split <;> simp [UpPc.rank]
    | check => cases hp
    | free1 => cases hp
    | free2 => cases hp
  | ending a n pc k hp hm hl hb ha hcm hup =>
    right
    rcases hp with rfl | rfl
    · by_cases h0 : x.remaining = 0
      · have e : x.mainStep cfg = { x with main := .free1 } := by simp [BlkSys.mainStep, BlkSys.up, hm, h0]
        rw [e]
        simp [BlkSys.toGo, h0, hm, UpPc.rank]
      · have e : x.mainStep cfg = { x with main := .test } := by simp [BlkSys.mainStep, BlkSys.up, hm, h0]
        rw [e]
        simp [BlkSys.toGo, h0, hm, UpPc.rank]
    · have e : x.mainStep cfg = { x with main := .free2, lock := some .main, busy := false } := by simp [BlkSys.mainStep, BlkSys.up, hm, hl]
      rw [e]
      exact toGo_same rfl (by rw [hm]; simp [UpPc.rank]) (by simp) (by simp)
  | last _ hm hl hb ha hcm =>
    left
    have e : x.mainStep cfg = { x with main := .test, lock := none, active := false } := by simp [BlkSys.mainStep, BlkSys.up, hm]
    rw [e]
    exact ⟨rfl, hw, rfl⟩

theorem blk_finish {cfg : Cfg} (hc : 2 ≤ cfg.maxCto) {mem : Mem} {total : Nat} (m : Nat) {x : BlkSys} (hm : x.toGo ≤ m)
    {done cur : List (UInt32 × UInt8)} {k : Nat} (h : BlkInv cfg mem total x done cur k) (hw : x.cmd = .wait) :
    ∃ j ≤ m + 1, BlkRest (x.run cfg (List.replicate j .main)) ∧ OneAtATime cfg x (List.replicate j .main) := by
  induction m generalizing x done cur k with
  | zero =>
    by_cases hr : BlkRest x
    · exact ⟨0, by omega, hr, trivial⟩
    · rcases blk_closer hc h hw hr with ⟨h1, h2 | h2⟩
      · exact ⟨1, by omega, h2, fun _ _ _ => hw, (nomatch ·), trivial⟩
      · omega
  | succ m ih =>
    by_cases hr : BlkRest x
    · exact ⟨0, by omega, hr, trivial⟩
    · rcases blk_closer hc h hw hr with ⟨h1, h2 | h2⟩
      · exact ⟨1, by omega, h2, fun _ _ _ => hw, (nomatch ·), trivial⟩
      · obtain ⟨d, c, q, h'⟩ := blk_main hc h (fun _ _ => hw)
        obtain ⟨j, j1, j2, j3⟩ := ih (by omega) h' h1
        exact ⟨j + 1, by omega, j2, fun _ _ _ => hw, (nomatch ·), j3⟩

theorem toGo_le (x : BlkSys) : x.toGo ≤ 4111 := by
  unfold BlkSys.toGo
  have := UInt8.toNat_lt x.remaining
  have hr : x.main.rank ≤ 11 := by cases x.main <;> simp [UpPc.rank]
  split
  · omega
  · split
    · omega
    · split <;> omega

theorem one_append {cfg : Cfg} (a b : List JobThread) {x : BlkSys} (ha : OneAtATime cfg x a) (hb : OneAtATime cfg (x.run cfg a) b) :
    OneAtATime cfg x (a ++ b) := by
  induction a generalizing x with
  | nil => exact hb
  | cons t ts ih => exact ⟨ha.1, ha.2.1, ih ha.2.2 hb⟩

/-- C91: and the rest of an upload is sent by the main function alone, within 4112 accesses. -/
theorem C91_answered {cfg : Cfg} (hc : 2 ≤ cfg.maxCto) (mem : Mem) (mta : UInt32) (todo : List BlkReq) {sched : List JobThread}
    (hu : OneAtATime cfg (.init cfg mem mta todo) sched) (hw : ((BlkSys.init cfg mem mta todo).run cfg sched).cmd = .wait) :
    ∃ j ≤ 4112, let x := (BlkSys.init cfg mem mta todo).run cfg sched
      let y := x.run cfg (List.replicate j .main)
      BlkRest y ∧ y.busy = false ∧ y.taken = x.taken ∧ datas y.out = x.taken.flatMap (blockFrames (cfg.maxCto - 1) mem) := by
  obtain ⟨d, c, q, h⟩ := blk_inv hc sched (blk_init cfg mem mta todo) hu
  obtain ⟨j, j1, j2, j3⟩ := blk_finish hc 4111 (toGo_le _) h hw
  refine ⟨j, j1, j2, ?_⟩
  have hall := C91_blocks_partial hc mem mta todo (one_append _ _ hu j3)
  have e : (BlkSys.init cfg mem mta todo).run cfg (sched ++ List.replicate j .main) =
      ((BlkSys.init cfg mem mta todo).run cfg sched).run cfg (List.replicate j .main) := by simp [BlkSys.run]
  rw [e] at hall
  have ht : ∀ (j : Nat) (x : BlkSys), (x.run cfg (List.replicate j .main)).taken = x.taken := by
    intro j
    induction j with
    | zero => intro x; rfl
    | succ j ih =>
      intro x
      show ((x.mainStep cfg).run cfg (List.replicate j .main)).taken = _
      rw [ih]
      unfold BlkSys.mainStep
      cases x.main <;> simp only [BlkSys.up] <;> first | rfl | (split <;> rfl)
  obtain ⟨h1, h2, _⟩ := hall.2.2.2 j2
  rw [ht] at h1
  exact ⟨h2, ht _ _, h1⟩

/-! Schedules: `Ex.cs k` are `k` accesses of the command thread, `Ex.ms k` of the main function. -/
def Ex.cs (k : Nat) : List JobThread := List.replicate k .cmd
def Ex.ms (k : Nat) : List JobThread := List.replicate k .main
def Ex.blk (todo : List BlkReq) : BlkSys := .init Ex.can Ex.mem 100 todo

/-- An upload of 10 bytes: the first packet is sent by the command thread, the second by the main function.  Meanwhile another
packet is refused. -/
example :
    let x := (Ex.blk [.upload 10, .setMta 5]).run Ex.can (Ex.cs 14 ++ Ex.cs 3 ++ Ex.ms 13)
    x.out = [.data (0xFF :: bytesAt Ex.mem 100 7), .answer [0xFE, 0x10], .data (0xFF :: bytesAt Ex.mem 107 3)] ∧
      x.main = .test ∧ x.active = false ∧ x.busy = false ∧ x.mta = 110 := by decide +kernel

/-- C91 is false: the main function starts while the command thread is at its first block of an upload of 4 bytes.  Both
send the block, `remaining` falls to 252, and memory behind the block is sent. -/
theorem C91_fails_twice :
    let x := (Ex.blk [.upload 4]).run Ex.can (Ex.cs 10 ++ Ex.ms 7 ++ Ex.cs 3 ++ Ex.ms 2 ++ Ex.cs 1 ++ Ex.ms 9)
    x.taken = [(100, 4)] ∧ .data (0xFF :: bytesAt Ex.mem 108 7) ∈ x.out ∧ x.cmd = .wait ∧ x.remaining = 245 := by decide +kernel

/-- The main function is interrupted between its two accesses to `remaining`.  Meanwhile the upload ends and the next one
starts: the main function copies 200 bytes into a buffer of 8. -/
theorem C91_fails_overflow :
    let x := (Ex.blk [.upload 4, .upload 200]).run Ex.can (Ex.cs 8 ++ Ex.ms 3 ++ Ex.cs 11 ++ Ex.ms 3)
    Ex.can.maxCto = 8 ∧ x.over = true ∧ x.buf.length = 201 := by decide +kernel

/-- A packet arrives while the main function builds the second block of an upload: the tool gets ERR_CMD_BUSY twice
instead of the block. -/
theorem C91_fails_mixed :
    let x := (Ex.blk [.upload 10, .setMta 5]).run Ex.can (Ex.cs 14 ++ Ex.ms 6 ++ Ex.cs 3 ++ Ex.ms 7)
    x.out = [.data (0xFF :: bytesAt Ex.mem 100 7), .answer [0xFE, 0x10], .data [0xFE, 0x10]] ∧ x.active = false := by decide +kernel

/-- Both threads end the upload of 10 bytes, the main function after the next upload has begun: that one is sent only in part,
and the slave does not go on with it. -/
theorem C91_fails_lost :
    let x := (Ex.blk [.upload 10, .upload 9]).run Ex.can (Ex.cs 12 ++ Ex.ms 10 ++ Ex.cs 3 ++ Ex.cs 13 ++ Ex.ms 3)
    datas x.out = [0xFF :: bytesAt Ex.mem 100 7, 0xFF :: bytesAt Ex.mem 107 3, 0xFF :: bytesAt Ex.mem 110 7] ∧
      x.taken = [(100, 10), (110, 9)] ∧ x.active = false ∧ x.busy = false ∧ x.main = .test ∧ x.remaining = 2 := by decide +kernel

/-! The accesses are those of the sequential model. -/

theorem blk_run_append (cfg : Cfg) (x : BlkSys) (a b : List JobThread) : x.run cfg (a ++ b) = (x.run cfg a).run cfg b := by
  simp [BlkSys.run]

/-- The state of the sequential model that belongs to a state of the threads. -/
structure Spec.BlkLike (x : BlkSys) (s : St) : Prop where
  mem : x.mem = s.mem
  busy : x.busy = s.busy
  active : x.active = s.slaveBlk.active
  remaining : x.remaining.toNat = s.slaveBlk.remaining
  mta : x.mta = s.mta.addr

/-- The main function without interruption: `uploadSingleBlock` (C11). -/
theorem C91_main {cfg : Cfg} (hcto : 8 ≤ cfg.maxCto) (hmap : cfg.mapper = false) (env : Env) {s : St} {x : BlkSys} (hx : BlkLike x s)
    (hm : x.main = .test) (hl : x.lock = none) (hbuf : x.buf.length = cfg.maxCto) (ho : s.ctoOut.length = cfg.maxCto)
    (ha : s.slaveBlk.active = true) (hr : 0 < s.slaveBlk.remaining) :
    ∃ s' f d, ∃ j ≤ 12, uploadSingleBlock cfg env s = .ok s' ∧ s'.tx = s.tx ++ [f] ∧ Carries cfg f d ∧
      let y := x.run cfg (List.replicate j .main)
      BlkLike y s' ∧ y.main = .test ∧ y.cmd = x.cmd ∧ y.lock = none ∧ y.out = x.out ++ [.data d] := by
  obtain ⟨h1, h2, h3, h4, h5⟩ := hx
  have e := uploadSingleBlock_eq (env := env) hcto ha hr rfl
  generalize hk : min s.slaveBlk.remaining (cfg.maxCto - 1) = k at e
  have hkl : (0xFF :: bytesAt s.mem s.mta.addr k).length ≤ cfg.maxCto := by
    simp [bytesAt_length]; omega
  have htx : ∃ f, (blkNext cfg env s s.slaveBlk.remaining k).tx = s.tx ++ [f] ∧ Carries cfg f (0xFF :: bytesAt s.mem s.mta.addr k) := by
    unfold blkNext
    have := sendRaw_answers (cfg := cfg) (s := { s with
        mta := s.mta.advance k
        busy := if s.slaveBlk.remaining - k = 0 then false else s.busy
        slaveBlk := ⟨if s.slaveBlk.remaining - k = 0 then false else true, s.slaveBlk.remaining - k⟩ })
      (s0 := s) hkl ho rfl
    simpa [Answers, mapped, hmap] using this
  obtain ⟨f, htx, hf⟩ := htx
  have hx8 := UInt8.toNat_lt x.remaining
  have hk8 : (UInt8.ofNat k).toNat = k := by
    rw [UInt8.toNat_ofNat']; exact Nat.mod_eq_of_lt (by omega)
  have hsub : (x.remaining - UInt8.ofNat k).toNat = s.slaveBlk.remaining - k := by
    rw [UInt8.toNat_sub_of_le _ _ (by rw [UInt8.le_iff_toNat_le, hk8, h4]; omega), hk8, h4]
  have hz : x.remaining - UInt8.ofNat k = 0 ↔ s.slaveBlk.remaining - k = 0 := by
    rw [← UInt8.toNat_inj, hsub]; rfl
  have hxa : x.active = true := h3.trans ha
  -- the packet built
  let w : BlkSys := { x with
    buf := (x.buf.set 0 0xFF).take 1 ++ x.mem.read x.mta k ++ (x.buf.set 0 0xFF).drop (k + 1), len := k + 1
    over := x.over || decide (cfg.maxCto < k + 1), mta := x.mta + UInt32.ofNat k, remaining := x.remaining - UInt8.ofNat k, main := .send }
  have build : ∃ j ≤ 8, x.run cfg (List.replicate j .main) = w := by
    by_cases hle : x.remaining.toNat ≤ cfg.maxCto - 1
    · refine ⟨8, by omega, ?_⟩
      have : k = x.remaining.toNat := by omega
      simp only [w, this]
      simp [BlkSys.run, BlkSys.step, List.replicate, BlkSys.mainStep, BlkSys.up, hm, hxa, hle]
    · refine ⟨7, by omega, ?_⟩
      have : k = cfg.maxCto - 1 := by omega
      simp only [w, this]
      simp [BlkSys.run, BlkSys.step, List.replicate, BlkSys.mainStep, BlkSys.up, hm, hxa, hle]
  obtain ⟨j, hj, hrun⟩ := build
  have hframe : w.buf.take w.len = 0xFF :: bytesAt s.mem s.mta.addr k := by
    have hlen : (x.mem.read x.mta k).length = k := bytesAt_length ..
    have h0 : (x.buf.set 0 0xFF).take 1 = [0xFF] := by
      cases hb : x.buf with
      | nil => rw [hb] at hbuf; simp at hbuf; omega
      | cons b bs => rfl
    show ((x.buf.set 0 0xFF).take 1 ++ x.mem.read x.mta k ++ (x.buf.set 0 0xFF).drop (k + 1)).take (k + 1) = _
    rw [h0, List.take_append_of_le_length (by simp [hlen]), List.take_of_length_le (by simp [hlen]), h1, h5]
    rfl
  refine ⟨blkNext cfg env s s.slaveBlk.remaining k, f, 0xFF :: bytesAt s.mem s.mta.addr k, ?_⟩
  have fin : ∃ i ≤ 4, let y := w.run cfg (List.replicate i .main)
      BlkLike y (blkNext cfg env s s.slaveBlk.remaining k) ∧ y.main = .test ∧ y.cmd = x.cmd ∧ y.lock = none ∧
        y.out = x.out ++ [.data (0xFF :: bytesAt s.mem s.mta.addr k)] := by
    by_cases h0 : s.slaveBlk.remaining - k = 0
    · refine ⟨4, by omega, ?_⟩
      have e4 : w.run cfg (List.replicate 4 .main) = { w with out := w.out ++ [.data (w.buf.take w.len)], busy := false, active := false, main := .test } := by
        have hw : w.main = .send := rfl
        have hwl : w.lock = none := hl
        have hwr : w.remaining = 0 := hz.mpr h0
        simp [BlkSys.run, BlkSys.step, List.replicate, BlkSys.mainStep, BlkSys.up, hw, hwl, hwr]
      rw [e4, hframe]
      refine ⟨⟨h1, ?_, ?_, ?_, ?_⟩, rfl, rfl, hl, rfl⟩
      · show false = (blkNext cfg env s s.slaveBlk.remaining k).busy
        simp [blkNext, sendRaw_busy, h0]
      · show false = (blkNext cfg env s s.slaveBlk.remaining k).slaveBlk.active
        simp [blkNext, sendRaw_slaveBlk, h0]
      · show (x.remaining - UInt8.ofNat k).toNat = (blkNext cfg env s s.slaveBlk.remaining k).slaveBlk.remaining
        rw [hsub]
        simp [blkNext, sendRaw_slaveBlk]
      · show x.mta + UInt32.ofNat k = _
        rw [h5]
        rfl
    · refine ⟨2, by omega, ?_⟩
      have e2 : w.run cfg (List.replicate 2 .main) = { w with out := w.out ++ [.data (w.buf.take w.len)], main := .test } := by
        have hw : w.main = .send := rfl
        have hwr : w.remaining ≠ 0 := fun h => h0 (hz.mp h)
        simp [BlkSys.run, BlkSys.step, List.replicate, BlkSys.mainStep, BlkSys.up, hw, hwr]
      rw [e2, hframe]
      refine ⟨⟨h1, ?_, ?_, ?_, ?_⟩, rfl, rfl, hl, rfl⟩
      · show x.busy = (blkNext cfg env s s.slaveBlk.remaining k).busy
        rw [h2]
        simp [blkNext, sendRaw_busy, h0]
      · show x.active = (blkNext cfg env s s.slaveBlk.remaining k).slaveBlk.active
        rw [hxa]
        simp [blkNext, sendRaw_slaveBlk, h0]
      · show (x.remaining - UInt8.ofNat k).toNat = (blkNext cfg env s s.slaveBlk.remaining k).slaveBlk.remaining
        rw [hsub]
        simp [blkNext, sendRaw_slaveBlk]
      · show x.mta + UInt32.ofNat k = _
        rw [h5]
        rfl
  obtain ⟨i, hi, hfin⟩ := fin
  refine ⟨j + i, by omega, e, htx, hf, ?_⟩
  have erun : x.run cfg (List.replicate (j + i) .main) = w.run cfg (List.replicate i .main) := by
    rw [← List.replicate_append_replicate, blk_run_append, hrun]
  rw [erun]
  exact hfin

/-- The command thread without interruption, up to its call of `Xcp_UploadSingleBlock`: what `upload` does before. -/
theorem C91_start {cfg : Cfg} (hsb : cfg.slaveBlock = true) (env : Env) {s : St} {x : BlkSys} (hx : BlkLike x s) {n : UInt8}
    (hc : x.cmd = .rem n) (hl : x.lock = none) :
    ∃ s1, upload cfg env s n.toNat = uploadSingleBlock cfg env s1 ∧
      let y := x.run cfg (List.replicate 3 .cmd)
      BlkLike y s1 ∧ y.cmd = .up .test ∧ y.main = x.main ∧ y.lock = none ∧ y.out = x.out ∧ s1.slaveBlk.active = true ∧ s1.busy = true ∧
        s1.slaveBlk.remaining = n.toNat := by
  refine ⟨setSlaveActive { s with slaveBlk := { s.slaveBlk with remaining := n.toNat } } true, by simp [upload, hsb], ?_⟩
  obtain ⟨h1, h2, h3, h4, h5⟩ := hx
  have e : x.run cfg (List.replicate 3 .cmd) = { x with remaining := n, lock := none, busy := true, active := true, cmd := .up .test } := by
    simp [BlkSys.run, BlkSys.step, List.replicate, BlkSys.cmdStep, hc, hl]
  rw [e]
  exact ⟨⟨h1, rfl, rfl, rfl, h5⟩, rfl, rfl, rfl, rfl, rfl, rfl, rfl⟩

/-- Who is between `XCP_ENTER_CRITICAL` and `XCP_LEAVE_CRITICAL` is the holder of the lock. -/
structure BlkLock (x : BlkSys) : Prop where
  main : x.main = .free2 ↔ x.lock = some .main
  cmd : (x.cmd = .act2 ∨ x.cmd = .up .free2) ↔ x.lock = some .cmd

theorem blk_lock_main {cfg : Cfg} {x : BlkSys} (h : BlkLock x) : BlkLock (x.mainStep cfg) := by
  obtain ⟨h1, h2⟩ := h
  unfold BlkSys.mainStep
  cases hm : x.main <;> simp only [BlkSys.up] <;> rw [hm] at h1
  case test => constructor <;> simp only <;> first | exact h2 | (split <;> simpa using h1)
  case check => constructor <;> simp only <;> first | exact h2 | (split <;> simpa using h1)
  case pick => constructor <;> simp only <;> first | exact h2 | (split <;> simpa using h1)
  case free1 =>
    split
    · rename_i hl
      constructor
      · simp
      · rw [hl] at h2
        simpa using h2
    · constructor
      · simpa using h1
      · exact h2
  case free2 =>
    have : x.lock = some .main := h1.mp rfl
    rw [this] at h2
    constructor
    · simp
    · simpa using h2
  all_goals exact ⟨by simpa using h1, h2⟩

theorem blk_lock_cmd {cfg : Cfg} {x : BlkSys} (h : BlkLock x) : BlkLock (x.cmdStep cfg) := by
  obtain ⟨h1, h2⟩ := h
  unfold BlkSys.cmdStep
  cases hc : x.cmd <;> rw [hc] at h2
  case wait =>
    simp only
    cases x.todo with
    | nil => exact ⟨h1, by rw [hc]; exact h2⟩
    | cons r rest =>
      simp only
      split
      · exact ⟨h1, by simpa using h2⟩
      · cases r <;> exact ⟨h1, by simpa using h2⟩
  case act1 =>
    simp only
    split
    · rename_i hl
      rw [hl] at h1
      exact ⟨by simpa using h1, by simp⟩
    · exact ⟨h1, by rw [hc]; exact h2⟩
  case act2 =>
    have : x.lock = some .cmd := h2.mp (.inl rfl)
    rw [this] at h1
    exact ⟨by simpa using h1, by simp⟩
  case up pc =>
    cases pc <;> simp only [BlkSys.up]
    case test => constructor <;> simp only <;> first | exact h1 | (split <;> simpa using h2)
    case check => constructor <;> simp only <;> first | exact h1 | (split <;> simpa using h2)
    case pick => constructor <;> simp only <;> first | exact h1 | (split <;> simpa using h2)
    case free1 =>
      split
      · rename_i hl
        rw [hl] at h1
        exact ⟨by simpa using h1, by simp⟩
      · exact ⟨h1, by simpa using h2⟩
    case free2 =>
      have : x.lock = some .cmd := h2.mp (.inr rfl)
      rw [this] at h1
      exact ⟨by simpa using h1, by simp⟩
    all_goals exact ⟨h1, by simpa using h2⟩
  all_goals exact ⟨h1, by simpa using h2⟩

/-- C91, for all schedules: busy flag and activity are changed together.  Never are both threads in `Xcp_SlaveBlockTransferSetActive`
between `XCP_ENTER_CRITICAL` and `XCP_LEAVE_CRITICAL`, and who is there holds the lock. -/
theorem C91_lock (cfg : Cfg) (mem : Mem) (mta : UInt32) (todo : List BlkReq) (sched : List JobThread) :
    let x := (BlkSys.init cfg mem mta todo).run cfg sched
    (x.main = .free2 → x.lock = some .main) ∧ (x.cmd = .act2 ∨ x.cmd = .up .free2 → x.lock = some .cmd) ∧
      ¬ (x.main = .free2 ∧ (x.cmd = .act2 ∨ x.cmd = .up .free2)) := by
  have key : ∀ (sched : List JobThread) (x : BlkSys), BlkLock x → BlkLock (x.run cfg sched) := by
    intro sched
    induction sched with
    | nil => exact fun _ h => h
    | cons t ts ih =>
      intro x h
      cases t with
      | main => exact ih _ (blk_lock_main h)
      | cmd => exact ih _ (blk_lock_cmd h)
  obtain ⟨h1, h2⟩ := key sched (.init cfg mem mta todo) ⟨by simp [BlkSys.init], by simp [BlkSys.init]⟩
  refine ⟨h1.mp, h2.mp, ?_⟩
  rintro ⟨h3, h4⟩
  have := (h1.mp h3).symm.trans (h2.mp h4)
  simp at this

/-- The main function is about to end the transfer of 10 bytes and holds the lock; the other thread gets
the lock for the next upload only when it is free. -/
example :
    let x := (Ex.blk [.upload 10, .upload 9]).run Ex.can (Ex.cs 13 ++ Ex.ms 11 ++ Ex.cs 6)
    x.main = .free2 ∧ x.lock = some .main ∧ x.cmd = .act1 ∧
      (x.run Ex.can (Ex.ms 1 ++ Ex.cs 1)).lock = some .cmd := by decide +kernel

end Xcp
