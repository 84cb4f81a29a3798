import Verif.Props.C16_WriteHook
import Verif.Proofs.Busy
import Verif.Proofs.Fine
import Verif.Proofs.History
import Verif.Spec.Daq
import Verif.Props.C46_ModifyBits
import Verif.Proofs.Table
/-
C15: memory the access hook refuses to read is never disclosed.

Two runs of the same history from memories that differ only in bytes the hook never permits to read
send the same packets, up to three exceptions: SHORT_UPLOAD asks the hook about the wrong address
(`C15_fails_short_upload`), data acquisition does not ask at all (`C15_fails_daq`), and a checksum
calculated in the background can run past the block (`C15_checksum_reads_past`).
-/
set_option autoImplicit false
namespace Xcp
open Spec

/-- An access hook. -/
abbrev Spec.Hook := Mta → Nat → Access → Bool → Bool

/-- The hook permits to read a range that contains `x`. -/
def Spec.Readable (H : Hook) (x : UInt32) : Prop :=
  ∃ (m : Mta) (n : Nat), H m n .read false = true ∧ InRange m.addr n x

/-- The `n` bytes from `a` on may be read. -/
def Spec.AllReadable (H : Hook) (a : UInt32) (n : Nat) : Prop := ∀ x, InRange a n x → Readable H x

/-- Every ODT entry sampled for the list designates memory that may be read. -/
def Spec.EntriesReadable (H : Hook) (d : Daq) (list : Nat) : Prop :=
  ∀ o e, o < (d.entities list).num → e < (d.entities (odtIndex d list o)).num →
    AllReadable H (d.entities (entryIndex d list o e)).addr (d.entities (entryIndex d list o e)).len

/-- The byte at offset `off` of the packet. -/
def Spec.HasByte (p : Pdu) (off : Nat) (b : UInt8) : Prop := p.buf[off]? = some b

/-- An operation that reads memory only after asking the hook `H` about it: not a SHORT_UPLOAD of
memory the hook refuses, and not a BUILD_CHECKSUM over more than one but less than two chunks. -/
structure Spec.Asks (cfg : Cfg) (H : Hook) (x : Env × Op) : Prop where
  hook : x.1.memCheck = H
  shortUpload : ∀ p, x.2 = .cmd p → code p = some 0xF4 → ∀ n e v, HasByte p 1 n → HasByte p 3 e →
    Param cfg.motorola p 4 4 v → H ⟨e, UInt32.ofNat v⟩ n.toNat .read false = true
  checksum : ∀ p, x.2 = .cmd p → code p = some 0xF3 → cfg.chunked = true → ∀ v, Param cfg.motorola p 4 4 v →
    v ≤ cfg.chunkSize ∨ 2 * cfg.chunkSize ≤ v

/-- Data acquisition of memory that must not be read. -/
def Spec.SamplesSecret (H : Hook) (s : St) (x : Env × Op) : Prop :=
  ∃ ev, x.2 = .trigger ev ∧ s.daq.running = true ∧ ¬ EntriesReadable H s.daq (s.daq.listForEvent ev.toNat)

/-- The memories agree where the hook permits to read. -/
def Spec.AgreeReadable (H : Hook) (m m' : Mem) : Prop := ∀ x, Readable H x → m x = m' x

/-- What is sent by a history, or the fault it ends in. -/
def Spec.sent (r : R) : Except Fault (List Frame) := r.map St.tx

/-! ### The ranges still to be read have been asked about -/

theorem Spec.AllReadable.of_hook {H : Hook} {m : Mta} {n : Nat} (h : H m n .read false = true) : AllReadable H m.addr n :=
  fun _ hx => ⟨m, n, h, hx⟩

theorem Spec.AllReadable.mono {H : Hook} {a : UInt32} {n k : Nat} (h : AllReadable H a n) (hk : k ≤ n) : AllReadable H a k :=
  fun x hx => h x (InRange.mono hx hk)

theorem Spec.AllReadable.shift {H : Hook} {a : UInt32} {n : Nat} (k : Nat) (h : AllReadable H a (k + n)) :
    AllReadable H (a + UInt32.ofNat k) n := by
  rintro x ⟨i, h1, h2⟩
  refine h x ⟨k + i, by omega, ?_⟩
  rw [h2, UInt32.add_assoc, UInt32.ofNat_add]

theorem Spec.AllReadable.skip {H : Hook} {a : UInt32} {n k : Nat} (h : AllReadable H a n) (hk : k ≤ n) :
    AllReadable H (a + UInt32.ofNat k) (n - k) := (h.mono (by omega)).shift k

/-- Invariant of the fields concerned. -/
structure ReadF (cfg : Cfg) (H : Hook) (mta : Mta) (blk : BlockMode) (ck : CkJob) : Prop where
  blk : blk.active = true → AllReadable H mta.addr blk.remaining
  job : ck.state ≠ .idle → AllReadable H ck.addr ck.size ∧ ck.size < 2 ^ 32
  initial : ck.state = .initial → 2 * cfg.chunkSize ≤ ck.size
  remaining : ck.state = .remaining → cfg.chunkSize ≤ ck.size

abbrev ReadI (cfg : Cfg) (H : Hook) (s : St) : Prop := ReadF cfg H s.mta s.slaveBlk s.ck

theorem ReadF.quiet {cfg : Cfg} {H : Hook} {mta : Mta} {blk : BlockMode} {ck : CkJob} (h1 : blk.active = false)
    (h2 : ck.state = .idle) : ReadF cfg H mta blk ck := by
  constructor <;> simp_all

theorem ReadF.block {cfg : Cfg} {H : Hook} {mta : Mta} {blk : BlockMode} {ck : CkJob} (h1 : AllReadable H mta.addr blk.remaining)
    (h2 : ck.state = .idle) : ReadF cfg H mta blk ck := by
  constructor <;> simp_all

theorem handler_read {cfg : Cfg} (hmc : cfg.memCheck = true) {H : Hook} {env : Env} {s : St} {p : Pdu}
    (ha : Asks cfg H (env, .cmd p)) {c : Cmd} (hcode : code p = some (cmdCode c))
    (h1 : s.slaveBlk.active = false) (h2 : s.ck.state = .idle) : Post (handler cfg env s p c) (ReadI cfg H) := by
  cases c
  case upload =>
    unfold_handlers
    post
    all_goals try (exact ReadF.quiet h1 h2)
    rename_i hm _ _ k hk _ _
    have hm := hm hmc
    rw [show env.memCheck = H from ha.hook] at hm
    exact ReadF.block ((Spec.AllReadable.of_hook hm).skip (by rw [hk]; split <;> omega)) h2
  case shortUpload =>
    unfold_handlers
    post
    all_goals try (exact ReadF.quiet h1 h2)
    rename_i n hn _ _ _ e he a hd _ k hk _ _
    obtain ⟨v, hv, rfl⟩ := param_of_dword hd
    have hm := ha.shortUpload p rfl hcode n e v (byte_ok hn) (byte_ok he) hv
    exact ReadF.block ((Spec.AllReadable.of_hook hm).skip (by rw [hk]; split <;> omega)) h2
  case buildChecksum =>
    unfold_handlers
    post
    all_goals try (exact ReadF.quiet h1 h2)
    rename_i a hd _ hm _ hch _
    obtain ⟨v, hv, rfl⟩ := param_of_dword hd
    have hm := hm hmc
    rw [show env.memCheck = H from ha.hook] at hm
    have hlt : v < 256 ^ 4 := hv.1
    have htn : (UInt32.ofNat v).toNat = v := by simp; omega
    have hsz := ha.checksum p rfl hcode hch.1 v hv
    have hch2 := hch.2
    rw [htn] at hm hch2 ⊢
    refine ⟨fun hx => ?_, fun _ => ⟨Spec.AllReadable.of_hook hm, by omega⟩, fun _ => ?_, fun hx => (by cases hx)⟩
    · rw [show _ = false from h1] at hx; cases hx
    · show 2 * cfg.chunkSize ≤ v
      omega
  all_goals unfold_handlers
  all_goals post
  all_goals refine ReadF.quiet ?_ ?_
  all_goals simpa using by assumption

theorem main_upload_read {cfg : Cfg} {H : Hook} {env : Env} {s : St} (hI : ReadI cfg H s) :
    Post (uploadSingleBlock cfg env s) (ReadI cfg H) := by
  unfold uploadSingleBlock
  post
  · exact hI
  all_goals
    rename_i hn hle _ _
    have ha : s.slaveBlk.active = true := by simpa using hn
    have hr := hI.blk ha
    refine ⟨fun _ => ?_, hI.job, hI.initial, hI.remaining⟩
    exact hr.skip (by omega)

theorem checksum_read {cfg : Cfg} {H : Hook} {s : St} (hI : ReadI cfg H s) : ReadI cfg H (checksumMain cfg s) := by
  unfold checksumMain
  have e : ∀ n c, c ≤ n → n < 2 ^ 32 → sub32 n c = n - c := by
    intro n c h1 h2
    unfold sub32
    omega
  cases hs : s.ck.state with
  | idle => exact hI
  | initial =>
    have h1 := hI.job (by rw [hs]; decide)
    have h2 := hI.initial hs
    refine ⟨hI.blk, fun _ => ?_, fun hx => (by cases hx), fun _ => ?_⟩
    · show AllReadable H (s.ck.addr + _) (sub32 _ _) ∧ sub32 _ _ < _
      rw [e _ _ (by omega) h1.2]
      exact ⟨(h1.1.mono (by omega)).shift _, by omega⟩
    · show _ ≤ sub32 _ _
      rw [e _ _ (by omega) h1.2]
      omega
  | remaining =>
    have h1 := hI.job (by rw [hs]; decide)
    have h2 := hI.remaining hs
    simp only [e _ _ h2 h1.2]
    refine ⟨hI.blk, fun _ => ?_, fun hx => ?_, fun hx => ?_⟩
    · show AllReadable H (s.ck.addr + _) (sub32 _ _) ∧ sub32 _ _ < _
      rw [e _ _ (by omega) h1.2]
      exact ⟨(h1.1.mono (by omega)).shift _, by omega⟩
    · change (if _ then _ else _) = CkState.initial at hx
      split at hx <;> cases hx
    · change (if _ then _ else _) = CkState.remaining at hx
      show _ ≤ sub32 _ _
      rw [e _ _ (by omega) h1.2]
      split at hx
      · cases hx
      · omega
  | final => exact ⟨hI.blk, fun hx => absurd rfl hx, fun hx => (by cases hx), fun hx => (by cases hx)⟩

/-! ### Two runs -/

/-- States that differ only in memory that must not be read. -/
def Low (H : Hook) (s t : St) : Prop := ∃ m, t = { s with mem := m } ∧ AgreeReadable H s.mem m

/-- Same fault, or results that differ only in memory that must not be read. -/
def Two (H : Hook) (r r' : R) : Prop :=
  (∃ e, r = .error e ∧ r' = .error e) ∨ ∃ s t, r = .ok s ∧ r' = .ok t ∧ Low H s t

theorem Two.ok {H : Hook} {s : St} {m : Mem} (h : AgreeReadable H s.mem m) : Two H (.ok s) (.ok { s with mem := m }) :=
  .inr ⟨_, _, rfl, rfl, _, rfl, h⟩

theorem Two.bindSame {H : Hook} {α : Type} (x : Except Fault α) {f g : α → R} (h : ∀ a, x = .ok a → Two H (f a) (g a)) :
    Two H (x >>= f) (x >>= g) := by
  cases x with
  | error e => exact .inl ⟨e, rfl, rfl⟩
  | ok a => exact h a rfl

theorem Two.ite {H : Hook} {c : Prop} [Decidable c] {a b a' b' : R} (h1 : c → Two H a a') (h2 : ¬ c → Two H b b') :
    Two H (if c then a else b) (if c then a' else b') := by
  split
  · exact h1 ‹_›
  · exact h2 ‹_›

theorem Two.bind {H : Hook} {r r' : R} {f g : St → R} (h : Two H r r') (hf : ∀ s t, Low H s t → Two H (f s) (g t)) :
    Two H (r >>= f) (r' >>= g) := by
  rcases h with ⟨e, rfl, rfl⟩ | ⟨s, t, rfl, rfl, h⟩
  · exact .inl ⟨e, rfl, rfl⟩
  · exact hf s t h

/-- The same result with other memory contents. -/
def putMem (m : Mem) (r : R) : R := r.map fun s => { s with mem := m }

theorem putMem_bind {α : Type} (m : Mem) (x : Except Fault α) (f : α → R) :
    putMem m (x >>= f) = x >>= fun a => putMem m (f a) := by cases x <;> rfl
theorem putMem_ite (m : Mem) (c : Prop) [Decidable c] (a b : R) :
    putMem m (if c then a else b) = if c then putMem m a else putMem m b := by split <;> rfl
theorem putMem_ok (m : Mem) (s : St) : putMem m (.ok s) = .ok { s with mem := m } := rfl
theorem putMem_error (m : Mem) (e : Fault) : putMem m (.error e) = .error e := rfl

theorem Two.putMem {H : Hook} {r : R} {m m0 : Mem} (hm : AgreeReadable H m0 m) (h : Post r fun s => s.mem = m0) :
    Two H r (putMem m r) := by
  cases r with
  | error e => exact .inl ⟨e, rfl, rfl⟩
  | ok s => exact Two.ok (by rw [h s rfl]; exact hm)

/-- The commands that read or write memory. -/
def touchesMem : Cmd → Bool
  | .upload | .shortUpload | .buildChecksum | .download | .downloadNext | .downloadMax | .shortDownload | .modifyBits => true
  | _ => false

theorem apiDisconnect_putMem (cfg : Cfg) (s : St) (m : Mem) :
    apiDisconnect cfg { s with mem := m } = { apiDisconnect cfg s with mem := m } := by
  unfold apiDisconnect defaultResourceProtection
  repeat' split
  all_goals rfl

theorem getDaqIdRes_putMem (cfg : Cfg) (s : St) (p : Pdu) (m : Mem) :
    getDaqIdRes cfg { s with mem := m } p = putMem m (getDaqIdRes cfg s p) := by
  unfold getDaqIdRes
  rw [putMem_bind]
  refine congrArg _ (funext fun id => ?_)
  cases cfg.canDaqIds[id.toNat]? <;> rfl

theorem getSlaveIdRes_putMem (cfg : Cfg) (s : St) (p : Pdu) (m : Mem) :
    getSlaveIdRes cfg { s with mem := m } p = putMem m (getSlaveIdRes cfg s p) := by
  unfold getSlaveIdRes
  simp only [putMem_bind]
  rfl

theorem handler_putMem {cfg : Cfg} (env : Env) (s : St) (p : Pdu) (m : Mem) (c : Cmd) (hc : touchesMem c = false) :
    handler cfg env { s with mem := m } p c = putMem m (handler cfg env s p c) := by
  cases c <;> first | (simp [touchesMem] at hc; done) | skip
  case getId =>
    show getIdRes _ _ _ _ = putMem m (getIdRes _ _ _ _)
    unfold getIdRes
    rw [putMem_bind]
    refine congrArg _ (funext fun ty => ?_)
    cases getIdLookup cfg env ty with
    | none => rfl
    | some a => rfl
  case transportLayerCmd =>
    show transportLayerCmdRes _ _ _ = putMem m (transportLayerCmdRes _ _ _)
    unfold transportLayerCmdRes assertPgmIdle
    simp only [putMem_bind, putMem_ite, putMem_ok, pure_eq_ok, sendResult_eq, getDaqIdRes_putMem, getSlaveIdRes_putMem]
    rfl
  case getDaqEventInfo =>
    show getDaqEventInfoRes _ _ _ = putMem m (getDaqEventInfoRes _ _ _)
    unfold getDaqEventInfoRes assertUnlocked
    simp only [putMem_bind, putMem_ite, putMem_ok, sendResult_eq]
    refine congrArg _ (funext fun ev => ?_)
    refine congr (congrArg (ite _) rfl) (congr (congrArg (ite _) rfl) ?_)
    generalize (cfg.events ev) = e
    cases e.name with
    | none => rfl
    | some a => simp only [putMem_ite, putMem_ok]; rfl
  case disconnect =>
    show disconnectRes _ _ = putMem m (disconnectRes _ _)
    unfold disconnectRes assertPgmIdle
    simp only [putMem_ite, putMem_ok, sendResult_eq]
    exact congr (congrArg (ite _) rfl) (congrArg _ (apiDisconnect_putMem cfg (positive cfg s) m))
  case unlock =>
    show unlockRes _ _ _ _ = putMem m (unlockRes _ _ _ _)
    unfold unlockRes assertPgmIdle
    simp only [putMem_bind, putMem_ite, putMem_ok, sendResult_eq]
    refine congrArg _ (funext fun n => ?_)
    refine congr (congrArg (ite _) rfl) (congr (congrArg (ite _) rfl) (congr (congrArg (ite _) rfl) ?_))
    exact congrArg (fun t : St => (Except.ok { t with seedReq := 0 } : R)) (apiDisconnect_putMem cfg (errorResp cfg s ERR_ACCESS_LOCKED) m)
  all_goals
    unfold_handlers
    simp only [assertPgmIdle, assertPgmActive, assertDaqStopped, assertUnlocked, checkMem, copyGuard, sendBytes,
      putMem_bind, putMem_ite, putMem_ok, putMem_error, pure_eq_ok, sendResult_eq]
    rfl

/-! ### Reading and writing agreeing memories -/

theorem read_agree {H : Hook} {m m' : Mem} (h : AgreeReadable H m m') {a : UInt32} {n : Nat} (ha : AllReadable H a n) :
    m'.read a n = m.read a n := by
  unfold Mem.read
  apply List.map_congr_left
  intro i hi
  exact (h _ (ha _ ⟨i, List.mem_range.mp hi, rfl⟩)).symm

theorem write_agree {H : Hook} {m m' : Mem} (h : AgreeReadable H m m') (a : UInt32) (data : List UInt8) :
    AgreeReadable H (m.write a data) (m'.write a data) := by
  intro x hx
  show data.getD _ _ = data.getD _ _
  rw [h x hx]

theorem and_byte (x y k : Nat) : UInt8.ofNat ((x &&& y) / 256 ^ k) = UInt8.ofNat (x / 256 ^ k) &&& UInt8.ofNat (y / 256 ^ k) := by
  rw [show (256 : Nat) ^ k = 2 ^ (8 * k) by rw [Nat.pow_mul], ← Nat.shiftRight_eq_div_pow, ← Nat.shiftRight_eq_div_pow,
    ← Nat.shiftRight_eq_div_pow, Nat.shiftRight_and_distrib, UInt8.ofNat_and]

theorem load32_toNat (m : Mem) (a : UInt32) : (m.load32 a).toNat =
    (m a).toNat + (m (a + 1)).toNat * 256 + (m (a + 2)).toNat * 65536 + (m (a + 3)).toNat * 16777216 := by
  have h0 := (m a).toNat_lt
  have h1 := (m (a + 1)).toNat_lt
  have h2 := (m (a + 2)).toNat_lt
  have h3 := (m (a + 3)).toNat_lt
  unfold Mem.load32
  simp
  omega

theorem load32_byte (m : Mem) (a : UInt32) {k : Nat} (hk : k < 4) :
    UInt8.ofNat ((m.load32 a).toNat / 256 ^ k) = m (a + UInt32.ofNat k) := by
  rw [load32_toNat]
  have h0 := (m a).toNat_lt
  have h1 := (m (a + 1)).toNat_lt
  have h2 := (m (a + 2)).toNat_lt
  have h3 := (m (a + 3)).toNat_lt
  apply UInt8.toNat_inj.mp
  rw [UInt8.toNat_ofNat']
  rcases (by omega : k = 0 ∨ k = 1 ∨ k = 2 ∨ k = 3) with rfl | rfl | rfl | rfl
  · rw [show a + UInt32.ofNat 0 = a by simp]; simp; omega
  · rw [show UInt32.ofNat 1 = 1 from rfl]; simp; omega
  · rw [show UInt32.ofNat 2 = 2 from rfl]; simp; omega
  · rw [show UInt32.ofNat 3 = 3 from rfl]; simp; omega

theorem modify_agree {H : Hook} {m m' : Mem} (h : AgreeReadable H m m') (a v : UInt32) :
    AgreeReadable H (m.store32 a (m.load32 a &&& v)) (m'.store32 a (m'.load32 a &&& v)) := by
  intro x hx
  have key : ∀ m0 : Mem, m0.store32 a (m0.load32 a &&& v) x =
      if (x - a).toNat < 4 then m0 x &&& UInt8.ofNat (v.toNat / 256 ^ (x - a).toNat) else m0 x := by
    intro m0
    show (leBytes 4 _).getD (x - a).toNat (m0 x) = _
    split
    · rename_i hk
      have hl : (x - a).toNat < (leBytes 4 (m0.load32 a &&& v).toNat).length := by simpa [leBytes] using hk
      rw [List.getD_eq_getElem?_getD, List.getElem?_eq_getElem hl]
      simp only [leBytes, List.getElem_map, List.getElem_range, Option.getD_some]
      rw [UInt32.toNat_and, and_byte, load32_byte _ _ hk]
      congr 2
      rw [UInt32.ofNat_toNat, UInt32.add_comm, UInt32.sub_add_cancel]
    · rename_i hk
      rw [List.getD_eq_getElem?_getD, List.getElem?_eq_none (by simp [leBytes]; omega)]
      rfl
  rw [key, key, h x hx]

/-! ### Commands -/

theorem mapped_off {cfg : Cfg} (hmap : cfg.mapper = false) (env : Env) (m : Mta) : mapped cfg env m = m.addr := by
  unfold mapped
  rw [hmap]
  rfl

theorem uploadFrame_putMem {cfg : Cfg} (hmap : cfg.mapper = false) {H : Hook} (env : Env) {s : St} {m : Mem}
    (hm : AgreeReadable H s.mem m) {n : Nat} (hr : AllReadable H s.mta.addr n) :
    uploadFrame cfg env { s with mem := m } n = putMem m (uploadFrame cfg env s n) := by
  unfold uploadFrame
  simp only [mapped_off hmap, read_agree hm hr, copyGuard, sendBytes, putMem_ite, putMem_error]
  split
  · rfl
  · split
    · rfl
    · simp only [ok_bind, putMem_ite, pure_eq_ok, putMem_ok]
      rfl

theorem uploadSingleBlock_putMem {cfg : Cfg} (hmap : cfg.mapper = false) {H : Hook} (env : Env) {s : St} {m : Mem}
    (hm : AgreeReadable H s.mem m) (hr : s.slaveBlk.active = true → AllReadable H s.mta.addr s.slaveBlk.remaining) :
    uploadSingleBlock cfg env { s with mem := m } = putMem m (uploadSingleBlock cfg env s) := by
  unfold uploadSingleBlock
  rw [putMem_ite]
  show (if _ then _ else _) = _
  split
  · rfl
  · rename_i ha
    have hr := hr (by simpa using ha)
    rw [putMem_ite]
    show (if _ then _ else _) = _
    split
    · exact uploadFrame_putMem hmap env hm hr
    · rename_i hn
      have hn : ¬ s.slaveBlk.remaining ≤ cfg.maxCto - 1 := hn
      exact uploadFrame_putMem hmap env hm (hr.mono (by omega))

theorem upload_putMem {cfg : Cfg} (hmap : cfg.mapper = false) {H : Hook} (env : Env) {s : St} {m : Mem}
    (hm : AgreeReadable H s.mem m) {n : Nat} (hr : AllReadable H s.mta.addr n) :
    upload cfg env { s with mem := m } n = putMem m (upload cfg env s n) := by
  unfold upload
  rw [putMem_ite]
  split
  · exact uploadSingleBlock_putMem hmap env
      (s := setSlaveActive { s with slaveBlk := { s.slaveBlk with remaining := n } } true) hm (fun _ => hr)
  · simp only [mapped_off hmap, read_agree hm hr, copyGuard, sendBytes, putMem_ite, putMem_error]
    rfl

theorem downloadCopy_two {cfg : Cfg} {H : Hook} (env : Env) {s : St} {m : Mem} (hm : AgreeReadable H s.mem m) (p : Pdu)
    (off n : Nat) : Two H (downloadCopy cfg env s p off n) (downloadCopy cfg env { s with mem := m } p off n) := by
  unfold downloadCopy
  apply Two.bindSame
  intro data _
  unfold copyIn
  show Two H ((if _ then _ else _) >>= _) ((if _ then _ else _) >>= _)
  split
  · exact .inl ⟨_, rfl, rfl⟩
  · exact .inr ⟨_, _, rfl, rfl, _, rfl, write_agree hm _ _⟩

/-- Sending after a common memory change. -/
theorem Two.then {H : Hook} {r r' : R} (h : Two H r r') (f : St → St)
    (hf : ∀ (s : St) (m : Mem), f { s with mem := m } = { f s with mem := m }) (hmem : ∀ s, (f s).mem = s.mem) :
    Two H (r >>= fun s => pure (f s)) (r' >>= fun s => pure (f s)) := by
  refine h.bind fun s t ⟨m, h1, h2⟩ => ?_
  refine .inr ⟨f s, f t, rfl, rfl, m, ?_, ?_⟩
  · rw [h1]; exact hf s m
  · rw [hmem]; exact h2

theorem assertPgmIdle_two {cfg : Cfg} {H : Hook} {s : St} {m : Mem} (hm : AgreeReadable H s.mem m) {k k' : R}
    (h : Two H k k') : Two H (assertPgmIdle cfg s k) (assertPgmIdle cfg { s with mem := m } k') := by
  unfold assertPgmIdle
  exact Two.ite (fun _ => by simp only [sendResult_eq]; exact Two.ok (s := send8 cfg s _) hm) (fun _ => h)

theorem checkMem_two {cfg : Cfg} (hmc : cfg.memCheck = true) {H : Hook} {env : Env} {s : St} {m : Mem} (hm : AgreeReadable H s.mem m) {a : Mta}
    {n : Nat} {acc : Access} {b : Bool} {k k' : R} (h : env.memCheck a n acc b = true → Two H k k') :
    Two H (checkMem cfg env s a n acc b k) (checkMem cfg env { s with mem := m } a n acc b k') := by
  unfold checkMem
  exact Two.ite (fun _ => by simp only [sendResult_eq]; exact Two.ok (s := send8 cfg s _) hm) (fun hx => h (by simpa [hmc] using hx))

theorem Two.send8 {H : Hook} {cfg : Cfg} {s : St} {m : Mem} (hm : AgreeReadable H s.mem m) (bs : List UInt8) :
    Two H (.ok (send8 cfg s bs)) (.ok (Xcp.send8 cfg { s with mem := m } bs)) := Two.ok (s := Xcp.send8 cfg s bs) hm

theorem upload_two {cfg : Cfg} (hmap : cfg.mapper = false) {H : Hook} (env : Env) {s : St} {m : Mem}
    (hm : AgreeReadable H s.mem m) {n : Nat} (hr : AllReadable H s.mta.addr n) :
    Two H (upload cfg env s n) (upload cfg env { s with mem := m } n) := by
  rw [upload_putMem hmap env hm hr]
  refine Two.putMem hm ?_
  post
  all_goals rfl

theorem handler_two {cfg : Cfg} (hmc : cfg.memCheck = true) (hmap : cfg.mapper = false) {H : Hook} {env : Env} {s : St} {p : Pdu}
    (ha : Asks cfg H (env, .cmd p)) {c : Cmd} (hcode : code p = some (cmdCode c)) {m : Mem} (hm : AgreeReadable H s.mem m) :
    Two H (handler cfg env s p c) (handler cfg env { s with mem := m } p c) := by
  have hH : env.memCheck = H := ha.hook
  cases c
  case upload =>
    unfold handler uploadRes
    refine Two.bindSame _ fun n hn => assertPgmIdle_two hm (checkMem_two hmc hm fun hx => Two.ite (fun _ => Two.send8 hm _) fun _ => ?_)
    rw [hH] at hx
    exact upload_two hmap env hm (Spec.AllReadable.of_hook hx)
  case shortUpload =>
    unfold handler shortUploadRes
    refine Two.bindSame _ fun n hn => assertPgmIdle_two hm (checkMem_two hmc hm fun _ => Two.ite (fun _ => Two.send8 hm _) fun _ => ?_)
    refine Two.bindSame _ fun e he => Two.bindSame _ fun a hd => ?_
    obtain ⟨v, hv, rfl⟩ := param_of_dword hd
    exact upload_two hmap env (s := { s with mta := ⟨e, _⟩ }) hm
      (Spec.AllReadable.of_hook (ha.shortUpload p rfl hcode n e v (byte_ok hn) (byte_ok he) hv))
  case buildChecksum =>
    unfold handler buildChecksumRes
    refine Two.bindSame _ fun a hd => assertPgmIdle_two hm (checkMem_two hmc hm fun hx => Two.ite (fun _ => Two.send8 hm _) fun _ => ?_)
    rw [hH] at hx
    refine Two.ite (fun _ => ?_) (fun _ => ?_)
    · unfold startChecksum
      exact Two.ite (fun _ => Two.ok hm) (fun _ => Two.ok (s := { s with busy := true, ck := { s.ck with state := .initial, addr := s.mta.addr, size := a.toNat } }) hm)
    · show Two H _ (.ok (checksumResponse cfg { s with mem := m } (calcChecksum cfg.ckMethod (m.read s.mta.addr a.toNat) 0 true)))
      rw [read_agree hm (Spec.AllReadable.of_hook hx)]
      exact Two.send8 hm _
  case download =>
    unfold handler downloadRes
    refine Two.bindSame _ fun n hn => assertPgmIdle_two hm (checkMem_two hmc hm fun _ => ?_)
    refine Two.ite (fun _ => ?_) (fun _ => Two.ite (fun _ => Two.send8 hm _) fun _ => ?_)
    · refine Two.ite (fun _ => Two.send8 (s := { s with masterBlk := { s.masterBlk with active := false } }) hm _) fun _ => Two.ite (fun _ => ?_) fun _ => ?_
      · exact downloadCopy_two env (s := { s with masterBlk := ⟨true, n.toNat - cfg.dlPayload⟩ }) hm _ _ _
      · exact (downloadCopy_two env (s := { s with masterBlk := { s.masterBlk with active := false } }) hm _ _ _).then _ (fun _ _ => rfl) (fun _ => rfl)
    · exact (downloadCopy_two env hm _ _ _).then _ (fun _ _ => rfl) (fun _ => rfl)
  case downloadNext =>
    unfold handler downloadNextRes
    refine Two.bindSame _ fun n hn => assertPgmIdle_two hm (Two.ite (fun _ => Two.send8 hm _) fun _ => ?_)
    refine (downloadCopy_two env hm _ _ _).bind fun s1 t1 ⟨m1, h1, h2⟩ => ?_
    rw [h1]
    exact Two.ite (fun _ => Two.send8 (s := { s1 with masterBlk := ⟨false, 0⟩ }) h2 _)
      (fun _ => Two.ok (s := { s1 with masterBlk := ⟨_, _⟩ }) h2)
  case downloadMax =>
    unfold handler downloadMaxRes
    refine assertPgmIdle_two hm ?_
    exact (downloadCopy_two env hm _ _ _).then _ (fun _ _ => rfl) (fun _ => rfl)
  case shortDownload =>
    unfold handler shortDownloadRes
    refine Two.bindSame _ fun n hn => Two.bindSame _ fun e he => Two.bindSame _ fun a hd =>
      assertPgmIdle_two hm (checkMem_two hmc hm fun _ => Two.ite (fun _ => Two.send8 hm _) fun _ => ?_)
    refine Two.bindSame _ fun data _ => ?_
    unfold copyIn
    show Two H ((if _ then _ else _) >>= _) ((if _ then _ else _) >>= _)
    split
    · exact .inl ⟨_, rfl, rfl⟩
    · exact Two.send8 (s := { s with mem := s.mem.write _ data, mta := s.mta.advance n.toNat }) (m := m.write _ data) (write_agree hm _ _) _
  case modifyBits =>
    unfold handler modifyBitsRes
    refine Two.bindSame _ fun n hn => Two.bindSame _ fun e he => Two.bindSame _ fun a hd => checkMem_two hmc hm fun _ => ?_
    refine Two.bindSame _ fun _ _ => Two.bindSame _ fun _ _ => ?_
    exact Two.send8 (s := { s with mem := s.mem.store32 _ _ }) (m := m.store32 _ _) (modify_agree hm _ _) _
  all_goals
    rw [handler_putMem env s p m _ rfl]
    exact Two.putMem hm (handler_mem env p _ rfl)

/-! ### Events -/

theorem entry_index {cfg : Cfg} {d : Daq} {l o e i : Nat} (h : getOdtEntryIdx cfg d l o e = .ok i) : i = entryIndex d l o e := by
  unfold getOdtEntryIdx getOdt Daq.ent at h
  split at h
  · rw [ok_bind] at h
    split at h
    · rw [ok_bind] at h
      cases h
      unfold entryIndex odtIndex
      rw [show ((d.entities l).first % 256 + o) % 256 = ((d.entities l).first + o) % 256 by omega]
    · cases h
  · cases h

theorem odt_entity {cfg : Cfg} {d : Daq} {l o : Nat} {x : Entity} (h : getOdt cfg d l o = .ok x) : x = d.entities (odtIndex d l o) := by
  unfold getOdt Daq.ent at h
  split at h
  · rw [ok_bind] at h
    split at h
    · cases h
      unfold odtIndex
      rw [show ((d.entities l).first % 256 + o) % 256 = ((d.entities l).first + o) % 256 by omega]
    · cases h
  · cases h

theorem bind_congr_ok {α β : Type} {x : Except Fault α} {f g : α → Except Fault β} (h : ∀ a, x = .ok a → f a = g a) :
    x >>= f = x >>= g := by
  cases x with
  | error e => rfl
  | ok a => exact h a rfl

theorem foldlM_congr_mem {α β : Type} {f g : β → α → Except Fault β} : ∀ (l : List α) (b : β),
    (∀ a ∈ l, ∀ b, f b a = g b a) → l.foldlM f b = l.foldlM g b
  | [], _, _ => rfl
  | a :: l, b, h => by
    rw [List.foldlM_cons, List.foldlM_cons, h a List.mem_cons_self]
    exact bind_congr_ok fun b' _ => foldlM_congr_mem l b' fun a' ha' => h a' (List.mem_cons_of_mem _ ha')

theorem sampleOdt_same {cfg : Cfg} {H : Hook} (env : Env) {s : St} {m : Mem} (hm : AgreeReadable H s.mem m) {l o : Nat} (pid : Nat)
    (h : ∀ e, e < (s.daq.entities (odtIndex s.daq l o)).num →
      AllReadable H (s.daq.entities (entryIndex s.daq l o e)).addr (s.daq.entities (entryIndex s.daq l o e)).len) :
    sampleOdt cfg env { s with mem := m } l pid o = sampleOdt cfg env s l pid o := by
  unfold sampleOdt
  refine bind_congr_ok fun x hx => ?_
  refine foldlM_congr_mem _ _ fun e he acc => ?_
  rw [odt_entity hx] at he
  have hr := h e (List.mem_range.mp he)
  unfold sampleEntry
  refine bind_congr_ok fun i hi => ?_
  refine bind_congr_ok fun en hen => ?_
  have h1 : en = s.daq.entities (entryIndex s.daq l o e) := by
    rw [← entry_index hi]
    unfold Daq.ent at hen
    split at hen
    · cases hen; rfl
    · cases hen
  rw [h1]
  simp only [read_agree hm hr]

theorem transmit_putMem {cfg : Cfg} (m : Mem) : ∀ (n : Nat) (s : St), transmit cfg n { s with mem := m } = putMem m (transmit cfg n s)
  | 0, _ => rfl
  | n + 1, s => by
    unfold transmit
    rw [putMem_ite, putMem_bind]
    refine congr (congrArg (ite _) rfl) (congrArg _ (funext fun x => ?_))
    exact transmit_putMem m n (emit cfg { s with daq := { s.daq with queue := x.1 } } .dto x.2)

theorem trigger_two {cfg : Cfg} {H : Hook} (env : Env) {s : St} {m : Mem} (hm : AgreeReadable H s.mem m) (ev : Nat)
    (h : s.daq.running = true → EntriesReadable H s.daq (s.daq.listForEvent ev)) :
    Two H (triggerEvent cfg env s ev) (triggerEvent cfg env { s with mem := m } ev) := by
  have e : triggerEvent cfg env { s with mem := m } ev = putMem m (triggerEvent cfg env s ev) := by
    unfold triggerEvent
    rw [putMem_ite, putMem_ite]
    show (if _ then _ else if _ then _ else _) = _
    split
    · rfl
    · rename_i hrun
      have h := h (by simpa using hrun)
      split
      · rfl
      · rw [putMem_bind]
        refine bind_congr_ok fun x _ => ?_
        rw [putMem_ite]
        refine congr (congrArg (ite _) rfl) ?_
        rw [putMem_bind]
        refine bind_congr_ok fun le hle => ?_
        have hle : le = s.daq.entities (s.daq.listForEvent ev) := by
          unfold Daq.ent at hle
          split at hle
          · cases hle; rfl
          · cases hle
        rw [putMem_bind, hle]
        rw [foldlM_congr_mem (g := sampleList cfg env s (s.daq.listForEvent ev))]
        · refine bind_congr_ok fun y _ => ?_
          exact transmit_putMem m _ { s with daq := { s.daq with queue := y.2 } }
        · intro o ho acc
          unfold sampleList
          rw [sampleOdt_same env hm acc.1 fun e he => h o e (List.mem_range.mp ho) he]
  rw [e]
  exact Two.putMem hm ((trigger_eff env ev).mono fun s' h => h.mem)

theorem checksumChunk_putMem (cfg : Cfg) (s : St) (m : Mem) (st : CkState) (c : Nat) :
    checksumChunk cfg { s with mem := m } st c = { checksumChunk cfg s st c with mem := m } := by
  unfold checksumChunk
  rfl

theorem checksumFinish_putMem (cfg : Cfg) (s : St) (m : Mem) (c : Nat) :
    checksumFinish cfg { s with mem := m } c = { checksumFinish cfg s c with mem := m } := by
  unfold checksumFinish checksumResponse
  rfl

theorem checksumMain_putMem {cfg : Cfg} {H : Hook} {s : St} {m : Mem} (hm : AgreeReadable H s.mem m)
    (hI : ReadI cfg H s) : checksumMain cfg { s with mem := m } = { checksumMain cfg s with mem := m } := by
  unfold checksumMain
  cases hs : s.ck.state with
  | idle => rfl
  | initial =>
    have hr := (hI.job (by rw [hs]; decide)).1.mono (k := cfg.chunkSize) (by have := hI.initial hs; omega)
    simp only [read_agree hm hr, checksumChunk_putMem]
  | remaining =>
    have hr := (hI.job (by rw [hs]; decide)).1.mono (k := cfg.chunkSize) (hI.remaining hs)
    simp only [read_agree hm hr, checksumChunk_putMem]
  | final =>
    have hr := (hI.job (by rw [hs]; decide)).1
    simp only [read_agree hm hr, checksumFinish_putMem]

theorem checksumMain_mem (cfg : Cfg) (s : St) : (checksumMain cfg s).mem = s.mem := by
  have h1 : ∀ st c, (checksumChunk cfg s st c).mem = s.mem := fun _ _ => rfl
  have h2 : ∀ c, (checksumFinish cfg s c).mem = s.mem := fun _ => rfl
  unfold checksumMain
  split
  · rfl
  · exact h1 _ _
  · exact h1 _ _
  · exact h2 _

theorem main_two {cfg : Cfg} (hmap : cfg.mapper = false) {H : Hook} (env : Env) {s : St} {m : Mem} (hm : AgreeReadable H s.mem m)
    (hI : ReadI cfg H s) : Two H (mainFunction cfg env s) (mainFunction cfg env { s with mem := m }) := by
  have h1 : mainUpload cfg env { s with mem := m } = putMem m (mainUpload cfg env s) := by
    unfold mainUpload
    rw [putMem_ite, uploadSingleBlock_putMem hmap env hm hI.blk]
    rfl
  have hI1 : Post (mainUpload cfg env s) (ReadI cfg H) := Post.ite (fun _ => main_upload_read hI) (fun _ => Post.ok hI)
  have hM1 : Post (mainUpload cfg env s) (fun s' => s'.mem = s.mem) := by
    unfold mainUpload
    apply Post.ite
    · intro _
      unfold uploadSingleBlock
      post
      all_goals rfl
    · intro _; exact Post.ok rfl
  unfold mainFunction
  rw [h1]
  cases hu : mainUpload cfg env s with
  | error e => exact .inl ⟨e, rfl, rfl⟩
  | ok s1 =>
    have hI1 := hI1 s1 hu
    have hm1 : AgreeReadable H s1.mem m := by rw [hM1 s1 hu]; exact hm
    refine .inr ⟨mainChecksum cfg s1, mainChecksum cfg { s1 with mem := m }, rfl, rfl, m, ?_, ?_⟩
    · unfold mainChecksum
      split
      · exact checksumMain_putMem hm1 hI1
      · rfl
    · unfold mainChecksum
      split
      · rw [checksumMain_mem]; exact hm1
      · exact hm1

theorem bumpReceived_putMem (cfg : Cfg) (s : St) (m : Mem) :
    bumpReceived cfg { s with mem := m } = { bumpReceived cfg s with mem := m } := by
  unfold bumpReceived
  split <;> rfl

theorem step_two {cfg : Cfg} (hmc : cfg.memCheck = true) (hmap : cfg.mapper = false) {H : Hook} {env : Env} {op : Op} {s : St}
    (ha : Asks cfg H (env, op)) (hI : ReadI cfg H s) (hs : ¬ SamplesSecret H s (env, op)) {m : Mem}
    (hm : AgreeReadable H s.mem m) : Two H (step cfg env s op) (step cfg env { s with mem := m } op) := by
  have hbm : AgreeReadable H (bumpReceived cfg s).mem m := by
    unfold bumpReceived
    split <;> exact hm
  cases op with
  | cmd p =>
    show Two H (dispatch cfg env s p) (dispatch cfg env { s with mem := m } p)
    unfold dispatch
    refine Two.bindSame _ fun b hb => Two.ite (fun _ => Two.ite (fun _ => ?_) fun _ => ?_) fun _ => Two.ite (fun _ => ?_) fun _ => ?_
    · unfold busyResponse
      show Two H (.ok _) (.ok _)
      split
      · exact Two.send8 (s := { s with stats := { s.stats with crosBusy := (s.stats.crosBusy + 1) % 2 ^ 32 } }) hm _
      · exact Two.send8 hm _
    · cases ht : cmdTable[0xFF - b.toNat]? with
      | none => exact .inl ⟨_, rfl, rfl⟩
      | some c =>
        have hcode : code p = some (cmdCode c) := by
          have hb' := byte_ok hb
          rw [show code p = p.buf[0]? from rfl, hb']
          by_cases hhi : 0xC7 ≤ b.toNat
          · obtain ⟨c', h1, h2⟩ := table_hi hhi
            rw [ht] at h1
            cases h1
            rw [h2]
          · rw [table_lo (by omega)] at ht
            cases ht
        show Two H (tableEntry _ _ _ _ _) (tableEntry _ _ _ _ _)
        rw [bumpReceived_putMem cfg s m]
        unfold tableEntry
        refine Two.ite (fun _ => ?_) fun _ => ?_
        · exact handler_two hmc hmap ha hcode hbm
        · exact Two.send8 hbm _
    · rw [bumpReceived_putMem cfg s m]
      exact Two.send8 (s := { bumpReceived cfg s with connected := true }) hbm _
    · rw [bumpReceived_putMem cfg s m]
      exact Two.ok hbm
  | main => exact main_two hmap env hm hI
  | trigger ev =>
    refine Two.ite (fun _ => ?_) fun _ => Two.ok hm
    refine trigger_two env hm _ fun hrun => Classical.byContradiction fun hn => hs ⟨ev, rfl, hrun, hn⟩
  | eventPkt c d =>
    show Two H (sendBytes _ _ _) (sendBytes _ _ _)
    exact Two.ite (fun _ => .inl ⟨_, rfl, rfl⟩) fun _ => Two.ok (s := sendRaw cfg s _) hm
  | servPkt c d =>
    show Two H (sendBytes _ _ _) (sendBytes _ _ _)
    exact Two.ite (fun _ => .inl ⟨_, rfl, rfl⟩) fun _ => Two.ok (s := sendRaw cfg s _) hm
  | appWrite a b => exact .inr ⟨_, _, rfl, rfl, _, rfl, write_agree hm _ _⟩
  | apiDisconnect =>
    show Two H (.ok _) (.ok _)
    rw [apiDisconnect_putMem cfg s m]
    exact Two.ok (by rw [apiDisconnect_mem]; exact hm)

theorem step_read {cfg : Cfg} (hmc : cfg.memCheck = true) {H : Hook} {env : Env} {op : Op} {s : St}
    (ha : Asks cfg H (env, op)) (hB : BusyI cfg s) (hI : ReadI cfg H s) : Post (step cfg env s op) (ReadI cfg H) := by
  cases op with
  | cmd p =>
    apply Post.cmd
    · intro s' h _
      show ReadF _ _ _ _ _
      rw [h.mta, h.slaveBlk, h.ck]
      exact hI
    · intro _ s' _ h _
      show ReadF _ _ _ _ _
      rw [h.mta, h.slaveBlk, h.ck]
      exact hI
    · intro c hc
      have hsame := bumpReceived_same cfg s
      have hb : s.busy = false := hc.2.1
      refine handler_read hmc ha hc.2.2.1 ?_ ?_
      · rw [hsame.slaveBlk]
        cases h : s.slaveBlk.active with
        | false => rfl
        | true => have := hB.iff.mpr (.inl h); rw [hb] at this; cases this
      · rw [hsame.ck]
        cases h : s.ck.state with
        | idle => rfl
        | _ => have := hB.iff.mpr (.inr (by rw [h]; decide)); rw [hb] at this; cases this
  | main =>
    exact Post.mainFunction (Q := ReadI cfg H) (fun _ => main_upload_read hI) (fun _ => hI) (fun s1 h _ _ => checksum_read h) (fun _ h => h)
  | trigger ev =>
    refine Post.ite (fun _ => ?_) (fun _ => Post.ok hI)
    refine (trigger_eff env _).mono fun s' h => ?_
    show ReadF _ _ _ _ _
    rw [h.mta, h.slaveBlk, h.ck]
    exact hI
  | eventPkt c d =>
    refine Post.mono special_eff fun s' h => ?_
    show ReadF _ _ _ _ _
    rw [h.1.mta, h.1.slaveBlk, h.1.ck]
    exact hI
  | servPkt c d =>
    refine Post.mono special_eff fun s' h => ?_
    show ReadF _ _ _ _ _
    rw [h.1.mta, h.1.slaveBlk, h.1.ck]
    exact hI
  | appWrite a b => exact Post.ok hI
  | apiDisconnect =>
    refine Post.ok ?_
    show ReadF _ _ _ _ _
    rw [apiDisconnect_mta, apiDisconnect_slaveBlk, apiDisconnect_ck]
    exact hI

theorem run_two {cfg : Cfg} (hmc : cfg.memCheck = true) (hmap : cfg.mapper = false) {H : Hook} (h : List (Env × Op)) :
    ∀ {s : St} {m : Mem}, (∀ x ∈ h, Asks cfg H x) → Without cfg (SamplesSecret H) s h → BusyI cfg s → ReadI cfg H s →
      AgreeReadable H s.mem m → Two H (run cfg s h) (run cfg { s with mem := m } h) := by
  induction h with
  | nil => intro s m _ _ _ _ hm; exact Two.ok hm
  | cons x rest ih =>
    intro s m ha hw hB hI hm
    obtain ⟨env, op⟩ := x
    have ha0 := ha _ List.mem_cons_self
    show Two H (step cfg env s op >>= _) (step cfg env _ op >>= _)
    rcases step_two hmc hmap ha0 hI hw.1 hm with ⟨e, h1, h2⟩ | ⟨s1, t1, h1, h2, m1, h3, h4⟩
    · exact .inl ⟨e, by rw [h1]; rfl, by rw [h2]; rfl⟩
    · rw [h1, h2, h3]
      exact ih (fun y hy => ha y (List.mem_cons_of_mem _ hy)) (hw.2 s1 h1) (step_busy env op hB s1 h1)
        (step_read hmc ha0 hB hI s1 h1) h4

/-- **C15** (with the exceptions named in `Asks` and `SamplesSecret`, and without an address mapper). Memory
the hook never permits to read does not influence what is sent: from two memories that agree wherever
reading is permitted, every history sends the same packets and ends in the same fault, if any. -/
theorem C15_read_hook_partial {cfg : Cfg} (hmc : cfg.memCheck = true) (hmap : cfg.mapper = false) {H : Hook} {h : List (Env × Op)}
    {m m' : Mem} (hask : ∀ x ∈ h, Asks cfg H x) (hdaq : Without cfg (SamplesSecret H) (St.init cfg m) h)
    (hagree : AgreeReadable H m m') : sent (run cfg (St.init cfg m) h) = sent (run cfg (St.init cfg m') h) := by
  have h0 : St.init cfg m' = { St.init cfg m with mem := m' } := rfl
  rw [h0]
  rcases run_two hmc hmap h hask hdaq (BusyF.quiet _) (ReadF.quiet rfl rfl) hagree with ⟨e, h1, h2⟩ | ⟨s, t, h1, h2, m1, h3, _⟩
  · rw [h1, h2]
  · rw [h1, h2, h3]
    rfl

/-! ### Counterexamples and an example -/

/-- xcpsim with the access hook switched on. -/
def Ex.hooked : Cfg := { Ex.sim with memCheck := true }

/-- A hook that permits reading only ranges inside `lo..hi-1`. -/
def Ex.only (lo hi : Nat) : Env :=
  { Ex.env with memCheck := fun m n _ _ => decide (lo ≤ m.addr.toNat ∧ m.addr.toNat + n ≤ hi) }

/-- The example memory with another byte at `a`. -/
def Ex.secret (a : UInt32) : Mem := fun x => if x = a then 0xAA else Ex.mem x

theorem secret_agrees {lo hi : Nat} {a : UInt32} (ha : a.toNat = hi) :
    AgreeReadable (Ex.only lo hi).memCheck Ex.mem (Ex.secret a) := by
  rintro x ⟨m, n, h1, i, hi', h2⟩
  simp only [Ex.only, decide_eq_true_eq] at h1
  have hlt : hi < 2 ^ 32 := by rw [← ha]; exact a.toNat_lt
  show Ex.mem x = if x = a then 0xAA else Ex.mem x
  rw [if_neg]
  intro he
  have := congrArg UInt32.toNat (h2.symm.trans he)
  rw [UInt32.toNat_add, ha] at this
  simp at this
  omega

/-- Two histories of frames, to be compared. -/
def Ex.framesIn (cfg : Cfg) (m : Mem) (h : List (Env × Op)) : Option (List (List UInt8)) :=
  (run cfg (St.init cfg m) h).toOption.map fun s => s.tx.map Frame.bytes

/-- C15 fails for SHORT_UPLOAD: the hook is asked about the old MTA 0x1000, where reading is permitted; the byte
at 0x1010, where it is not, is sent. -/
theorem C15_fails_short_upload :
    let h : List (Env × Op) := [(Ex.only 0x1000 0x1010, .cmd (Ex.pkt [0xFF])),
      (Ex.only 0x1000 0x1010, .cmd (Ex.pkt [0xF6, 0, 0, 0, 0, 0x10, 0, 0])),
      (Ex.only 0x1000 0x1010, .cmd (Ex.pkt [0xF4, 1, 0, 0, 0x10, 0x10, 0, 0]))]
    AgreeReadable (Ex.only 0x1000 0x1010).memCheck Ex.mem (Ex.secret 0x1010) ∧
      (Ex.framesIn Ex.hooked Ex.mem h).map (·.drop 2) = some [[2, 0, 2, 0, 0xFF, 0x10]] ∧
      (Ex.framesIn Ex.hooked (Ex.secret 0x1010) h).map (·.drop 2) = some [[2, 0, 2, 0, 0xFF, 0xAA]] :=
  ⟨secret_agrees rfl, by decide +kernel, by decide +kernel⟩

/-- C15 fails for data acquisition: the hook is never asked, and the byte at 0x1010 is sampled and sent. -/
theorem C15_fails_daq :
    let h : List (Env × Op) := ([[0xFF], [0xD6], [0xD5, 0, 1, 0], [0xD4, 0, 0, 0, 1], [0xD3, 0, 0, 0, 0, 1], [0xE2, 0, 0, 0, 0, 0],
        [0xE1, 0xFF, 1, 0, 0x10, 0x10, 0, 0], [0xE0, 0, 0, 0, 0, 0, 1, 0], [0xDE, 2, 0, 0], [0xDD, 1]].map fun bs =>
        (Ex.only 0x1000 0x1010, Op.cmd (Ex.pkt bs))) ++ [(Ex.only 0x1000 0x1010, .trigger 0)]
    AgreeReadable (Ex.only 0x1000 0x1010).memCheck Ex.mem (Ex.secret 0x1010) ∧
      (Ex.framesIn Ex.hooked Ex.mem h).map (·.drop 10) = some [[2, 0, 10, 0, 0, 0x10]] ∧
      (Ex.framesIn Ex.hooked (Ex.secret 0x1010) h).map (·.drop 10) = some [[2, 0, 10, 0, 0, 0xAA]] :=
  ⟨secret_agrees rfl, by decide +kernel, by decide +kernel⟩

/-- A checksum of 100 bytes in chunks of 64 reads the 101st byte, which the hook refuses, in its second round.
(The result that depends on it is sent only after the whole address space has been read, see C43.) -/
theorem C15_checksum_reads_past :
    let h : List (Env × Op) := [(Ex.only 0x1000 0x1064, .cmd (Ex.pkt [0xFF])),
      (Ex.only 0x1000 0x1064, .cmd (Ex.pkt [0xF6, 0, 0, 0, 0, 0x10, 0, 0])),
      (Ex.only 0x1000 0x1064, .cmd (Ex.pkt [0xF3, 0, 0, 0, 100, 0, 0, 0])), (Ex.only 0x1000 0x1064, .main),
      (Ex.only 0x1000 0x1064, .main)]
    AgreeReadable (Ex.only 0x1000 0x1064).memCheck Ex.mem (Ex.secret 0x1064) ∧
      (run Ex.hooked (St.init Ex.hooked Ex.mem) h).toOption.map (fun s => s.ck.interim) ≠
      (run Ex.hooked (St.init Ex.hooked (Ex.secret 0x1064)) h).toOption.map (fun s => s.ck.interim) :=
  ⟨secret_agrees rfl, by decide +kernel⟩

/-- The theorem applies: permitted memory is uploaded and summed, the rest is refused, and nothing depends on
the byte at 0x1010. -/
def Ex.asking : List (Env × Op) := [[0xFF], [0xF6, 0, 0, 0, 0x0C, 0x10, 0, 0], [0xF5, 2], [0xF5, 2],
  [0xF5, 1], [0xF6, 0, 0, 0, 0, 0x10, 0, 0], [0xF3, 0, 0, 0, 16, 0, 0, 0], [0xF3, 0, 0, 0, 17, 0, 0, 0],
  [0xF4, 2, 0, 0, 0, 0x10, 0, 0]].map fun bs => (Ex.only 0x1000 0x1010, Op.cmd (Ex.pkt bs))

example : (Ex.framesIn Ex.hooked Ex.mem Ex.asking).map (·.drop 2) =
    some [[3, 0, 2, 0, 0xFF, 0x0C, 0x0D], [3, 0, 3, 0, 0xFF, 0x0E, 0x0F], [2, 0, 4, 0, 0xFE, 0x24], [1, 0, 5, 0, 0xFF],
      [8, 0, 6, 0, 0xFF, 8, 0, 0, 0x37, 0x3B, 0, 0], [2, 0, 7, 0, 0xFE, 0x24], [3, 0, 8, 0, 0xFF, 0, 1]] := by decide +kernel

example : sent (run Ex.hooked (St.init Ex.hooked Ex.mem) Ex.asking) =
    sent (run Ex.hooked (St.init Ex.hooked (Ex.secret 0x1010)) Ex.asking) := by
  have hw : ∀ (l : List (List UInt8)) (s : St),
      Without Ex.hooked (SamplesSecret (Ex.only 0x1000 0x1010).memCheck) s (l.map fun bs => (Ex.only 0x1000 0x1010, Op.cmd (Ex.pkt bs))) := by
    intro l
    induction l with
    | nil => intro _; trivial
    | cons b l ih => intro s; exact ⟨fun ⟨_, h, _⟩ => (by cases h), fun s' _ => ih s'⟩
  refine C15_read_hook_partial (H := (Ex.only 0x1000 0x1010).memCheck) rfl rfl ?_ (hw _ _) (secret_agrees rfl)
  intro x hx
  unfold Ex.asking at hx
  simp only [List.map_cons, List.map_nil, List.mem_cons, List.not_mem_nil, or_false] at hx
  rcases hx with rfl | rfl | rfl | rfl | rfl | rfl | rfl | rfl | rfl
  all_goals refine ⟨rfl, ?_, ?_⟩
  all_goals intro p hp hc
  all_goals cases hp
  all_goals first | (exfalso; revert hc; decide) | skip
  · intro _ v hv
    have := enc_inj hv.1 (b := 16) (by decide) (hv.2.symm.trans rfl)
    exact .inl (by rw [this]; decide)
  · intro _ v hv
    have := enc_inj hv.1 (b := 17) (by decide) (hv.2.symm.trans rfl)
    exact .inl (by rw [this]; decide)
  · intro n e v hn he hv
    cases hn
    cases he
    rw [enc_inj hv.1 (b := 0x1000) (by decide) (hv.2.symm.trans rfl)]
    decide

end Xcp
