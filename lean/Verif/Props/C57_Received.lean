import Verif.Proofs.Table
import Verif.Proofs.Memory
import Verif.Model.Example
/-
C57: Only the received bytes of a packet matter.
-/
set_option autoImplicit false
namespace Xcp
open Spec

/-- The bytes of a packet that were received; what follows in the buffer is left over from
earlier packets. -/
def Spec.received (p : Pdu) : List UInt8 := p.buf.take p.len

/-- The number of bytes a command packet consists of, by the command table of the XCP
standard, from its first two bytes: a fixed part and for commands with data the data
(cut to one packet). -/
def Spec.needed (cfg : Cfg) (c : Cmd) (n : Nat) : Nat :=
  match c with
  | .disconnect | .getStatus | .synch | .getCommModeInfo | .getPagProcessorInfo | .readDaq | .getDaqClock
  | .getDaqProcessorInfo | .getDaqResolutionInfo | .freeDaq | .programStart | .programReset
  | .getPgmProcessorInfo => 1
  | .connect | .getId | .upload | .userCmd | .startStopSynch => 2
  | .getSeed | .getCalPage | .getPageInfo | .setSegmentMode | .getSegmentMode | .getSectorInfo => 3
  | .setRequest | .setCalPage | .clearDaqList | .getDaqListMode | .startStopDaqList | .getDaqListInfo
  | .getDaqEventInfo | .allocDaq | .programPrepare => 4
  | .getSegmentInfo | .copyCalPage | .allocOdt => 5
  | .modifyBits | .setDaqPtr | .allocOdtEntry => 6
  | .transportLayerCmd => 6
  | .setMta | .shortUpload | .buildChecksum | .writeDaq | .setDaqListMode | .programClear | .programFormat
  | .programVerify => 8
  | .unlock => 2 + n
  | .download | .downloadNext | .program | .programNext => 2 + min n (cfg.maxCto - 2)
  | .downloadMax | .programMax => cfg.maxCto
  | .shortDownload => 8 + min n (cfg.maxCto - 8)
  | .writeDaqMultiple => 2 + min (8 * n) (cfg.maxCto - 2)

/-- A packet is complete: it has at least as many bytes as its command needs, if the slave offers the command. -/
def Spec.Complete (cfg : Cfg) (p : Pdu) : Prop :=
  1 ≤ p.len ∧ p.len ≤ p.buf.length ∧
    ∀ c, code p = some (cmdCode c) → cfg.supports c = true → needed cfg c ((p.buf[1]?.getD 0).toNat) ≤ p.len ∧
      (needed cfg c 255 ≠ 1 → 2 ≤ p.len)

/-- Two buffers agree on their first `n` bytes. -/
def Agree (n : Nat) (p q : Pdu) : Prop := ∀ i, i < n → p.buf[i]? = q.buf[i]?

theorem Agree.byte {n : Nat} {p q : Pdu} (h : Agree n p q) {i : Nat} (hi : i < n) : p.byte i = q.byte i := by
  unfold Pdu.byte
  rw [h i hi]

theorem Agree.word {n : Nat} {p q : Pdu} (h : Agree n p q) {m : Bool} {i : Nat} (hi : i + 1 < n) :
    p.word m i = q.word m i := by
  unfold Pdu.word
  rw [h.byte (i := i) (by omega), h.byte hi]

theorem Agree.dword {n : Nat} {p q : Pdu} (h : Agree n p q) {m w : Bool} {i : Nat} (hi : i + 3 < n) :
    p.dword m w i = q.dword m w i := by
  unfold Pdu.dword
  rw [h.word (i := i) (by omega), h.word (i := i + 2) (by omega)]

theorem Agree.slice {n : Nat} {p q : Pdu} (h : Agree n p q) (hp : n ≤ p.buf.length) (hq : n ≤ q.buf.length)
    {off k : Nat} (hi : off + k ≤ n) : p.slice off k = q.slice off k := by
  unfold Pdu.slice
  rw [if_pos (by omega), if_pos (by omega)]
  congr 1
  apply List.ext_getElem?
  intro i
  simp only [List.getElem?_take, List.getElem?_drop]
  split
  · exact h _ (by omega)
  · rfl

/-- The UNLOCK hook looks at the key bytes only, not behind them. -/
def Spec.KeyOnly (env : Env) : Prop := ∀ r k n, env.unlock r k n = env.unlock r (k.take n) n

theorem Except.bind_congr' {α β : Type} {x : Except Fault α} {f g : α → Except Fault β}
    (h : ∀ a, x = .ok a → f a = g a) : (x >>= f) = (x >>= g) := by
  cases x with
  | error e => rfl
  | ok a => exact h a rfl

theorem assertPgmIdle_congr {cfg : Cfg} {s : St} {a b : R} (h : a = b) : assertPgmIdle cfg s a = assertPgmIdle cfg s b := by
  rw [h]

theorem foldlM_congr {α β : Type} {f g : β → α → Except Fault β} {l : List α} {d : β}
    (h : ∀ d, ∀ a ∈ l, f d a = g d a) : l.foldlM f d = l.foldlM g d := by
  induction l generalizing d with
  | nil => rfl
  | cons a rest ih =>
    simp only [List.foldlM_cons]
    rw [h d a List.mem_cons_self]
    apply Except.bind_congr'
    intro d' _
    exact ih (fun d b hb => h d b (List.mem_cons_of_mem _ hb))

theorem downloadCopy_agree {cfg : Cfg} {env : Env} {s : St} {n : Nat} {p q : Pdu} (h : Agree n p q)
    (hp : n ≤ p.buf.length) (hq : n ≤ q.buf.length) {off k : Nat} (hi : off + k ≤ n) :
    downloadCopy cfg env s p off k = downloadCopy cfg env s q off k := by
  unfold downloadCopy
  rw [h.slice hp hq hi]

/-- The handlers look only at the needed bytes. -/
theorem handler_agree {cfg : Cfg} (hc : cfg.Ok) {env : Env} (hk : KeyOnly env) {s : St} {p q : Pdu} {n : Nat} {c : Cmd}
    (h : Agree n p q) (hp : n ≤ p.buf.length) (hq : n ≤ q.buf.length)
    (hn : needed cfg c ((p.buf[1]?.getD 0).toNat) ≤ n) (h2 : needed cfg c 255 ≠ 1 → 2 ≤ n) :
    handler cfg env s p c = handler cfg env s q c := by
  have hb1 : ∀ b, p.byte 1 = .ok b → p.buf[1]?.getD 0 = b := by
    intro b hb
    unfold Pdu.byte at hb
    split at hb
    · next h => rw [h]; cases hb; rfl
    · cases hb
  have hlo := hc.cto_lo
  have hhi := hc.cto_hi
  cases c <;> simp only [needed] at hn h2
  all_goals first
    | rfl
    | (simp only [handler]; unfold_handlers
       repeat rw [h.byte (by omega)]
       repeat rw [h.word (by omega)]
       repeat rw [h.dword (by omega)]
       done)
    | skip
  case unlock =>
    have h1 := h2 (by decide)
    simp only [handler, unlockRes, ← h.byte (i := 1) (by omega)]
    apply Except.bind_congr'
    intro b hb
    rw [hb1 b hb] at hn
    rw [hk _ (p.buf.drop 2), hk _ (q.buf.drop 2)]
    have : (p.buf.drop 2).take b.toNat = (q.buf.drop 2).take b.toNat := by
      apply List.ext_getElem?
      intro i
      simp only [List.getElem?_take, List.getElem?_drop]
      split
      · exact h _ (by omega)
      · rfl
    rw [this]
  case download =>
    have h1 := h2 (by omega)
    simp only [handler, downloadRes, ← h.byte (i := 1) (by omega)]
    apply Except.bind_congr'
    intro b hb
    rw [hb1 b hb] at hn
    congr 2
    split
    · split
      · rfl
      · split
        · rw [downloadCopy_agree h hp hq (by unfold Cfg.dlPayload at *; omega)]
        · rw [downloadCopy_agree h hp hq (by unfold Cfg.dlPayload at *; omega)]
    · split
      · rfl
      · rw [downloadCopy_agree h hp hq (by unfold Cfg.dlPayload at *; omega)]
  case downloadNext =>
    have h1 := h2 (by omega)
    simp only [handler, downloadNextRes, ← h.byte (i := 1) (by omega)]
    apply Except.bind_congr'
    intro b hb
    rw [hb1 b hb] at hn
    rw [downloadCopy_agree h hp hq (by unfold Cfg.dlPayload at *; omega)]
  case downloadMax =>
    simp only [handler, downloadMaxRes]
    rw [downloadCopy_agree h hp hq (by unfold Cfg.dlPayload at *; omega)]
  case shortDownload =>
    simp only [handler, shortDownloadRes, ← h.byte (i := 1) (by omega), ← h.byte (i := 3) (by omega),
      ← h.dword (i := 4) (by omega)]
    apply Except.bind_congr'
    intro b hb
    rw [hb1 b hb] at hn
    apply Except.bind_congr'
    intro e _
    apply Except.bind_congr'
    intro a _
    congr 2
    split
    · rfl
    · rw [h.slice hp hq (by omega)]
  case writeDaqMultiple =>
    have h1 := h2 (by omega)
    simp only [handler, writeDaqMultipleRes, ← h.byte (i := 1) (by omega)]
    apply Except.bind_congr'
    intro b hb
    rw [hb1 b hb] at hn
    split
    · rfl
    · have : ∀ d, (List.range b.toNat).foldlM (writeDaqMultipleBody cfg p) d =
          (List.range b.toNat).foldlM (writeDaqMultipleBody cfg q) d := by
        intro d
        apply foldlM_congr
        intro d i hi
        have := List.mem_range.mp hi
        unfold writeDaqMultipleBody
        simp only
        rw [h.byte (i := (i * 8 + 2) % 256) (by omega), h.byte (i := (i * 8 + 2) % 256 + 1) (by omega),
          h.dword (i := (i * 8 + 2) % 256 + 2) (by omega), h.byte (i := (i * 8 + 2) % 256 + 6) (by omega)]
      rw [this]

/-- C57 for complete packets: what a command does depends only on the received bytes. -/
theorem C57_complete_partial {cfg : Cfg} (hc : cfg.Ok) {env : Env} (hk : KeyOnly env) {s : St} {p q : Pdu}
    (hp : Complete cfg p) (hl : q.len = p.len) (hq : q.len ≤ q.buf.length) (hr : received p = received q) :
    step cfg env s (.cmd p) = step cfg env s (.cmd q) := by
  obtain ⟨h1, hpl, hn⟩ := hp
  have ha : Agree p.len p q := by
    intro i hi
    have := congrArg (·[i]?) hr
    simp only [received, List.getElem?_take, hl, hi, if_true] at this
    exact this
  have h0 : p.byte 0 = q.byte 0 := ha.byte (by omega)
  simp only [step, dispatch]
  rw [← h0]
  apply Except.bind_congr'
  intro b hb
  have hcode : code p = some b := by
    unfold Pdu.byte at hb
    unfold code
    cases h : p.buf[0]? with
    | none => rw [h] at hb; cases hb
    | some x => rw [h] at hb; cases hb; rfl
  split
  · split
    · rfl
    · cases hb2 : cmdTable[0xFF - b.toNat]? with
      | none => rfl
      | some c =>
        simp only
        have hi : 0xC7 ≤ b.toNat := by
          apply Nat.le_of_not_lt
          intro hlt
          rw [table_lo hlt] at hb2; cases hb2
        obtain ⟨c', hc', hbc⟩ := table_hi hi
        rw [hb2] at hc'
        cases hc'
        unfold tableEntry
        split
        · next hs =>
          have := hn c (by rw [hcode, hbc]) hs
          rw [handler_agree hc hk ha hpl (by omega) this.1 this.2]
        · rfl
  · rfl

theorem env_keyOnly : KeyOnly Ex.env := by
  intro r k n
  show (n == 4 && k.take 4 == [1, 2, 3, 4]) = (n == 4 && (k.take n).take 4 == [1, 2, 3, 4])
  by_cases h : n = 4
  · subst h; rw [List.take_take, Nat.min_self]
  · rw [show (n == 4) = false from by simpa using h]; rfl

/-- A DOWNLOAD of three bytes in a packet of five: bytes 5 and up do not matter. -/
example (s : St) : step Ex.sim Ex.env s (.cmd ⟨5, [0xF0, 3, 7, 8, 9, 1, 2, 3]⟩) =
    step Ex.sim Ex.env s (.cmd ⟨5, [0xF0, 3, 7, 8, 9]⟩) := by
  refine C57_complete_partial Ex.sim_ok env_keyOnly ⟨by decide, by decide, ?_⟩ rfl (by decide) (by decide)
  intro c hc _
  have : (0xF0 : UInt8) = cmdCode c := by simpa [code] using hc
  cases c <;> first | (revert this; decide) | decide

/-- C57 in full: whatever the rest of the buffer, the received bytes decide. -/
def Spec.OnlyReceived (cfg : Cfg) : Prop :=
  ∀ (env : Env), KeyOnly env → ∀ (mem : Mem) (h : List (Env × Op)) (s : St), run cfg (St.init cfg mem) h = .ok s →
    ∀ p q : Pdu, q.len = p.len → 1 ≤ p.len → p.len ≤ p.buf.length → q.len ≤ q.buf.length → received p = received q →
      step cfg env s (.cmd p) = step cfg env s (.cmd q)

/-- A one-byte UPLOAD packet; the count comes from an earlier packet. -/
theorem C57_fails_witness :
    received ⟨1, [0xF5, 2]⟩ = received ⟨1, [0xF5, 3]⟩ ∧
    (Ex.frames Ex.sim [Ex.c [0xFF], Ex.c [0xF6, 0, 0, 0, 0x34, 0x12, 0, 0], (Ex.env, .cmd ⟨1, [0xF5, 2]⟩)]).map
      (fun fs => fs.drop 2) = some [[3, 0, 2, 0, 0xFF, 0x34, 0x35]] ∧
    (Ex.frames Ex.sim [Ex.c [0xFF], Ex.c [0xF6, 0, 0, 0, 0x34, 0x12, 0, 0], (Ex.env, .cmd ⟨1, [0xF5, 3]⟩)]).map
      (fun fs => fs.drop 2) = some [[4, 0, 2, 0, 0xFF, 0x34, 0x35, 0x36]] := by decide +kernel

theorem C57_fails : ¬ OnlyReceived Ex.sim := by
  intro hall
  obtain ⟨h1, h2, h3⟩ := C57_fails_witness
  cases hr : run Ex.sim (St.init Ex.sim Ex.mem) [Ex.c [0xFF], Ex.c [0xF6, 0, 0, 0, 0x34, 0x12, 0, 0]] with
  | error e =>
    have : (run Ex.sim (St.init Ex.sim Ex.mem) [Ex.c [0xFF], Ex.c [0xF6, 0, 0, 0, 0x34, 0x12, 0, 0]]).toOption.isSome
      = true := by decide +kernel
    rw [hr] at this; cases this
  | ok s =>
    have heq := hall Ex.env env_keyOnly _ _ s hr ⟨1, [0xF5, 2]⟩ ⟨1, [0xF5, 3]⟩ rfl (by decide) (by decide)
      (by decide) h1
    have : ∀ p, run Ex.sim (St.init Ex.sim Ex.mem) [Ex.c [0xFF], Ex.c [0xF6, 0, 0, 0, 0x34, 0x12, 0, 0],
        (Ex.env, .cmd p)] = run Ex.sim s [(Ex.env, .cmd p)] := by
      intro p
      rw [show [Ex.c [0xFF], Ex.c [0xF6, 0, 0, 0, 0x34, 0x12, 0, 0], (Ex.env, .cmd p)] =
        [Ex.c [0xFF], Ex.c [0xF6, 0, 0, 0, 0x34, 0x12, 0, 0]] ++ [(Ex.env, .cmd p)] from rfl, run_append, hr]
      rfl
    unfold Ex.frames at h2 h3
    rw [this] at h2 h3
    simp only [run, heq] at h2
    simp only [run] at h3
    rw [h2] at h3
    revert h3
    decide

/-- The length of a packet is not looked at: packets with the same buffer are treated alike, whatever their lengths.  (So the serial
receiver of tools/arduino/hello_xcp/xcp.h:5636-5641, which resets the length before it hands it over, works.) -/
theorem C57_length_ignored (cfg : Cfg) (env : Env) (s : St) (n m : Nat) (buf : List UInt8) :
    step cfg env s (.cmd ⟨n, buf⟩) = step cfg env s (.cmd ⟨m, buf⟩) := rfl

/-- DOWNLOAD of 4 bytes in a packet of length 0. -/
example : (Ex.frames Ex.sim [Ex.c [0xFF], Ex.c [0xF6, 0, 0, 0, 0x34, 0x12, 0, 0], (Ex.env, .cmd ⟨0, [0xF0, 4, 1, 2, 3, 4]⟩),
      Ex.c [0xF4, 4, 0, 0, 0x34, 0x12, 0, 0]]).map (fun fs => fs.drop 2) =
    some [[1, 0, 2, 0, 0xFF], [5, 0, 3, 0, 0xFF, 1, 2, 3, 4]] := by decide +kernel

end Xcp
