import Verif.Model.Dispatch
/-
Proof tools: postconditions of computations that may fault, and how sending affects
the state.
-/
set_option autoImplicit false
namespace Xcp

/-- Every successful result satisfies `P`. -/
def Post {α : Type} (r : Except Fault α) (P : α → Prop) : Prop := ∀ a, r = .ok a → P a

namespace Post
variable {α β : Type} {P : α → Prop}

theorem ok {a : α} (h : P a) : Post (.ok a) P := by
  intro b hb; cases hb; exact h
theorem pure {a : α} (h : P a) : Post (Pure.pure a) P := Post.ok h
theorem error {e : Fault} : Post (.error e) P := by intro b hb; cases hb
theorem throw {e : Fault} : Post (MonadExcept.throw e) P := by intro b hb; cases hb
theorem bind {x : Except Fault β} {f : β → Except Fault α}
    (h : Post x (fun b => Post (f b) P)) : Post (x >>= f) P := by
  intro a ha
  cases x with
  | error e => cases ha
  | ok b => exact h b rfl a ha
theorem bindAny {x : Except Fault β} {f : β → Except Fault α}
    (h : ∀ b, x = .ok b → Post (f b) P) : Post (x >>= f) P := bind h
theorem any {x : Except Fault α} (h : ∀ a, P a) : Post x P := fun a _ => h a
theorem ite {c : Prop} [Decidable c] {t e : Except Fault α}
    (ht : c → Post t P) (he : ¬ c → Post e P) : Post (if c then t else e) P := by
  split
  · exact ht ‹_›
  · exact he ‹_›
theorem mono {x : Except Fault α} {Q : α → Prop} (h : Post x P) (hq : ∀ a, P a → Q a) : Post x Q :=
  fun a ha => hq a (h a ha)
theorem and {x : Except Fault α} {Q : α → Prop} (h : Post x P) (hq : Post x Q) :
    Post x (fun a => P a ∧ Q a) := fun a ha => ⟨h a ha, hq a ha⟩

end Post

section guards
variable {cfg : Cfg} {env : Env} {s : St} {k : R} {P : St → Prop}

theorem Post.assertPgmIdle (h1 : s.pgm = .active → P (send8 cfg s [0xFE, ERR_PGM_ACTIVE]))
    (h2 : s.pgm ≠ .active → Post k P) : Post (assertPgmIdle cfg s k) P :=
  Post.ite (fun h => Post.ok (h1 h)) h2
theorem Post.assertPgmActive (h1 : s.pgm ≠ .active → P (send8 cfg s [0xFE, ERR_SEQUENCE]))
    (h2 : s.pgm = .active → Post k P) : Post (assertPgmActive cfg s k) P :=
  Post.ite (fun h => Post.ok (h1 h)) (fun h => h2 (Decidable.of_not_not h))
theorem Post.assertDaqStopped (h1 : s.daq.running = true → P (send8 cfg s [0xFE, ERR_DAQ_ACTIVE]))
    (h2 : s.daq.running = false → Post k P) : Post (assertDaqStopped cfg s k) P :=
  Post.ite (fun h => Post.ok (h1 h)) (fun h => h2 (by simpa using h))
theorem Post.assertUnlocked {r : UInt8}
    (h1 : isProtected cfg s r = true → P (send8 cfg s [0xFE, ERR_ACCESS_LOCKED]))
    (h2 : isProtected cfg s r = false → Post k P) : Post (assertUnlocked cfg s r k) P :=
  Post.ite (fun h => Post.ok (h1 h)) (fun h => h2 (by simpa using h))
theorem Post.checkMem {m : Mta} {n : Nat} {a : Access} {b : Bool}
    (h1 : cfg.memCheck = true → env.memCheck m n a b = false → P (send8 cfg s [0xFE, ERR_ACCESS_DENIED]))
    (h2 : (cfg.memCheck = true → env.memCheck m n a b = true) → Post k P) :
    Post (checkMem cfg env s m n a b k) P :=
  Post.ite (fun h => Post.ok (by
    simp only [Bool.and_eq_true, Bool.not_eq_true'] at h
    exact h1 h.1 h.2)) (fun h => h2 (by
      intro hm
      simp only [hm, Bool.true_and, Bool.not_eq_true, Bool.not_eq_false'] at h
      exact h))
theorem Post.copyGuard {n : Nat} (h : (cfg.asserts = true → n ≠ 0) → Post k P) :
    Post (copyGuard cfg n k) P :=
  Post.ite (fun _ => Post.error) (fun hn => h (by
    intro ha; simpa [ha] using hn))
theorem Post.sendBytes {data : List UInt8}
    (h : data.length ≤ cfg.maxCto → P (sendRaw cfg s data)) :
    Post (sendBytes cfg s data) P :=
  Post.ite (fun _ => Post.error) (fun hn => Post.ok (h (by omega)))
theorem Post.copyIn {m : Mta} {data : List UInt8}
    (h : P { s with mem := s.mem.write (mapped cfg env m) data }) :
    Post (copyIn cfg env s m data) P :=
  Post.ite (fun _ => Post.error) (fun _ => Post.ok h)

theorem Post.bind_copyIn {β : Type} {Q : β → Prop} {m : Mta} {data : List UInt8}
    {f : St → Except Fault β}
    (h : Post (f { s with mem := s.mem.write (mapped cfg env m) data }) Q) :
    Post (Xcp.copyIn cfg env s m data >>= f) Q :=
  Post.bind (Post.copyIn h)
theorem Post.bind_downloadCopy {β : Type} {Q : β → Prop} {p : Pdu} {off n : Nat}
    {f : St → Except Fault β}
    (h : ∀ data, p.slice off n = .ok data →
      Post (f { s with
        mem := s.mem.write (mapped cfg env s.mta) data, mta := s.mta.advance n }) Q) :
    Post (downloadCopy cfg env s p off n >>= f) Q := by
  apply Post.bind
  unfold downloadCopy
  apply Post.bindAny
  intro data hd
  apply Post.bind_copyIn
  apply Post.pure
  exact h data hd
theorem Post.downloadCopy {p : Pdu} {off n : Nat}
    (h : ∀ data, p.slice off n = .ok data →
      P { s with
        mem := s.mem.write (mapped cfg env s.mta) data, mta := s.mta.advance n }) :
    Post (downloadCopy cfg env s p off n) P := by
  unfold Xcp.downloadCopy
  apply Post.bindAny
  intro data hd
  apply Post.bind_copyIn
  apply Post.pure
  exact h data hd
theorem Post.bind_sendBytes {β : Type} {Q : β → Prop} {data : List UInt8}
    {f : St → Except Fault β}
    (h : data.length ≤ cfg.maxCto → Post (f (sendRaw cfg s data)) Q) :
    Post (Xcp.sendBytes cfg s data >>= f) Q :=
  Post.bind (Post.sendBytes h)

theorem Post.uploadFrame {k : Nat}
    (h : (0xFF :: s.mem.read (mapped cfg env s.mta) k).length ≤ cfg.maxCto →
      (cfg.asserts = true → k ≠ 0) →
      P (sendRaw cfg
        { s with
          mta := s.mta.advance k
          busy := if s.slaveBlk.remaining - k = 0 then false else s.busy
          slaveBlk :=
            ⟨if s.slaveBlk.remaining - k = 0 then false else s.slaveBlk.active, s.slaveBlk.remaining - k⟩ }
        (0xFF :: s.mem.read (mapped cfg env s.mta) k))) :
    Post (uploadFrame cfg env s k) P := by
  unfold Xcp.uploadFrame
  apply Post.copyGuard
  intro hk
  apply Post.bind_sendBytes
  intro hl
  have h := h hl hk
  apply Post.ite
  · intro hr
    apply Post.pure
    have hr : s.slaveBlk.remaining - k = 0 := hr
    simp only [hr, if_true] at h
    simp only [setSlaveActive, sendRaw, emit, hr]
    exact h
  · intro hr
    apply Post.pure
    have hr : ¬ s.slaveBlk.remaining - k = 0 := hr
    simp only [hr, if_false] at h
    exact h

theorem Post.upload {n : Nat}
    (h1 : cfg.slaveBlock = false → (cfg.asserts = true → n ≠ 0) →
      (0xFF :: s.mem.read (mapped cfg env s.mta) n).length ≤ cfg.maxCto →
      P (sendRaw cfg { s with mta := s.mta.advance n } (0xFF :: s.mem.read (mapped cfg env s.mta) n)))
    (h2 : cfg.slaveBlock = true → ∀ k, k = (if n ≤ cfg.maxCto - 1 then n else cfg.maxCto - 1) →
      (cfg.asserts = true → k ≠ 0) →
      (0xFF :: s.mem.read (mapped cfg env s.mta) k).length ≤ cfg.maxCto →
      P (sendRaw cfg
        { s with
          mta := s.mta.advance k
          busy := if n - k = 0 then false else true
          slaveBlk := ⟨if n - k = 0 then false else true, n - k⟩ }
        (0xFF :: s.mem.read (mapped cfg env s.mta) k))) :
    Post (upload cfg env s n) P := by
  unfold Xcp.upload
  apply Post.ite
  · intro hb
    unfold uploadSingleBlock
    apply Post.ite
    · intro hn; simp [setSlaveActive] at hn
    · intro _
      apply Post.ite
      · intro hl
        have hl : n ≤ cfg.maxCto - 1 := hl
        apply Post.uploadFrame
        intro h3 h4
        exact h2 hb _ (by rw [if_pos hl]; rfl) h4 h3
      · intro hl
        have hl : ¬ n ≤ cfg.maxCto - 1 := hl
        apply Post.uploadFrame
        intro h3 h4
        exact h2 hb _ (by rw [if_neg hl]) h4 h3
  · intro hb
    apply Post.copyGuard
    intro hn
    apply Post.sendBytes
    intro hl
    exact h1 (by simpa using hb) hn hl

end guards

/-- Decompose a `Post` goal along the structure of the program. -/
macro "post" : tactic => `(tactic| repeat' (with_reducible first
  | intro _
  | apply Post.ok
  | apply Post.pure
  | apply Post.error
  | apply Post.throw
  | apply Post.assertPgmIdle
  | apply Post.assertPgmActive
  | apply Post.assertDaqStopped
  | apply Post.assertUnlocked
  | apply Post.checkMem
  | apply Post.copyGuard
  | apply Post.upload
  | apply Post.uploadFrame
  | apply Post.sendBytes
  | apply Post.copyIn
  | apply Post.downloadCopy
  | apply Post.ite
  | apply Post.bind_copyIn
  | apply Post.bind_downloadCopy
  | apply Post.bind_sendBytes
  | apply Post.bindAny
  | (refine (?_ : Post _ _); split)))

/-! ### Sending changes only the log, the counter, the statistics and the buffer -/

section fields
variable (cfg : Cfg) (s : St) (k : Kind) (bs : List UInt8) (c : UInt8)

theorem emit_eq : emit cfg s k bs = { s with
    tx := s.tx ++ [⟨k, header cfg bs.length s.counter ++ bs⟩]
    counter := bumpCounter cfg s.counter
    stats := bumpSend cfg s.stats } := rfl

@[simp] theorem emit_connected : (emit cfg s k bs).connected = s.connected := rfl
@[simp] theorem emit_busy : (emit cfg s k bs).busy = s.busy := rfl
@[simp] theorem emit_daq : (emit cfg s k bs).daq = s.daq := rfl
@[simp] theorem emit_pgm : (emit cfg s k bs).pgm = s.pgm := rfl
@[simp] theorem emit_resProt : (emit cfg s k bs).resProt = s.resProt := rfl
@[simp] theorem emit_seedReq : (emit cfg s k bs).seedReq = s.seedReq := rfl
@[simp] theorem emit_mta : (emit cfg s k bs).mta = s.mta := rfl
@[simp] theorem emit_slaveBlk : (emit cfg s k bs).slaveBlk = s.slaveBlk := rfl
@[simp] theorem emit_masterBlk : (emit cfg s k bs).masterBlk = s.masterBlk := rfl
@[simp] theorem emit_ck : (emit cfg s k bs).ck = s.ck := rfl
@[simp] theorem emit_mem : (emit cfg s k bs).mem = s.mem := rfl
@[simp] theorem emit_ctoOut : (emit cfg s k bs).ctoOut = s.ctoOut := rfl

@[simp] theorem send8_connected : (send8 cfg s bs).connected = s.connected := rfl
@[simp] theorem send8_busy : (send8 cfg s bs).busy = s.busy := rfl
@[simp] theorem send8_daq : (send8 cfg s bs).daq = s.daq := rfl
@[simp] theorem send8_pgm : (send8 cfg s bs).pgm = s.pgm := rfl
@[simp] theorem send8_resProt : (send8 cfg s bs).resProt = s.resProt := rfl
@[simp] theorem send8_seedReq : (send8 cfg s bs).seedReq = s.seedReq := rfl
@[simp] theorem send8_mta : (send8 cfg s bs).mta = s.mta := rfl
@[simp] theorem send8_slaveBlk : (send8 cfg s bs).slaveBlk = s.slaveBlk := rfl
@[simp] theorem send8_masterBlk : (send8 cfg s bs).masterBlk = s.masterBlk := rfl
@[simp] theorem send8_ck : (send8 cfg s bs).ck = s.ck := rfl
@[simp] theorem send8_mem : (send8 cfg s bs).mem = s.mem := rfl

@[simp] theorem sendRaw_connected : (sendRaw cfg s bs).connected = s.connected := rfl
@[simp] theorem sendRaw_busy : (sendRaw cfg s bs).busy = s.busy := rfl
@[simp] theorem sendRaw_daq : (sendRaw cfg s bs).daq = s.daq := rfl
@[simp] theorem sendRaw_pgm : (sendRaw cfg s bs).pgm = s.pgm := rfl
@[simp] theorem sendRaw_resProt : (sendRaw cfg s bs).resProt = s.resProt := rfl
@[simp] theorem sendRaw_seedReq : (sendRaw cfg s bs).seedReq = s.seedReq := rfl
@[simp] theorem sendRaw_mta : (sendRaw cfg s bs).mta = s.mta := rfl
@[simp] theorem sendRaw_slaveBlk : (sendRaw cfg s bs).slaveBlk = s.slaveBlk := rfl
@[simp] theorem sendRaw_masterBlk : (sendRaw cfg s bs).masterBlk = s.masterBlk := rfl
@[simp] theorem sendRaw_ck : (sendRaw cfg s bs).ck = s.ck := rfl
@[simp] theorem sendRaw_mem : (sendRaw cfg s bs).mem = s.mem := rfl

@[simp] theorem positive_eq : positive cfg s = send8 cfg s [0xFF] := rfl
@[simp] theorem errorResp_eq : errorResp cfg s c = send8 cfg s [0xFE, c] := rfl
theorem sendResult_eq : sendResult cfg s c =
    send8 cfg s (if c = ERR_SUCCESS then [0xFF] else [0xFE, c]) := by
  unfold sendResult; split <;> rfl
@[simp] theorem sendResult_eq' : sendResult cfg s c =
    send8 cfg s (if c = ERR_SUCCESS then [0xFF] else [0xFE, c]) := sendResult_eq cfg s c

end fields

section ops
variable {cfg : Cfg} {env : Env} {s : St} {P : St → Prop}

theorem Post.tableEntry {p : Pdu} {c : Cmd}
    (h1 : cfg.supports c = true → Post (handler cfg env s p c) P)
    (h2 : cfg.supports c = false → P (send8 cfg s [0xFE, ERR_CMD_UNKNOWN])) :
    Post (tableEntry cfg env s p c) P :=
  Post.ite h1 (fun h => Post.ok (h2 (by simpa using h)))

theorem Post.dispatch {p : Pdu}
    (h1 : s.connected = true → s.busy = true → P (busyResponse cfg s))
    (h2 : ∀ b c, p.byte 0 = .ok b → cmdTable[0xFF - b.toNat]? = some c → s.connected = true →
      s.busy = false → Post (Xcp.tableEntry cfg env (bumpReceived cfg s) p c) P)
    (h3 : s.connected = false → p.byte 0 = .ok 0xFF → Post (connectRes cfg (bumpReceived cfg s)) P)
    (h4 : ∀ b, s.connected = false → p.byte 0 = .ok b → b ≠ 0xFF → P (bumpReceived cfg s)) :
    Post (dispatch cfg env s p) P := by
  unfold Xcp.dispatch
  apply Post.bindAny
  intro b hb
  apply Post.ite
  · intro hc
    apply Post.ite
    · intro hbusy; exact Post.pure (h1 hc hbusy)
    · intro hbusy
      cases ht : cmdTable[0xFF - b.toNat]? with
      | some c => exact h2 b c hb ht hc (by simpa using hbusy)
      | none => exact Post.throw
  · intro hc
    have hc : s.connected = false := by simpa using hc
    apply Post.ite
    · intro h; exact h3 hc (h ▸ hb)
    · intro h; exact Post.pure (h4 b hc hb h)

theorem Post.mainFunction {Q : St → Prop}
    (h1 : cfg.slaveBlock = true → Post (uploadSingleBlock cfg env s) Q)
    (h2 : cfg.slaveBlock = false → Q s)
    (h3 : ∀ s1, Q s1 → cfg.on .buildChecksum = true → cfg.chunked = true → P (checksumMain cfg s1))
    (h4 : ∀ s1, Q s1 → P s1) :
    Post (mainFunction cfg env s) P := by
  have h : Post (mainUpload cfg env s) Q :=
    Post.ite h1 (fun h => Post.ok (h2 (by simpa using h)))
  unfold Xcp.mainFunction
  apply Post.bindAny
  intro s1 hs1
  apply Post.pure
  unfold mainChecksum
  split
  · rename_i hb
    simp only [Bool.and_eq_true] at hb
    exact h3 s1 (h s1 hs1) hb.1 hb.2
  · exact h4 s1 (h s1 hs1)

end ops

/-- Induction over a history. -/
theorem run_induction {cfg : Cfg} {I : St → Prop}
    (hstep : ∀ env op s s', I s → step cfg env s op = .ok s' → I s')
    {s s' : St} {h : List (Env × Op)} (hs : I s) (hr : run cfg s h = .ok s') : I s' := by
  induction h generalizing s with
  | nil => cases hr; exact hs
  | cons x rest ih =>
    obtain ⟨env, op⟩ := x
    unfold run at hr
    cases h1 : step cfg env s op with
    | error e => rw [h1] at hr; cases hr
    | ok s1 =>
      rw [h1] at hr
      exact ih (hstep env op s s1 hs h1) hr

/-- The names of all handlers, for unfolding. -/
macro "unfold_handlers" : tactic => `(tactic| simp only [handler, connectRes, disconnectRes,
  getStatusRes, synchRes, getCommModeInfoRes, getIdRes, getSeedRes, unlockRes, setMtaRes, uploadRes,
  shortUploadRes, buildChecksumRes, transportLayerCmdRes, userCmdRes, downloadRes, downloadNextRes,
  downloadMaxRes, shortDownloadRes, modifyBitsRes, clearDaqListRes, setDaqPtrRes, writeDaqRes,
  setDaqListModeRes, getDaqListModeRes, startStopDaqListRes, startStopSynchRes, getDaqClockRes,
  getDaqProcessorInfoRes, getDaqResolutionInfoRes, getDaqListInfoRes, getDaqEventInfoRes, freeDaqRes,
  allocDaqRes, allocOdtRes, allocOdtEntryRes, programStartRes, programClearRes, programRes,
  programResetRes, getPgmProcessorInfoRes, getSectorInfoRes, programPrepareRes, programFormatRes,
  programStubRes, writeDaqMultipleRes, notImplemented, getSlaveIdRes, getDaqIdRes,
    startStopDaqListBody, startStopDaqListEnd, getDaqListInfoBody, startChecksum, positive, errorResp, sendResult_eq, checksumResponse])

end Xcp
