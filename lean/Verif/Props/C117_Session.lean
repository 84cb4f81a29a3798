import Verif.Proofs.Busy
import Verif.Proofs.Table
import Verif.Proofs.Answer
import Verif.Model.Example
/-
C117: What a session leaves behind for the next one.
-/
set_option autoImplicit false
namespace Xcp
namespace Spec
end Spec
open Spec

/-! ### Specification -/

/-- What a master receives: the transmit buffer a frame came from and the packet without the
length and counter fields in front of it. -/
def Spec.payloadsOf (cfg : Cfg) (l : List Frame) : List (Kind × List UInt8) :=
  l.map fun f => (f.kind, f.bytes.drop (cfg.lenSize + cfg.ctrSize))

/-- What can be observed of a history from state `s` on: the packets sent during it and the
application memory after it, or the fault. -/
def Spec.outcome (cfg : Cfg) (s : St) (h : List (Env × Op)) : Except Fault (List (Kind × List UInt8) × Mem) :=
  (run cfg s h).map fun s' => (Spec.payloadsOf cfg (s'.tx.drop s.tx.length), s'.mem)

/-- A slave at program start that has taken over from `s`: application memory, the MTA, the state of
a block download, the mode bits of the DAQ lists and the bytes in the transmit buffer.  It is
connected.  (A build without protection keeps the two protection variables and a build without data
acquisition keeps the variables of that, both of which it never looks at.) -/
def Spec.restarted (cfg : Cfg) (s : St) : St :=
  { St.init cfg s.mem with
    connected := true
    mta := s.mta
    masterBlk := s.masterBlk
    ctoOut := s.ctoOut
    resProt := if cfg.resourceProtection then (St.init cfg s.mem).resProt else s.resProt
    seedReq := if cfg.resourceProtection then 0 else s.seedReq
    daq := if cfg.daq then { (St.init cfg s.mem).daq with mode := s.daq.mode } else s.daq }

/-! ### States that cannot be told apart -/

/-- The parts of the state that do not matter, or matter only partly. -/
structure Wire where
  tx : List Frame
  counter : Nat
  stats : Stats
  ctoOut : List UInt8
  blk : BlockMode
  mblk : BlockMode
  ck : CkJob
  pgm : PgmState

/-- The same state with other such parts. -/
@[reducible] def St.put (s : St) (w : Wire) : St :=
  { s with tx := w.tx, counter := w.counter, stats := w.stats, ctoOut := w.ctoOut, slaveBlk := w.blk, masterBlk := w.mblk, ck := w.ck, pgm := w.pgm }

/-- Two block transfers: both inactive, or both with the same number of bytes to go. -/
structure BlkAlike (a b : BlockMode) : Prop where
  act : b.active = a.active
  rem : a.active = true → b.remaining = a.remaining

/-- Two checksum jobs that do the same from now on. -/
structure CkAlike (a b : CkJob) : Prop where
  state : b.state = a.state
  addr : a.state ≠ .idle → b.addr = a.addr
  size : a.state ≠ .idle → b.size = a.size
  interim : a.state ≠ .idle → a.state ≠ .initial → b.interim = a.interim

/-- Parts that may replace those of a state without a difference for the master. -/
structure WireOk (cfg : Cfg) (τ σ : List Frame) (tx : List Frame) (out : List UInt8) (blk mblk : BlockMode) (ck : CkJob)
    (pgm : PgmState) (w : Wire) : Prop where
  buf : cfg.maxDlc = true → w.ctoOut = out
  said : ∃ l l', tx = τ ++ l ∧ w.tx = σ ++ l' ∧ Spec.payloadsOf cfg l = Spec.payloadsOf cfg l'
  blk : BlkAlike blk w.blk
  mblk : BlkAlike mblk w.mblk
  ck : CkAlike ck w.ck
  pgm : (w.pgm = .active) = (pgm = .active)

/-- States that cannot be told apart, after logs `τ` and `σ`. -/
def Twin (cfg : Cfg) (τ σ : List Frame) (s t : St) : Prop :=
  ∃ w, t = s.put w ∧ WireOk cfg τ σ s.tx s.ctoOut s.slaveBlk s.masterBlk s.ck s.pgm w

/-- Same fault, or results that cannot be told apart. -/
def Twins (cfg : Cfg) (τ σ : List Frame) (r r' : R) : Prop :=
  (∃ e, r = .error e ∧ r' = .error e) ∨ ∃ s t, r = .ok s ∧ r' = .ok t ∧ Twin cfg τ σ s t

section
variable {cfg : Cfg} {τ σ : List Frame}

theorem Twins.ok {s t : St} (h : Twin cfg τ σ s t) : Twins cfg τ σ (.ok s) (.ok t) := .inr ⟨_, _, rfl, rfl, h⟩
theorem Twins.pure {s t : St} (h : Twin cfg τ σ s t) : Twins cfg τ σ (pure s) (pure t) := .inr ⟨_, _, rfl, rfl, h⟩
theorem Twins.error (e : Fault) : Twins cfg τ σ (.error e) (.error e) := .inl ⟨e, rfl, rfl⟩

theorem Twins.ite {c : Prop} {d d' : Decidable c} {a b a' b' : R} (h1 : c → Twins cfg τ σ a a') (h2 : ¬ c → Twins cfg τ σ b b') :
    Twins cfg τ σ (@ite _ c d a b) (@ite _ c d' a' b') := by
  by_cases hc : c
  · rw [if_pos hc, if_pos hc]; exact h1 hc
  · rw [if_neg hc, if_neg hc]; exact h2 hc

theorem Twins.bindSame {α : Type} (x : Except Fault α) {f g : α → R} (h : ∀ a, Twins cfg τ σ (f a) (g a)) :
    Twins cfg τ σ (x >>= f) (x >>= g) := by
  cases x with
  | error e => exact .inl ⟨e, rfl, rfl⟩
  | ok a => exact h a

theorem Twins.bind {r r' : R} {f g : St → R} (h : Twins cfg τ σ r r') (hf : ∀ s t, Twin cfg τ σ s t → Twins cfg τ σ (f s) (g t)) :
    Twins cfg τ σ (r >>= f) (r' >>= g) := by
  rcases h with ⟨e, rfl, rfl⟩ | ⟨s, t, rfl, rfl, h⟩
  · exact .inl ⟨e, rfl, rfl⟩
  · exact hf s t h

theorem BlkAlike.refl (a : BlockMode) : BlkAlike a a := ⟨rfl, fun _ => rfl⟩
theorem BlkAlike.mk' {a b : BlockMode} (n : Bool) (h : a.remaining = b.remaining) : BlkAlike { a with active := n } { b with active := n } :=
  ⟨rfl, fun _ => h.symm⟩
theorem BlkAlike.off (a b : BlockMode) : BlkAlike { a with active := false } { b with active := false } :=
  ⟨rfl, fun h => by cases h⟩
theorem CkAlike.refl (a : CkJob) : CkAlike a a := ⟨rfl, fun _ => rfl, fun _ => rfl, fun _ _ => rfl⟩

/-! ### Sending -/

theorem WireOk.emit {s : St} {w : Wire} (h : WireOk cfg τ σ s.tx s.ctoOut s.slaveBlk s.masterBlk s.ck s.pgm w) (k : Kind) (p : List UInt8) :
    Twin cfg τ σ (emit cfg s k p) (emit cfg (s.put w) k p) := by
  refine ⟨⟨_, bumpCounter cfg w.counter, bumpSend cfg w.stats, w.ctoOut, w.blk, w.mblk, w.ck, w.pgm⟩, rfl, h.buf, ?_, h.blk, h.mblk, h.ck, h.pgm⟩
  obtain ⟨l, l', e1, e2, e3⟩ := h.said
  refine ⟨l ++ [⟨k, header cfg p.length s.counter ++ p⟩], l' ++ [⟨k, header cfg p.length w.counter ++ p⟩], ?_, ?_, ?_⟩
  · show s.tx ++ _ = _
    rw [e1, List.append_assoc]
  · show w.tx ++ _ = _
    rw [e2, List.append_assoc]
  · have hl : ∀ c, (header cfg p.length c).length = cfg.lenSize + cfg.ctrSize := by
      intro c; simp [header, leBytes_length]
    unfold Spec.payloadsOf at e3 ⊢
    rw [List.map_append, List.map_append, e3]
    simp only [List.map_cons, List.map_nil]
    rw [← hl s.counter, List.drop_left, hl s.counter, ← hl w.counter, List.drop_left]

theorem Twin.emit {s t : St} (h : Twin cfg τ σ s t) (k : Kind) (p : List UInt8) :
    Twin cfg τ σ (emit cfg s k p) (emit cfg t k p) := by
  obtain ⟨w, rfl, h⟩ := h
  exact h.emit k p

/-- Writing to the buffer. -/
theorem Twin.out {s t : St} (h : Twin cfg τ σ s t) (o o' : List UInt8) (ho : cfg.maxDlc = true → o' = o) :
    Twin cfg τ σ { s with ctoOut := o } { t with ctoOut := o' } := by
  obtain ⟨w, rfl, h⟩ := h
  exact ⟨{ w with ctoOut := o' }, rfl, ho, h.said, h.blk, h.mblk, h.ck, h.pgm⟩

theorem Twin.buf {s t : St} (h : Twin cfg τ σ s t) (hm : cfg.maxDlc = true) : t.ctoOut = s.ctoOut := by
  obtain ⟨w, rfl, h⟩ := h
  exact h.buf hm

theorem overlay_take (a b : List UInt8) : (overlay a b).take b.length = b := by
  unfold overlay
  rw [List.take_left]

theorem Twin.send8 {s t : St} (h : Twin cfg τ σ s t) (bs : List UInt8) (hb : bs.length ≤ 8) :
    Twin cfg τ σ (send8 cfg s bs) (send8 cfg t bs) := by
  unfold Xcp.send8
  cases hm : cfg.maxDlc with
  | true =>
    simp only [h.buf hm, if_true]
    exact (h.out _ _ fun _ => rfl).emit _ _
  | false =>
    have hn : ¬ cfg.maxDlc = true := by rw [hm]; decide
    have e : (bs ++ List.replicate 8 0).take bs.length = bs := List.take_left
    simp only [Bool.false_eq_true, if_false, hb, if_true, e]
    rw [overlay_take, overlay_take]
    exact (h.out _ _ fun x => absurd x hn).emit _ _

theorem Twin.sendRaw {s t : St} (h : Twin cfg τ σ s t) (bs : List UInt8) :
    Twin cfg τ σ (sendRaw cfg s bs) (sendRaw cfg t bs) := by
  unfold Xcp.sendRaw
  cases hm : cfg.maxDlc with
  | true =>
    simp only [h.buf hm, if_true]
    exact (h.out _ _ fun _ => rfl).emit _ _
  | false =>
    have hn : ¬ cfg.maxDlc = true := by rw [hm]; decide
    simp only [Bool.false_eq_true, if_false]
    rw [overlay_take, overlay_take]
    exact (h.out _ _ fun x => absurd x hn).emit _ _

theorem Twins.sendBytes {s t : St} (h : Twin cfg τ σ s t) (bs : List UInt8) :
    Twins cfg τ σ (sendBytes cfg s bs) (sendBytes cfg t bs) := by
  unfold Xcp.sendBytes
  exact Twins.ite (fun _ => Twins.error _) fun _ => Twins.ok (h.sendRaw bs)

theorem Twin.disconnect {s t : St} (h : Twin cfg τ σ s t) : Twin cfg τ σ (apiDisconnect cfg s) (apiDisconnect cfg t) := by
  obtain ⟨w, rfl, h⟩ := h
  unfold apiDisconnect defaultResourceProtection
  cases cfg.resourceProtection <;> cases cfg.daq <;> exact ⟨w, rfl, h⟩

theorem Twin.received {s t : St} (h : Twin cfg τ σ s t) : Twin cfg τ σ (bumpReceived cfg s) (bumpReceived cfg t) := by
  obtain ⟨w, rfl, h⟩ := h
  unfold bumpReceived
  cases cfg.statistics
  · exact ⟨w, rfl, h⟩
  · exact ⟨{ w with stats := _ }, rfl, h.buf, h.said, h.blk, h.mblk, h.ck, h.pgm⟩

theorem Twin.busyAnswer {s t : St} (h : Twin cfg τ σ s t) : Twin cfg τ σ (busyResponse cfg s) (busyResponse cfg t) := by
  unfold busyResponse errorResp
  apply Twin.send8 _ _ (by simp)
  obtain ⟨w, rfl, h⟩ := h
  cases cfg.statistics
  · exact ⟨w, rfl, h⟩
  · exact ⟨{ w with stats := _ }, rfl, h.buf, h.said, h.blk, h.mblk, h.ck, h.pgm⟩

/-! ### Uploads, downloads, checksums, events -/

theorem Twin.blk {s t : St} (h : Twin cfg τ σ s t) : BlkAlike s.slaveBlk t.slaveBlk := by
  obtain ⟨w, rfl, h⟩ := h
  exact h.blk

theorem Twin.uploadEnd {s t : St} (h : Twin cfg τ σ s t) : Twin cfg τ σ (setSlaveActive s false) (setSlaveActive t false) := by
  obtain ⟨w, rfl, h⟩ := h
  exact ⟨{ w with blk := { w.blk with active := false } }, rfl, h.buf, h.said, ⟨rfl, fun hx => by cases hx⟩, h.mblk, h.ck, h.pgm⟩

theorem Twins.uploadFrame (env : Env) {s t : St} (h : Twin cfg τ σ s t) (n : Nat) (ha : s.slaveBlk.active = true) :
    Twins cfg τ σ (uploadFrame cfg env s n) (uploadFrame cfg env t n) := by
  obtain ⟨w, rfl, h⟩ := h
  have hr : w.blk.remaining = s.slaveBlk.remaining := h.blk.rem ha
  unfold Xcp.uploadFrame copyGuard Xcp.sendBytes
  refine Twins.ite (fun _ => Twins.error _) fun _ => ?_
  by_cases hc : cfg.maxCto < (255 :: s.mem.read (mapped cfg env s.mta) n).length
  · rw [if_pos hc, if_pos hc]
    exact Twins.error _
  rw [if_neg hc, if_neg hc]
  simp only [ok_bind, hr, sendRaw_slaveBlk]
  have hT : Twin cfg τ σ { s with mta := s.mta.advance n, slaveBlk := { s.slaveBlk with remaining := s.slaveBlk.remaining - n } }
      { s.put w with mta := s.mta.advance n, slaveBlk := { w.blk with remaining := s.slaveBlk.remaining - n } } :=
    ⟨{ w with blk := { w.blk with remaining := s.slaveBlk.remaining - n } }, rfl, h.buf, h.said, ⟨h.blk.act, fun _ => rfl⟩, h.mblk, h.ck, h.pgm⟩
  refine Twins.ite (fun _ => ?_) fun _ => ?_
  · exact Twins.pure (hT.sendRaw _).uploadEnd
  · exact Twins.pure (hT.sendRaw _)

theorem Twins.uploadSingleBlock (env : Env) {s t : St} (h : Twin cfg τ σ s t) :
    Twins cfg τ σ (uploadSingleBlock cfg env s) (uploadSingleBlock cfg env t) := by
  unfold Xcp.uploadSingleBlock
  rw [h.blk.act]
  by_cases ha : s.slaveBlk.active = true
  · simp only [ha, h.blk.rem ha, not_true_eq_false, if_false]
    exact Twins.ite (fun _ => Twins.uploadFrame env h _ ha) fun _ => Twins.uploadFrame env h _ ha
  · rw [if_pos ha, if_pos ha]
    exact Twins.ok h

theorem Twins.upload (env : Env) {s t : St} (h : Twin cfg τ σ s t) (n : Nat) :
    Twins cfg τ σ (upload cfg env s n) (upload cfg env t n) := by
  obtain ⟨w, rfl, h⟩ := h
  unfold Xcp.upload copyGuard
  refine Twins.ite (fun _ => ?_) fun _ => Twins.ite (fun _ => Twins.error _) fun _ => ?_
  · apply Twins.uploadSingleBlock
    exact ⟨{ w with blk := ⟨true, n⟩ }, rfl, h.buf, h.said, ⟨rfl, fun _ => rfl⟩, h.mblk, h.ck, h.pgm⟩
  · exact Twins.sendBytes (s := { s with mta := s.mta.advance n }) ⟨w, rfl, h⟩ _

theorem Twins.copyIn (env : Env) {s t : St} (h : Twin cfg τ σ s t) (m : Mta) (d : List UInt8) :
    Twins cfg τ σ (copyIn cfg env s m d) (copyIn cfg env t m d) := by
  obtain ⟨w, rfl, h⟩ := h
  unfold Xcp.copyIn
  exact Twins.ite (fun _ => Twins.error _) fun _ => Twins.ok ⟨w, rfl, h⟩

theorem Twins.downloadCopy (env : Env) {s t : St} (h : Twin cfg τ σ s t) (p : Pdu) (a n : Nat) :
    Twins cfg τ σ (downloadCopy cfg env s p a n) (downloadCopy cfg env t p a n) := by
  have hm : t.mta = s.mta := by obtain ⟨w, rfl, h⟩ := h; rfl
  unfold Xcp.downloadCopy
  rw [hm]
  refine Twins.bindSame _ fun d => Twins.bind (Twins.copyIn env h _ d) fun s1 t1 h1 => ?_
  obtain ⟨w, rfl, h⟩ := h1
  exact Twins.pure ⟨w, rfl, h⟩

theorem Twin.setCk {s t : St} (h : Twin cfg τ σ s t) {a b : CkJob} (hc : CkAlike a b) :
    Twin cfg τ σ { s with ck := a } { t with ck := b } := by
  obtain ⟨w, rfl, h⟩ := h
  exact ⟨{ w with ck := b }, rfl, h.buf, h.said, h.blk, h.mblk, hc, h.pgm⟩

theorem Twin.checksumMain {s t : St} (h : Twin cfg τ σ s t) : Twin cfg τ σ (checksumMain cfg s) (checksumMain cfg t) := by
  obtain ⟨w, rfl, h⟩ := h
  have hs := h.ck.state
  unfold Xcp.checksumMain
  simp only [hs]
  cases hc : s.ck.state with
  | idle => exact ⟨w, rfl, h⟩
  | initial =>
    have ha := h.ck.addr (by rw [hc]; decide)
    have hz := h.ck.size (by rw [hc]; decide)
    simp only [checksumChunk, ha, hz]
    exact Twin.setCk ⟨w, rfl, h⟩ (CkAlike.refl _)
  | remaining =>
    have ha := h.ck.addr (by rw [hc]; decide)
    have hz := h.ck.size (by rw [hc]; decide)
    have hi := h.ck.interim (by rw [hc]; decide) (by rw [hc]; decide)
    simp only [checksumChunk, ha, hz, hi]
    exact Twin.setCk ⟨w, rfl, h⟩ (CkAlike.refl _)
  | final =>
    have ha := h.ck.addr (by rw [hc]; decide)
    have hz := h.ck.size (by rw [hc]; decide)
    have hi := h.ck.interim (by rw [hc]; decide) (by rw [hc]; decide)
    simp only [checksumFinish, checksumResponse, ha, hz, hi]
    have hT : Twin cfg τ σ { s with busy := false } { s.put w with busy := false } := ⟨w, rfl, h⟩
    obtain ⟨w', e', h'⟩ := hT.send8 ([0xFF, cfg.ckMethod.code, 0, 0] ++
      leBytes 4 (calcChecksum cfg.ckMethod (s.mem.read s.ck.addr s.ck.size) s.ck.interim false)) (by simp [leBytes_length])
    rw [e']
    exact ⟨{ w' with ck := _ }, rfl, h'.buf, h'.said, h'.blk, h'.mblk, ⟨rfl, fun x => absurd rfl x, fun x => absurd rfl x, fun x => absurd rfl x⟩, h'.pgm⟩

theorem Twin.daq {s t : St} (h : Twin cfg τ σ s t) (d : Daq) : Twin cfg τ σ { s with daq := d } { t with daq := d } := by
  obtain ⟨w, rfl, h⟩ := h
  exact ⟨w, rfl, h⟩

theorem Twins.transmit (n : Nat) : ∀ {s t : St}, Twin cfg τ σ s t → Twins cfg τ σ (transmit cfg n s) (transmit cfg n t) := by
  induction n with
  | zero => intro s t h; exact Twins.ok h
  | succ n ih =>
    intro s t h
    have hd : t.daq = s.daq := by obtain ⟨w, rfl, h⟩ := h; rfl
    unfold Xcp.transmit
    simp only [hd]
    refine Twins.ite (fun _ => Twins.ok h) fun _ => Twins.bindSame _ fun a => ih ?_
    exact (h.daq _).emit _ _

theorem Twins.triggerEvent (env : Env) {s t : St} (h : Twin cfg τ σ s t) (ev : Nat) :
    Twins cfg τ σ (triggerEvent cfg env s ev) (triggerEvent cfg env t ev) := by
  obtain ⟨w, rfl, h⟩ := h
  have h0 : Twin cfg τ σ s (s.put w) := ⟨w, rfl, h⟩
  unfold Xcp.triggerEvent
  refine Twins.ite (fun _ => Twins.ok h0) fun _ => Twins.ite (fun _ => Twins.ok h0) fun _ => Twins.bindSame _ fun a =>
    Twins.ite (fun _ => Twins.ok h0) fun _ => Twins.bindSame _ fun l => ?_
  refine Twins.bindSame (List.foldlM _ _ _) fun q => Twins.transmit _ (h0.daq _)

/-! ### Commands -/

theorem answer_len8 (c : UInt8) : (if c = ERR_SUCCESS then [255] else [254, c]).length ≤ 8 := by
  split <;> exact Nat.le_of_ble_eq_true rfl

theorem Twin.result {s t : St} (h : Twin cfg τ σ s t) (c : UInt8) : Twin cfg τ σ (sendResult cfg s c) (sendResult cfg t c) := by
  rw [sendResult_eq, sendResult_eq]
  exact h.send8 _ (answer_len8 c)

theorem Twin.same {s t : St} (h : Twin cfg τ σ s t) :
    t.connected = s.connected ∧ t.busy = s.busy ∧ t.daq = s.daq ∧ t.resProt = s.resProt ∧ t.seedReq = s.seedReq ∧ t.mta = s.mta ∧
      t.mem = s.mem ∧ (t.pgm = .active) = (s.pgm = .active) := by
  obtain ⟨w, rfl, h⟩ := h
  exact ⟨rfl, rfl, rfl, rfl, rfl, rfl, rfl, h.pgm⟩

theorem Twins.pgmIdle {s t : St} (h : Twin cfg τ σ s t) {k k' : R} (hk : Twins cfg τ σ k k') :
    Twins cfg τ σ (assertPgmIdle cfg s k) (assertPgmIdle cfg t k') := by
  unfold assertPgmIdle
  simp only [h.same.2.2.2.2.2.2.2]
  exact Twins.ite (fun _ => Twins.ok (h.result _)) fun _ => hk

theorem Twins.pgmActive {s t : St} (h : Twin cfg τ σ s t) {k k' : R} (hk : Twins cfg τ σ k k') :
    Twins cfg τ σ (assertPgmActive cfg s k) (assertPgmActive cfg t k') := by
  unfold assertPgmActive
  simp only [ne_eq, h.same.2.2.2.2.2.2.2]
  exact Twins.ite (fun _ => Twins.ok (h.result _)) fun _ => hk

theorem Twins.daqStopped {s t : St} (h : Twin cfg τ σ s t) {k k' : R} (hk : Twins cfg τ σ k k') :
    Twins cfg τ σ (assertDaqStopped cfg s k) (assertDaqStopped cfg t k') := by
  unfold assertDaqStopped
  simp only [h.same.2.2.1]
  exact Twins.ite (fun _ => Twins.ok (h.result _)) fun _ => hk

theorem Twins.unlocked {s t : St} (h : Twin cfg τ σ s t) (r : UInt8) {k k' : R} (hk : Twins cfg τ σ k k') :
    Twins cfg τ σ (assertUnlocked cfg s r k) (assertUnlocked cfg t r k') := by
  unfold assertUnlocked isProtected
  simp only [h.same.2.2.2.1]
  exact Twins.ite (fun _ => Twins.ok (h.result _)) fun _ => hk

theorem Twins.checkMem (env : Env) {s t : St} (h : Twin cfg τ σ s t) (m : Mta) (n : Nat) (a : Access) (b : Bool) {k k' : R}
    (hk : Twins cfg τ σ k k') : Twins cfg τ σ (checkMem cfg env s m n a b k) (checkMem cfg env t m n a b k') := by
  unfold Xcp.checkMem
  exact Twins.ite (fun _ => Twins.ok (h.result _)) fun _ => hk

theorem Twins.copyGuard (n : Nat) {k k' : R} (hk : Twins cfg τ σ k k') : Twins cfg τ σ (copyGuard cfg n k) (copyGuard cfg n k') := by
  unfold Xcp.copyGuard
  exact Twins.ite (fun _ => Twins.error _) fun _ => hk

theorem Twins.listEnd {s t : St} (h : Twin cfg τ σ s t) (n : Nat) :
    Twins cfg τ σ (startStopDaqListEnd cfg s n) (startStopDaqListEnd cfg t n) := by
  unfold startStopDaqListEnd
  rw [h.same.2.2.1]
  exact Twins.bindSame _ fun a => Twins.pure (h.send8 _ (by simp))

theorem Twins.listBody {s t : St} (h : Twin cfg τ σ s t) (m : UInt8) (n : Nat) :
    Twins cfg τ σ (startStopDaqListBody cfg s m n) (startStopDaqListBody cfg t m n) := by
  unfold startStopDaqListBody
  rw [h.same.2.2.1]
  exact Twins.ite (fun _ => Twins.listEnd h n) fun _ => Twins.ite (fun _ => Twins.listEnd h n) fun _ =>
    Twins.ite (fun _ => Twins.listEnd (h.daq _) n) fun _ => Twins.ok (h.send8 _ (by simp))

theorem Twins.infoBody {s t : St} (h : Twin cfg τ σ s t) (n : Nat) :
    Twins cfg τ σ (getDaqListInfoBody cfg s n) (getDaqListInfoBody cfg t n) := by
  unfold getDaqListInfoBody
  rw [h.same.2.2.1]
  exact Twins.bindSame _ fun a => Twins.pure (h.send8 _ (by simp))

theorem Twins.startChecksum {s t : St} (h : Twin cfg τ σ s t) (a : UInt32) (n : Nat) :
    Twins cfg τ σ (startChecksum s a n) (startChecksum t a n) := by
  obtain ⟨w, rfl, h⟩ := h
  unfold Xcp.startChecksum
  simp only [h.ck.state]
  exact Twins.ite (fun _ => Twins.ok ⟨w, rfl, h⟩) fun _ => Twins.ok ⟨⟨w.tx, w.counter, w.stats, w.ctoOut, w.blk, w.mblk, ⟨.initial, a, n, w.ck.interim⟩, w.pgm⟩, rfl,
    h.buf, h.said, h.blk, h.mblk, ⟨rfl, fun _ => rfl, fun _ => rfl, fun _ x => absurd rfl x⟩, h.pgm⟩

theorem Twins.handler (env : Env) {s t : St} (h : Twin cfg τ σ s t) (p : Pdu) (c : Cmd) :
    Twins cfg τ σ (handler cfg env s p c) (handler cfg env t p c) := by
  obtain ⟨w, rfl, h⟩ := h
  have h0 : Twin cfg τ σ s (s.put w) := ⟨w, rfl, h⟩
  have hp := h.pgm
  cases c
  case getId =>
    show Twins cfg τ σ (getIdRes _ _ _ _) (getIdRes _ _ _ _)
    unfold getIdRes
    refine Twins.bindSame _ fun ty => ?_
    cases getIdLookup cfg env ty with
    | none => exact Twins.pure (h0.send8 _ (by simp [leBytes_length]))
    | some a => exact Twins.pure (Twin.send8 (s := { s with mta := ⟨0, a.1⟩ }) ⟨w, rfl, h⟩ _ (by simp [leBytes_length]))
  case getSeed =>
    show Twins cfg τ σ (getSeedRes _ _ _ _) (getSeedRes _ _ _ _)
    unfold getSeedRes isProtected
    refine Twins.bindSame _ fun m => Twins.bindSame _ fun r => Twins.pgmIdle h0 <| Twins.ite (fun _ => Twins.ok (h0.send8 _ (by simp))) fun _ =>
      Twins.ite (fun _ => Twins.copyGuard _ ?_) fun _ => ?_
    all_goals exact Twins.sendBytes (s := { s with seedReq := s.seedReq ||| r }) ⟨w, rfl, h⟩ _
  case unlock =>
    show Twins cfg τ σ (unlockRes _ _ _ _) (unlockRes _ _ _ _)
    unfold unlockRes
    refine Twins.bindSame _ fun m => Twins.pgmIdle h0 <| Twins.ite (fun _ => Twins.ok (h0.send8 _ (by simp))) fun _ =>
      Twins.ite (fun _ => Twins.ok ?_) fun _ => Twins.ok ?_
    · obtain ⟨w', e', h'⟩ := Twin.send8 (s := { s with resProt := s.resProt &&& ~~~s.seedReq }) (t := { s.put w with resProt := s.resProt &&& ~~~s.seedReq })
        ⟨w, rfl, h⟩ [0xFF, s.resProt &&& ~~~s.seedReq] (by simp)
      exact ⟨w', congrArg (fun t : St => { t with seedReq := 0 }) e', h'⟩
    · obtain ⟨w', e', h'⟩ := (h0.send8 [0xFE, ERR_ACCESS_LOCKED] (by simp)).disconnect
      exact ⟨w', congrArg (fun t : St => { t with seedReq := 0 }) e', h'⟩
  case transportLayerCmd =>
    show Twins cfg τ σ (transportLayerCmdRes _ _ _) (transportLayerCmdRes _ _ _)
    unfold transportLayerCmdRes
    refine Twins.pgmIdle h0 <| Twins.bindSame _ fun m => Twins.ite (fun _ => ?_) fun _ => Twins.ite (fun _ => ?_) fun _ =>
      Twins.ite (fun _ => Twins.pure h0) fun _ => Twins.pure (h0.send8 _ (by simp))
    · unfold getSlaveIdRes
      exact Twins.bindSame _ fun _ => Twins.bindSame _ fun _ => Twins.pure (h0.send8 _ (by simp [leBytes_length]))
    · unfold getDaqIdRes
      refine Twins.bindSame _ fun i => ?_
      cases cfg.canDaqIds[i.toNat]? with
      | none => exact Twins.pure (h0.send8 _ (by simp))
      | some v => exact Twins.pure (h0.send8 _ (by simp [leBytes_length]))
  case download =>
    show Twins cfg τ σ (downloadRes _ _ _ _) (downloadRes _ _ _ _)
    unfold downloadRes
    have hT : Twin cfg τ σ { s with masterBlk := { s.masterBlk with active := false } } { s.put w with masterBlk := { w.mblk with active := false } } :=
      ⟨{ w with mblk := { w.mblk with active := false } }, rfl, h.buf, h.said, h.blk, ⟨rfl, fun hx => by cases hx⟩, h.ck, h.pgm⟩
    refine Twins.bindSame _ fun n => Twins.pgmIdle h0 <| Twins.checkMem env h0 _ _ _ _ <| Twins.ite (fun _ => ?_) fun _ => ?_
    · refine Twins.ite (fun _ => Twins.ok (hT.send8 _ (by simp))) fun _ => Twins.ite (fun _ => ?_) fun _ => ?_
      · apply Twins.downloadCopy
        exact ⟨{ w with mblk := ⟨true, n.toNat - cfg.dlPayload⟩ }, rfl, h.buf, h.said, h.blk, ⟨rfl, fun _ => rfl⟩, h.ck, h.pgm⟩
      · exact Twins.bind (Twins.downloadCopy env hT _ _ _) fun s1 t1 h1 => Twins.pure (h1.send8 _ (by simp))
    · exact Twins.ite (fun _ => Twins.ok (h0.send8 _ (by simp))) fun _ =>
        Twins.bind (Twins.downloadCopy env h0 _ _ _) fun s1 t1 h1 => Twins.pure (h1.send8 _ (by simp))
  case downloadNext =>
    show Twins cfg τ σ (downloadNextRes _ _ _ _) (downloadNextRes _ _ _ _)
    unfold downloadNextRes
    have ha : w.mblk.active = s.masterBlk.active := h.mblk.act
    refine Twins.bindSame _ fun n => Twins.pgmIdle h0 ?_
    simp only [ha]
    refine Twins.ite (fun _ => Twins.ok (h0.send8 _ (by simp))) fun hn => ?_
    have ha' : s.masterBlk.active = true := by simpa using hn
    simp only [h.mblk.rem ha']
    refine Twins.bind (Twins.downloadCopy env h0 _ _ _) fun s1 t1 h1 => Twins.ite (fun _ => ?_) fun _ => ?_
    all_goals obtain ⟨w1, rfl, h1⟩ := h1
    · refine Twins.pure (Twin.send8 ?_ _ (by simp))
      exact ⟨{ w1 with mblk := ⟨false, 0⟩ }, rfl, h1.buf, h1.said, h1.blk, BlkAlike.refl _, h1.ck, h1.pgm⟩
    · refine Twins.pure ?_
      exact ⟨{ w1 with mblk := ⟨s.masterBlk.active, (s.masterBlk.remaining + 256 - min n.toNat cfg.dlPayload) % 256⟩ }, rfl, h1.buf, h1.said, h1.blk, BlkAlike.refl _, h1.ck, h1.pgm⟩
  case downloadMax =>
    show Twins cfg τ σ (downloadMaxRes _ _ _ _) (downloadMaxRes _ _ _ _)
    unfold downloadMaxRes
    exact Twins.pgmIdle h0 <| Twins.bind (Twins.downloadCopy env h0 _ _ _) fun s1 t1 h1 => Twins.pure (h1.send8 _ (by simp))
  case shortDownload =>
    show Twins cfg τ σ (shortDownloadRes _ _ _ _) (shortDownloadRes _ _ _ _)
    unfold shortDownloadRes
    refine Twins.bindSame _ fun n => Twins.bindSame _ fun e => Twins.bindSame _ fun a => Twins.pgmIdle h0 <| Twins.checkMem env h0 _ _ _ _ <|
      Twins.ite (fun _ => Twins.ok (h0.send8 _ (by simp))) fun _ => Twins.bindSame _ fun d => Twins.bind (Twins.copyIn env h0 _ _) fun s1 t1 h1 => ?_
    obtain ⟨w1, rfl, h1⟩ := h1
    exact Twins.pure (Twin.send8 (s := { s1 with mta := s1.mta.advance n.toNat }) ⟨w1, rfl, h1⟩ _ (by simp))
  case buildChecksum =>
    show Twins cfg τ σ (buildChecksumRes _ _ _ _) (buildChecksumRes _ _ _ _)
    unfold buildChecksumRes
    exact Twins.bindSame _ fun n => Twins.pgmIdle h0 <| Twins.checkMem env h0 _ _ _ _ <|
      Twins.ite (fun _ => Twins.ok (h0.send8 _ (by simp [leBytes_length]))) fun _ => Twins.ite (fun _ => Twins.startChecksum h0 _ _) fun _ =>
        Twins.ok (h0.send8 _ (by simp [leBytes_length]))
  case startStopDaqList =>
    show Twins cfg τ σ (startStopDaqListRes _ _ _) (startStopDaqListRes _ _ _)
    unfold startStopDaqListRes
    exact Twins.bindSame _ fun m => Twins.bindSame _ fun n => Twins.pgmIdle h0 <| Twins.unlocked h0 _ <|
      Twins.ite (fun _ => Twins.listBody (h0.send8 _ (by simp)) _ _) fun _ => Twins.listBody h0 _ _
  case getDaqListInfo =>
    show Twins cfg τ σ (getDaqListInfoRes _ _ _) (getDaqListInfoRes _ _ _)
    unfold getDaqListInfoRes
    exact Twins.bindSame _ fun n => Twins.pgmIdle h0 <| Twins.unlocked h0 _ <|
      Twins.ite (fun _ => Twins.infoBody (h0.send8 _ (by simp)) _) fun _ => Twins.infoBody h0 _
  case getDaqEventInfo =>
    show Twins cfg τ σ (getDaqEventInfoRes _ _ _) (getDaqEventInfoRes _ _ _)
    unfold getDaqEventInfoRes
    refine Twins.bindSame _ fun n => Twins.unlocked h0 _ <| Twins.ite (fun _ => Twins.ok (h0.result _)) fun _ => ?_
    generalize cfg.events n = e
    dsimp only
    cases e.name with
    | none => exact Twins.ok (h0.send8 _ (by simp))
    | some a =>
      exact Twins.ite (fun _ => Twins.ok (h0.send8 _ (by simp))) fun _ =>
        Twins.ok (Twin.send8 (s := { s with mta := ⟨0, a⟩ }) ⟨w, rfl, h⟩ _ (by simp))
  case programStart =>
    show Twins cfg τ σ (programStartRes _ _) (programStartRes _ _)
    unfold programStartRes
    refine Twins.unlocked h0 _ <| Twins.daqStopped h0 <| Twins.ok (Twin.send8 ?_ _ (by simp))
    exact ⟨{ w with pgm := .active }, rfl, h.buf, h.said, h.blk, h.mblk, h.ck, rfl⟩
  case programReset =>
    show Twins cfg τ σ (programResetRes _ _) (programResetRes _ _)
    unfold programResetRes
    refine Twins.pgmActive h0 <| Twins.ok (Twin.send8 ?_ _ (by simp))
    exact ⟨{ w with pgm := .idle }, rfl, h.buf, h.said, h.blk, h.mblk, h.ck, rfl⟩
  all_goals
    unfold_handlers
    try simp only [assertPgmIdle, assertPgmActive, assertDaqStopped, assertUnlocked, isProtected, Xcp.checkMem, ne_eq, hp, sendResult_eq]
    repeat' (with_reducible first
      | intro _
      | apply Twins.ite
      | apply Twins.upload
      | apply Twins.ok
      | apply Twins.pure
      | apply Twins.error
      | apply Twins.bindSame
      | apply Twin.disconnect
      | apply Twin.send8)
    all_goals first
      | exact ⟨w, rfl, h⟩
      | exact answer_len8 _
      | (simp [leBytes_length]; done)

theorem Twins.dispatch (env : Env) {s t : St} (h : Twin cfg τ σ s t) (p : Pdu) :
    Twins cfg τ σ (dispatch cfg env s p) (dispatch cfg env t p) := by
  unfold Xcp.dispatch
  simp only [h.same.1, h.same.2.1]
  refine Twins.bindSame _ fun c => Twins.ite (fun _ => Twins.ite (fun _ => Twins.pure h.busyAnswer) fun _ => ?_) fun _ =>
    Twins.ite (fun _ => ?_) fun _ => Twins.pure h.received
  · cases cmdTable[0xFF - c.toNat]? with
    | none => exact Twins.error _
    | some c =>
      unfold tableEntry
      exact Twins.ite (fun _ => Twins.handler env h.received p c) fun _ => Twins.ok (h.received.send8 _ (by simp))
  · exact Twins.handler env h.received p .connect

theorem Twins.step (env : Env) {s t : St} (h : Twin cfg τ σ s t) (op : Op) :
    Twins cfg τ σ (step cfg env s op) (step cfg env t op) := by
  cases op with
  | cmd p => exact Twins.dispatch env h p
  | main =>
    show Twins cfg τ σ (mainFunction _ _ _) (mainFunction _ _ _)
    unfold mainFunction mainUpload mainChecksum
    refine Twins.bind (Twins.ite (fun _ => Twins.uploadSingleBlock env h) fun _ => Twins.ok h) fun s1 t1 h1 => ?_
    cases cfg.on .buildChecksum && cfg.chunked
    · exact Twins.pure h1
    · exact Twins.pure h1.checksumMain
  | trigger ev => exact Twins.ite (fun _ => Twins.triggerEvent env h _) fun _ => Twins.ok h
  | eventPkt c d => exact Twins.sendBytes h _
  | servPkt c d => exact Twins.sendBytes h _
  | appWrite a b =>
    obtain ⟨w, rfl, h⟩ := h
    exact Twins.ok ⟨w, rfl, h⟩
  | apiDisconnect => exact Twins.ok h.disconnect

theorem Twins.run (l : List (Env × Op)) : ∀ {s t : St}, Twin cfg τ σ s t → Twins cfg τ σ (run cfg s l) (run cfg t l) := by
  induction l with
  | nil => intro s t h; exact Twins.ok h
  | cons a l ih =>
    intro s t h
    unfold Xcp.run
    exact Twins.bind (Twins.step a.1 h a.2) fun s1 t1 h1 => ih h1

end

/-! ### The property -/

/-- States in which everything a master can notice agrees. -/
structure Spec.Alike (cfg : Cfg) (s t : St) : Prop where
  connected : t.connected = s.connected
  busy : t.busy = s.busy
  daq : t.daq = s.daq
  resProt : t.resProt = s.resProt
  seedReq : t.seedReq = s.seedReq
  mta : t.mta = s.mta
  mem : t.mem = s.mem
  programming : t.pgm = .active ↔ s.pgm = .active
  /-- old bytes of the transmit buffer are sent only in packets of full length -/
  buffer : cfg.maxDlc = true → t.ctoOut = s.ctoOut
  upload : t.slaveBlk.active = s.slaveBlk.active
  uploadRest : s.slaveBlk.active = true → t.slaveBlk.remaining = s.slaveBlk.remaining
  download : t.masterBlk.active = s.masterBlk.active
  downloadRest : s.masterBlk.active = true → t.masterBlk.remaining = s.masterBlk.remaining
  job : t.ck.state = s.ck.state
  jobData : s.ck.state ≠ .idle → t.ck = s.ck

/-- C117, in general: frames sent before, the packet counter, statistics, old bytes of the transmit
buffer and the leftovers of finished jobs never influence what the slave does: states that agree in
the rest lead to the same packets, the same memory and the same faults in every history. -/
theorem C117_alike {cfg : Cfg} {s t : St} (h : Spec.Alike cfg s t) (l : List (Env × Op)) :
    Spec.outcome cfg t l = Spec.outcome cfg s l := by
  have hT : Twin cfg s.tx t.tx s t := by
    refine ⟨⟨t.tx, t.counter, t.stats, t.ctoOut, t.slaveBlk, t.masterBlk, t.ck, t.pgm⟩, ?_, h.buffer, ⟨[], [], by simp, by simp, rfl⟩,
      ⟨h.upload, h.uploadRest⟩, ⟨h.download, h.downloadRest⟩, ⟨h.job, fun hx => by rw [h.jobData hx], fun hx => by rw [h.jobData hx],
        fun hx _ => by rw [h.jobData hx]⟩, propext h.programming⟩
    unfold St.put
    rw [← h.connected, ← h.busy, ← h.daq, ← h.resProt, ← h.seedReq, ← h.mta, ← h.mem]
  unfold Spec.outcome
  rcases Twins.run l hT with ⟨e, h1, h2⟩ | ⟨s', t', h1, h2, h3⟩
  · rw [h1, h2]; rfl
  · rw [h1, h2]
    obtain ⟨w, rfl, hw⟩ := h3
    obtain ⟨a, b, e1, e2, e3⟩ := hw.said
    show Except.ok (Spec.payloadsOf cfg (w.tx.drop _), s'.mem) = Except.ok (Spec.payloadsOf cfg (s'.tx.drop _), s'.mem)
    rw [e1, e2, List.drop_left, List.drop_left, e3]

theorem restarted_alike {cfg : Cfg} {s : St} (hc : s.connected = true) (hb : s.busy = false) (hp : s.pgm ≠ .active) (ha : s.slaveBlk.active = false)
    (hk : s.ck.state = .idle) : Spec.Alike cfg (Spec.restarted cfg (apiDisconnect cfg s)) (apiDisconnect cfg s) := by
  have hD : (apiDisconnect cfg s).daq = (Spec.restarted cfg (apiDisconnect cfg s)).daq := by
    unfold Spec.restarted apiDisconnect defaultResourceProtection
    cases cfg.daq <;> cases cfg.resourceProtection <;> rfl
  have hR : (apiDisconnect cfg s).resProt = (Spec.restarted cfg (apiDisconnect cfg s)).resProt := by
    unfold Spec.restarted apiDisconnect defaultResourceProtection
    cases hr : cfg.resourceProtection <;> cases cfg.daq <;> simp [St.init, hr]
  have hS : (apiDisconnect cfg s).seedReq = (Spec.restarted cfg (apiDisconnect cfg s)).seedReq := by
    unfold Spec.restarted apiDisconnect defaultResourceProtection
    cases cfg.daq <;> cases cfg.resourceProtection <;> rfl
  constructor
  · exact (apiDisconnect_connected cfg s).trans hc
  · exact (apiDisconnect_busy cfg s).trans hb
  · exact hD
  · exact hR
  · exact hS
  · rfl
  · rfl
  · simp only [apiDisconnect_pgm, hp, false_iff]
    intro hx
    cases hx
  · intro _; rfl
  · rw [apiDisconnect_slaveBlk]; exact ha
  · intro hx; cases hx
  · rfl
  · intro _; rfl
  · rw [apiDisconnect_ck]; exact hk
  · intro hx; exact absurd rfl hx

/-- The state after an accepted DISCONNECT. -/
theorem disconnect_step {cfg : Cfg} {s : St} (hr : Ready s) (hp : s.pgm ≠ .active) {p : Pdu} (hq : code p = some 0xFE) (env : Env) :
    step cfg env s (.cmd p) = .ok (apiDisconnect cfg (positive cfg (bumpReceived cfg s))) := by
  rw [hr.stepc env .disconnect hq rfl]
  simp [handler, disconnectRes, assertPgmIdle, hp]

/-- C117: after an accepted DISCONNECT the slave does, in every later history, exactly what a
restarted slave does that has taken over application memory, the MTA, the state of a block download,
the mode bits of the DAQ lists and the bytes in the transmit buffer. -/
theorem C117_restarted {cfg : Cfg} {mem : Mem} {l : List (Env × Op)} {s : St} (hs : run cfg (St.init cfg mem) l = .ok s)
    (hr : Ready s) (hp : s.pgm ≠ .active) {p : Pdu} (hq : code p = some 0xFE) (env : Env) :
    ∃ s', step cfg env s (.cmd p) = .ok s' ∧ ∀ l', Spec.outcome cfg s' l' = Spec.outcome cfg (Spec.restarted cfg s') l' := by
  refine ⟨_, disconnect_step hr hp hq env, fun l' => ?_⟩
  have hB := run_busy hs
  have ha : s.slaveBlk.active = false := by
    cases h : s.slaveBlk.active with
    | false => rfl
    | true => have := hB.iff.mpr (Or.inl h); simp [hr.idle] at this
  have hk : s.ck.state = .idle := by
    cases h : s.ck.state with
    | idle => rfl
    | _ => have := hB.iff.mpr (Or.inr (by simp [h])); simp [hr.idle] at this
  refine C117_alike (restarted_alike ?_ ?_ ?_ ?_ ?_) l'
  · simpa [positive] using hr.conn
  · simpa [positive] using hr.idle
  · simpa [positive] using hp
  · simpa [positive] using ha
  · simpa [positive] using hk

/-- The same for a call of `Xcp_Disconnect` by the application or the transport layer, while the slave
is connected and not busy. -/
theorem C117_restarted_call {cfg : Cfg} {mem : Mem} {l : List (Env × Op)} {s : St} (hs : run cfg (St.init cfg mem) l = .ok s)
    (hr : Ready s) (hp : s.pgm ≠ .active) (env : Env) :
    ∃ s', step cfg env s .apiDisconnect = .ok s' ∧ ∀ l', Spec.outcome cfg s' l' = Spec.outcome cfg (Spec.restarted cfg s') l' := by
  refine ⟨_, rfl, fun l' => ?_⟩
  have hB := run_busy hs
  have ha : s.slaveBlk.active = false := by
    cases h : s.slaveBlk.active with
    | false => rfl
    | true => have := hB.iff.mpr (Or.inl h); simp [hr.idle] at this
  have hk : s.ck.state = .idle := by
    cases h : s.ck.state with
    | idle => rfl
    | _ => have := hB.iff.mpr (Or.inr (by simp [h])); simp [hr.idle] at this
  exact C117_alike (restarted_alike hr.conn hr.idle hp ha hk) l'

/-- A slave at program start with the given application memory that has been connected. -/
def Spec.connectedFresh (cfg : Cfg) (mem : Mem) : St := { St.init cfg mem with connected := true }

/-- C117, the full statement: the next session is like the first one after program start, except that
application memory keeps what was written. -/
def Spec.SessionsApart (cfg : Cfg) : Prop :=
  ∀ (mem : Mem) (l : List (Env × Op)) (s s' : St) (p : Pdu) (env : Env), run cfg (St.init cfg mem) l = .ok s → Ready s →
    s.pgm ≠ .active → code p = some 0xFE → step cfg env s (.cmd p) = .ok s' →
    ∀ l', Spec.outcome cfg s' l' = Spec.outcome cfg (Spec.connectedFresh cfg s'.mem) l'

/-- C117, the part that holds: it is, if the MTA was not set, no block download is unfinished and no
mode bit of the DAQ lists is set. -/
theorem C117_fresh_partial {cfg : Cfg} (hd : cfg.daq = true) (hrp : cfg.resourceProtection = true) (hm : cfg.maxDlc = false) {mem : Mem}
    {l : List (Env × Op)} {s s' : St} (hs : run cfg (St.init cfg mem) l = .ok s) (hr : Ready s) (hp : s.pgm ≠ .active) {p : Pdu}
    (hq : code p = some 0xFE) {env : Env} (h1 : step cfg env s (.cmd p) = .ok s') (hmta : s'.mta = ⟨0, 0⟩)
    (hblk : s'.masterBlk.active = false) (hmode : s'.daq.mode = 0) (l' : List (Env × Op)) :
    Spec.outcome cfg s' l' = Spec.outcome cfg (Spec.connectedFresh cfg s'.mem) l' := by
  obtain ⟨s1, e1, h2⟩ := C117_restarted hs hr hp hq env
  rw [h1] at e1
  injection e1 with e1
  subst e1
  rw [h2 l']
  apply C117_alike
  constructor
  · rfl
  · rfl
  · show (if cfg.daq = true then _ else _) = _
    rw [if_pos hd, hmode]
    rfl
  · show (if cfg.resourceProtection = true then _ else _) = _
    rw [if_pos hrp]
    rfl
  · show (if cfg.resourceProtection = true then _ else _) = _
    rw [if_pos hrp]
    rfl
  · exact hmta
  · rfl
  · exact Iff.rfl
  · intro hx; rw [hm] at hx; cases hx
  · rfl
  · intro _; rfl
  · exact hblk
  · intro hx; cases hx
  · rfl
  · intro _; rfl

/-- A session that starts with SET_MTA does not depend on the MTA the session before has left. -/
theorem C117_setMta {cfg : Cfg} {s : St} (hr : Ready s) (m : Mta) {p : Pdu} (hq : code p = some 0xF6) (env : Env)
    (hon : cfg.on .setMta = true) (l : List (Env × Op)) :
    Spec.outcome cfg { s with mta := m } ((env, .cmd p) :: l) = Spec.outcome cfg s ((env, .cmd p) :: l) := by
  have hsup : cfg.supports .setMta = true := by simp [Cfg.supports, Cmd.group, hon]
  have hr' : Ready { s with mta := m } := ⟨hr.conn, hr.idle⟩
  have e : step cfg env { s with mta := m } (.cmd p) = step cfg env s (.cmd p) := by
    rw [hr.stepc env .setMta hq hsup, hr'.stepc env .setMta hq hsup]
    unfold bumpReceived
    show setMtaRes _ _ _ = setMtaRes _ _ _
    unfold setMtaRes
    cases cfg.statistics <;> rfl
  unfold Spec.outcome
  simp only [run, e]

/-! ### What is left behind -/

/-- Whether DISCONNECT is accepted after a first session, the packets of a second session, and those of
the same session on a slave that has just been started (with the application memory of the other). -/
def Ex.seam (cfg : Cfg) (first : List (List UInt8)) (second : List (Env × Op)) : Option (Bool × Option (List (List UInt8)) × Option (List (List UInt8))) := do
  let s ← (run cfg (St.init cfg Ex.mem) (([0xFF] :: first).map Ex.c)).toOption
  let s' ← (step cfg Ex.env s (.cmd (Ex.pkt [0xFE]))).toOption
  let get (s : St) := (Spec.outcome cfg s second).toOption.map fun x => x.1.map Prod.snd
  some (s.connected && !s.busy && s.pgm != .active, get s', get (Spec.connectedFresh cfg s'.mem))

theorem seam_eq {cfg : Cfg} (h : Spec.SessionsApart cfg) {first : List (List UInt8)} {second : List (Env × Op)} {a b : Option (List (List UInt8))}
    (e : Ex.seam cfg first second = some (true, a, b)) : a = b := by
  unfold Ex.seam at e
  cases h1 : run cfg (St.init cfg Ex.mem) (([0xFF] :: first).map Ex.c) with
  | error f => rw [h1] at e; cases e
  | ok s =>
    cases h2 : step cfg Ex.env s (.cmd (Ex.pkt [0xFE])) with
    | error f => simp only [h1, h2, Except.toOption, Option.bind_eq_bind, Option.bind_some, Option.bind_none] at e; cases e
    | ok s' =>
      simp only [h1, h2, Except.toOption, Option.bind_eq_bind, Option.bind_some, Option.some.injEq, Prod.mk.injEq] at e
      obtain ⟨e1, e2, e3⟩ := e
      simp only [Bool.and_eq_true, Bool.not_eq_true', bne_iff_ne, ne_eq] at e1
      rw [← e2, ← e3, h Ex.mem _ s s' _ Ex.env h1 ⟨e1.1.1, e1.1.2⟩ e1.2 rfl h2]

/-- C117 fails: the MTA of the session before is used by an UPLOAD without SET_MTA. -/
theorem C117_fails_mta : ¬ Spec.SessionsApart Ex.sim := fun h =>
  absurd (seam_eq h (first := [[0xF6, 0, 0, 0, 0x34, 0x12, 0, 0]]) (second := [Ex.c [0xF5, 2]]) (a := some [[0xFF, 0x34, 0x35]])
    (b := some [[0xFF, 0, 1]]) (by decide +kernel)) (by decide)

/-- C117 fails: a block download left unfinished is finished by a DOWNLOAD_NEXT of the next session,
which a fresh slave refuses. -/
theorem C117_fails_download : ¬ Spec.SessionsApart Ex.sec := fun h =>
  absurd (seam_eq h (first := [[0xF6, 0, 0, 0, 0x34, 0x12, 0, 0], 0xF0 :: 64 :: List.replicate 62 7]) (second := [Ex.c [0xEF, 2, 8, 9]])
    (a := some [[0xFF]]) (b := some [[0xFE, 0x29]]) (by decide +kernel)) (by decide)

/-- A build with time stamps and without protection. -/
def Ex.stampedSim : Cfg := { Ex.sim with timestamping := true }

/-- Setting up and starting one list with one entry of one byte at 0x1234, without SET_DAQ_LIST_MODE. -/
def Ex.oneByte : List (List UInt8) :=
  [[0xD6], [0xD5, 0, 1, 0], [0xD4, 0, 0, 0, 1], [0xD3, 0, 0, 0, 0, 1], [0xE2, 0, 0, 0, 0, 0], [0xE1, 0xFF, 1, 0, 0x34, 0x12, 0, 0],
   [0xDE, 2, 0, 0], [0xDD, 1]]

/-- C117 fails: time stamps asked for in the session before are sent in this one, where none are asked
for. -/
theorem C117_fails_mode : ¬ Spec.SessionsApart Ex.stampedSim := fun h =>
  absurd (seam_eq h (first := Ex.oneByte.take 4 ++ [[0xE0, 0x10, 0, 0, 0, 0, 1, 0]]) (second := Ex.oneByte.map Ex.c ++ [(Ex.env, .trigger 0)])
    (a := some (List.replicate 6 [0xFF] ++ [[0xFF, 0, 0, 0, 0, 0, 0, 0], [0xFF], [0, 0x78, 0x56, 0x34, 0x12, 0x34]]))
    (b := some (List.replicate 6 [0xFF] ++ [[0xFF, 0, 0, 0, 0, 0, 0, 0], [0xFF], [0, 0x34]])) (by decide +kernel)) (by decide)

/-- Non-trivial: a session that unlocks calibration, configures and runs acquisition, and has a seed
pending leaves nothing behind: list 0 is gone, the resource is locked, a key without a seed is
refused. -/
example : Ex.seam Ex.sec [[0xF8, 0, 1], [0xF7, 4, 1, 2, 3, 4], [0xF8, 0, 4], [0xF7, 4, 1, 2, 3, 4], [0xD6], [0xD5, 0, 1, 0], [0xDD, 1], [0xF8, 0, 16]]
      ([[0xFD], [0xDA], [0xF7, 4, 1, 2, 3, 4], [0xF5, 2]].map Ex.c) =
    some (true, some [[0xFF, 0, 0x1D, 0, 0, 0], [0xFE, 0x25], [0xFE, 0x29], [0xFF, 0, 1]],
      some [[0xFF, 0, 0x1D, 0, 0, 0], [0xFE, 0x25], [0xFE, 0x29], [0xFF, 0, 1]]) := by decide +kernel

/-- Packet counters do go on, which `Spec.payloadsOf` leaves out. -/
example : Ex.frames Ex.sim [Ex.c [0xFF], Ex.c [0xFE], Ex.c [0xFC]] =
    some [[8, 0, 0, 0, 0xFF, 0x15, 0x80, 64, 64, 0, 1, 1], [1, 0, 1, 0, 0xFF], [2, 0, 2, 0, 0xFE, 0]] := by decide +kernel

end Xcp
