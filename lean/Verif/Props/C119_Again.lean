import Verif.Props.C118_Queries
import Verif.Props.C37_Modes
import Verif.Props.C46_ModifyBits
/-
C119: Which commands can be repeated.
-/
set_option autoImplicit false
namespace Xcp
open Spec

/-! ### Specification -/

/-- The packets sent between two states. -/
def Spec.said (cfg : Cfg) (s s' : St) : List (Kind × List UInt8) := Spec.payloadsOf cfg (s'.tx.drop s.tx.length)

/-- A command can be repeated: sent twice it is answered twice in the same way, and whatever comes after
it leads to the same packets, the same memory and the same faults as when it was sent once. -/
def Spec.Repeatable (c : Cmd) : Prop :=
  ∀ (cfg : Cfg) (env : Env) (s s1 : St) (p : Pdu), cfg.maxDlc = false → Ready s → code p = some (cmdCode c) → step cfg env s (.cmd p) = .ok s1 →
    ∃ s2, step cfg env s1 (.cmd p) = .ok s2 ∧ Spec.said cfg s1 s2 = Spec.said cfg s s1 ∧ ∀ l, Spec.outcome cfg s2 l = Spec.outcome cfg s1 l

/-- The commands that cannot be repeated. -/
def Spec.once : List Cmd :=
  [.unlock, .upload, .shortUpload, .buildChecksum, .download, .downloadNext, .downloadMax, .shortDownload, .writeDaq,
   .writeDaqMultiple, .allocDaq, .allocOdt, .allocOdtEntry, .program, .programReset]

/-! ### Twins and outcomes -/

theorem Spec.Alike.twin {cfg : Cfg} {s t : St} (h : Spec.Alike cfg s t) : Twin cfg s.tx t.tx s t := by
  refine ⟨⟨t.tx, t.counter, t.stats, t.ctoOut, t.slaveBlk, t.masterBlk, t.ck, t.pgm⟩, ?_, h.buffer, ⟨[], [], by simp, by simp, rfl⟩,
    ⟨h.upload, h.uploadRest⟩, ⟨h.download, h.downloadRest⟩, ⟨h.job, fun hx => by rw [h.jobData hx], fun hx => by rw [h.jobData hx],
      fun hx _ => by rw [h.jobData hx]⟩, propext h.programming⟩
  unfold St.put
  rw [← h.connected, ← h.busy, ← h.daq, ← h.resProt, ← h.seedReq, ← h.mta, ← h.mem]

theorem Twin.rebase {cfg : Cfg} {τ σ : List Frame} {s t : St} (h : Twin cfg τ σ s t) : Twin cfg s.tx t.tx s t := by
  obtain ⟨w, rfl, hw⟩ := h
  exact ⟨w, rfl, hw.buf, ⟨[], [], by simp, by simp, rfl⟩, hw.blk, hw.mblk, hw.ck, hw.pgm⟩

theorem Twin.outcome {cfg : Cfg} {τ σ : List Frame} {s t : St} (h : Twin cfg τ σ s t) (l : List (Env × Op)) :
    Spec.outcome cfg t l = Spec.outcome cfg s l := by
  unfold Spec.outcome
  rcases Twins.run l h.rebase with ⟨e, h1, h2⟩ | ⟨s', t', h1, h2, h3⟩
  · rw [h1, h2]; rfl
  · rw [h1, h2]
    obtain ⟨w, rfl, hw⟩ := h3
    obtain ⟨a, b, e1, e2, e3⟩ := hw.said
    show Except.ok (Spec.payloadsOf cfg (w.tx.drop _), s'.mem) = Except.ok (Spec.payloadsOf cfg (s'.tx.drop _), s'.mem)
    rw [e1, e2, List.drop_left, List.drop_left, e3]

theorem Twin.said_eq {cfg : Cfg} {τ σ : List Frame} {s t : St} (h : Twin cfg τ σ s t) :
    Spec.payloadsOf cfg (t.tx.drop σ.length) = Spec.payloadsOf cfg (s.tx.drop τ.length) := by
  obtain ⟨w, rfl, hw⟩ := h
  obtain ⟨a, b, e1, e2, e3⟩ := hw.said
  show Spec.payloadsOf cfg (w.tx.drop _) = _
  rw [e1, e2, List.drop_left, List.drop_left, e3]

/-! ### One command at a time -/

/-- What has to be shown of a command: after it the slave is like a state `u` in which the command changes
nothing and is answered in the same way. -/
def Again (cfg : Cfg) (s s1 : St) (f : St → R) : Prop :=
  ∃ u u1, Spec.Alike cfg u s1 ∧ u.connected = s.connected ∧ u.busy = s.busy ∧ f u = .ok u1 ∧ Spec.Alike cfg u u1 ∧ Spec.said cfg u u1 = Spec.said cfg s s1

theorem Again.same {cfg : Cfg} {s s1 : St} {f : St → R} (h : f s = .ok s1) (ha : Spec.Alike cfg s s1) : Again cfg s s1 f :=
  ⟨s, s1, ha, rfl, rfl, h, ha, rfl⟩

theorem payload_header {cfg : Cfg} (n c : Nat) (bs : List UInt8) : (header cfg n c ++ bs).drop (cfg.lenSize + cfg.ctrSize) = bs := by
  have : (header cfg n c).length = cfg.lenSize + cfg.ctrSize := by simp [header, leBytes]
  rw [← this, List.drop_left]

theorem said_send8 {cfg : Cfg} (hm : cfg.maxDlc = false) {s u : St} (hu : u.tx = s.tx) (bs : List UInt8) (hb : bs.length ≤ 8) :
    Spec.said cfg s (send8 cfg u bs) = [(.cto, bs)] := by
  unfold Spec.said Spec.payloadsOf send8 emit
  simp only [hm, Bool.false_eq_true, if_false, hu, List.drop_left, List.map_cons, List.map_nil, payload_header, hb, if_true]
  rw [List.take_left' rfl]
  have : (overlay u.ctoOut bs).take bs.length = bs := overlay_take _ _
  rw [this]

theorem Again.send8 {cfg : Cfg} (hm : cfg.maxDlc = false) {s : St} {f : St → R} (u : St) (bs : List UInt8) (hb : bs.length ≤ 8)
    (h : f u = .ok (send8 cfg u bs)) (hc : u.connected = s.connected) (hbu : u.busy = s.busy) (ht : u.tx = s.tx) : Again cfg s (Xcp.send8 cfg u bs) f :=
  ⟨u, _, alike_send8 hm u bs, hc, hbu, h, alike_send8 hm u bs, by rw [said_send8 hm rfl bs hb, said_send8 hm ht bs hb]⟩

theorem again_repeatable {cfg : Cfg} {env : Env} {s s1 : St} {p : Pdu} {c : Cmd} (hr : Ready s) (hq : code p = some (cmdCode c))
    (hs : step cfg env s (.cmd p) = .ok s1)
    (h : tableEntry cfg env (bumpReceived cfg s) p c = .ok s1 → Again cfg (bumpReceived cfg s) s1 fun u => tableEntry cfg env u p c) :
    ∃ s2, step cfg env s1 (.cmd p) = .ok s2 ∧ Spec.said cfg s1 s2 = Spec.said cfg s s1 ∧ ∀ l, Spec.outcome cfg s2 l = Spec.outcome cfg s1 l := by
  rw [ready_entry env hr hq] at hs
  obtain ⟨u, u1, h1, h2, h3, h4, h5, h6⟩ := h hs
  dsimp only at h4
  have hr1 : Ready s1 := ⟨by rw [h1.connected, h2]; simpa using hr.conn, by rw [h1.busy, h3]; simpa using hr.idle⟩
  have hT := (h1.trans (alike_received cfg s1)).twin
  have hE : Twins cfg u.tx (bumpReceived cfg s1).tx (tableEntry cfg env u p c) (tableEntry cfg env (bumpReceived cfg s1) p c) := by
    unfold tableEntry
    refine Twins.ite (fun _ => Twins.handler env hT p c) fun _ => ?_
    exact Twins.ok (hT.send8 _ (by simp))
  rcases hE with ⟨e, e1, _⟩ | ⟨a, b, e1, e2, e3⟩
  · rw [h4] at e1; cases e1
  · rw [h4] at e1
    cases e1
    refine ⟨b, by rw [ready_entry env hr1 hq, e2], ?_, fun l => ?_⟩
    · have h7 := e3.said_eq
      have h8 : (bumpReceived cfg s1).tx = s1.tx := by unfold bumpReceived; split <;> rfl
      have h9 : (bumpReceived cfg s).tx = s.tx := by unfold bumpReceived; split <;> rfl
      unfold Spec.said at h6 ⊢
      rw [h9] at h6
      rw [h8] at h7
      rw [h7, h6]
    · rw [e3.outcome l, C117_alike h5 l, C117_alike h1 l]

theorem Again.entry {cfg : Cfg} (hm : cfg.maxDlc = false) {env : Env} {p : Pdu} {s s1 : St} {c : Cmd}
    (h : handler cfg env s p c = .ok s1 → Again cfg s s1 fun u => handler cfg env u p c) (h0 : tableEntry cfg env s p c = .ok s1) :
    Again cfg s s1 fun u => tableEntry cfg env u p c := by
  by_cases hs : cfg.supports c = true
  · simp only [tableEntry, hs, if_true] at h0 ⊢
    exact h h0
  · simp only [tableEntry, hs, if_false, Bool.false_eq_true] at h0 ⊢
    unfold notImplemented errorResp at *
    injection h0 with h0
    subst h0
    exact Again.same rfl (alike_send8 hm _ _)

/-- Commands that only answer. -/
def stills : List Cmd :=
  [.clearDaqList, .programClear, .programPrepare, .programFormat, .programNext, .programMax, .programVerify, .setRequest, .readDaq, .setCalPage,
   .setSegmentMode, .copyCalPage]

theorem still_handler {cfg : Cfg} (hm : cfg.maxDlc = false) (env : Env) (s : St) (p : Pdu) (c : Cmd) (hc : c ∈ stills) :
    Post (handler cfg env s p c) (Spec.Alike cfg s) := by
  simp only [stills, List.mem_cons, List.not_mem_nil, or_false] at hc
  rcases hc with rfl | rfl | rfl | rfl | rfl | rfl | rfl | rfl | rfl | rfl | rfl | rfl
  all_goals unfold_handlers
  all_goals post
  all_goals exact alike_send8 hm _ _

theorem bind_split {α β : Type} {x : Except Fault α} {f : α → Except Fault β} {b : β} (h : (x >>= f) = .ok b) : ∃ a, x = .ok a ∧ f a = .ok b := by
  cases x with
  | error e => cases h
  | ok a => exact ⟨a, rfl, h⟩

theorem again_connect {cfg : Cfg} (hm : cfg.maxDlc = false) {env : Env} {s s1 : St} (hc : s.connected = true) {p : Pdu}
    (h : handler cfg env s p .connect = .ok s1) : Again cfg s s1 fun u => handler cfg env u p .connect := by
  refine Again.same h ?_
  unfold handler connectRes at h
  cases h
  refine Spec.Alike.trans (t := { s with connected := true }) ?_ (alike_send8 hm _ _)
  exact ⟨hc.symm, rfl, rfl, rfl, rfl, rfl, rfl, Iff.rfl, fun _ => rfl, rfl, fun _ => rfl, rfl, fun _ => rfl, rfl, fun _ => rfl⟩

theorem daqInit_again (d : Daq) : daqInit (daqInit d) = daqInit d := by
  have hf : ∀ a, allocOk a .free = true := by intro a; cases a <;> rfl
  unfold daqInit daqFree
  simp only [hf, if_true, startStopLists]
  rfl

theorem disconnect_again {cfg : Cfg} (s : St) (bs : List UInt8) :
    apiDisconnect cfg (send8 cfg s bs) = send8 cfg (apiDisconnect cfg s) bs ∧ apiDisconnect cfg (apiDisconnect cfg s) = apiDisconnect cfg s := by
  unfold apiDisconnect defaultResourceProtection
  cases cfg.daq <;> cases cfg.resourceProtection <;> refine ⟨rfl, ?_⟩ <;> simp [daqInit_again]

theorem again_disconnect {cfg : Cfg} (hm : cfg.maxDlc = false) {env : Env} {s s1 : St} {p : Pdu}
    (h : handler cfg env s p .disconnect = .ok s1) : Again cfg s s1 fun u => handler cfg env u p .disconnect := by
  have h' := h
  simp only [handler, disconnectRes, assertPgmIdle] at h'
  split at h'
  · cases h'; exact Again.same h (by unfold sendResult; split <;> exact alike_send8 hm _ _)
  rename_i g1
  have e : ∀ t : St, apiDisconnect cfg (positive cfg t) = send8 cfg (apiDisconnect cfg t) [0xFF] := fun t => (disconnect_again t _).1
  rw [e] at h'
  cases h'
  have f : (apiDisconnect cfg s).connected = s.connected ∧ (apiDisconnect cfg s).busy = s.busy ∧ (apiDisconnect cfg s).tx = s.tx ∧ (apiDisconnect cfg s).pgm = s.pgm := by
    unfold apiDisconnect defaultResourceProtection
    cases cfg.daq <;> cases cfg.resourceProtection <;> exact ⟨rfl, rfl, rfl, rfl⟩
  refine Again.send8 hm (apiDisconnect cfg s) [0xFF] (by decide) ?_ f.1 f.2.1 f.2.2.1
  simp only [handler, disconnectRes, assertPgmIdle, f.2.2.2, e, (disconnect_again (cfg := cfg) s []).2]
  rw [if_neg g1]

theorem again_setMta {cfg : Cfg} (hm : cfg.maxDlc = false) {env : Env} {s s1 : St} {p : Pdu}
    (h : handler cfg env s p .setMta = .ok s1) : Again cfg s s1 fun u => handler cfg env u p .setMta := by
  unfold handler setMtaRes at h ⊢
  cases h1 : p.byte 3 with
  | error e => rw [h1] at h; cases h
  | ok a =>
    cases h2 : p.dword cfg.motorola cfg.wrapv 4 with
    | error e => rw [h1, h2] at h; cases h
    | ok b =>
      rw [h1, h2] at h
      cases h
      exact Again.send8 hm { s with mta := ⟨a, b⟩ } [0xFF] (by decide) rfl rfl rfl rfl

theorem again_getId {cfg : Cfg} (hm : cfg.maxDlc = false) {env : Env} {s s1 : St} {p : Pdu}
    (h : handler cfg env s p .getId = .ok s1) : Again cfg s s1 fun u => handler cfg env u p .getId := by
  unfold handler getIdRes at h ⊢
  cases h1 : p.byte 1 with
  | error e => rw [h1] at h; cases h
  | ok a =>
    cases h2 : getIdLookup cfg env a with
    | none =>
      rw [h1] at h
      simp only [ok_bind, h2] at h
      cases h
      exact Again.send8 hm s _ (by simp [leBytes]) (by simp only [ok_bind, h2]; rfl) rfl rfl rfl
    | some x =>
      rw [h1] at h
      simp only [ok_bind, h2] at h
      cases h
      exact Again.send8 hm { s with mta := ⟨0, x.1⟩ } _ (by simp [leBytes]) (by simp only [ok_bind, h2]; rfl) rfl rfl rfl

theorem result_alike {cfg : Cfg} (hm : cfg.maxDlc = false) (s : St) (c : UInt8) : Spec.Alike cfg s (sendResult cfg s c) := by
  unfold sendResult
  split <;> exact alike_send8 hm _ _

theorem again_getDaqEventInfo {cfg : Cfg} (hm : cfg.maxDlc = false) {env : Env} {s s1 : St} {p : Pdu}
    (h : handler cfg env s p .getDaqEventInfo = .ok s1) : Again cfg s s1 fun u => handler cfg env u p .getDaqEventInfo := by
  have h' := h
  simp only [handler, getDaqEventInfoRes, assertUnlocked] at h'
  cases h1 : p.word cfg.motorola 2 with
  | error e => rw [h1] at h'; cases h'
  | ok ev =>
    rw [h1] at h'
    simp only [ok_bind] at h'
    split at h'
    · cases h'; exact Again.same h (result_alike hm _ _)
    · rename_i g1
      split at h'
      · cases h'; exact Again.same h (result_alike hm _ _)
      · rename_i g2
        split at h'
        · rename_i a g3
          split at h'
          · cases h'; exact Again.same h (alike_send8 hm _ _)
          · rename_i g4
            cases h'
            refine Again.send8 hm { s with mta := ⟨0, a⟩ } _ (by simp) ?_ rfl rfl rfl
            have g1' : ¬ isProtected cfg { s with mta := ⟨0, a⟩ } RES_DAQ = true := g1
            simp only [handler, getDaqEventInfoRes, assertUnlocked, h1, ok_bind, g1', g2, g3, g4, if_false, Bool.false_eq_true]
        · cases h'; exact Again.same h (alike_send8 hm _ _)

theorem alike_sendRaw {cfg : Cfg} (hm : cfg.maxDlc = false) (s : St) (bs : List UInt8) : Spec.Alike cfg s (sendRaw cfg s bs) :=
  ⟨rfl, rfl, rfl, rfl, rfl, rfl, rfl, Iff.rfl, fun hx => absurd hx (by rw [hm]; decide), rfl, fun _ => rfl, rfl, fun _ => rfl, rfl, fun _ => rfl⟩

theorem said_sendRaw {cfg : Cfg} (hm : cfg.maxDlc = false) {s u : St} (hu : u.tx = s.tx) (bs : List UInt8) :
    Spec.said cfg s (sendRaw cfg u bs) = [(.cto, bs)] := by
  unfold Spec.said Spec.payloadsOf sendRaw emit
  simp only [hm, Bool.false_eq_true, if_false, hu, List.drop_left, List.map_cons, List.map_nil, payload_header]
  rw [overlay_take]

theorem Again.sendBytes {cfg : Cfg} (hm : cfg.maxDlc = false) {s s1 : St} {f : St → R} (u : St) (bs : List UInt8)
    (h0 : Xcp.sendBytes cfg u bs = .ok s1) (h : f u = Xcp.sendBytes cfg u bs) (hc : u.connected = s.connected) (hbu : u.busy = s.busy) (ht : u.tx = s.tx) :
    Again cfg s s1 f := by
  have h1 := h.trans h0
  unfold Xcp.sendBytes at h0
  split at h0
  · cases h0
  · cases h0
    exact ⟨u, _, alike_sendRaw hm u bs, hc, hbu, h1, alike_sendRaw hm u bs, by rw [said_sendRaw hm rfl, said_sendRaw hm ht]⟩

theorem or_idem (a b : UInt8) : a ||| b ||| b = a ||| b := by rw [UInt8.or_assoc, UInt8.or_self]

theorem again_getSeed {cfg : Cfg} (hm : cfg.maxDlc = false) {env : Env} {s s1 : St} {p : Pdu}
    (h : handler cfg env s p .getSeed = .ok s1) : Again cfg s s1 fun u => handler cfg env u p .getSeed := by
  have h' := h
  simp only [handler, getSeedRes, assertPgmIdle, copyGuard] at h'
  cases h1 : p.byte 1 with
  | error e => rw [h1] at h'; cases h'
  | ok a =>
    cases h2 : p.byte 2 with
    | error e => rw [h1, h2] at h'; cases h'
    | ok r =>
      rw [h1, h2] at h'
      simp only [ok_bind] at h'
      split at h'
      · cases h'; exact Again.same h (result_alike hm _ _)
      · rename_i g1
        split at h'
        · cases h'; exact Again.same h (alike_send8 hm _ _)
        · rename_i g2
          have e : { s with seedReq := s.seedReq ||| r ||| r } = { s with seedReq := s.seedReq ||| r } := by rw [or_idem]
          have g1' : ¬ ({ s with seedReq := s.seedReq ||| r } : St).pgm = .active := g1
          split at h'
          · rename_i g3
            have g3' : isProtected cfg { s with seedReq := s.seedReq ||| r } r = true := g3
            split at h'
            · cases h'
            · rename_i g4
              refine Again.sendBytes hm { s with seedReq := s.seedReq ||| r } _ h' ?_ rfl rfl rfl
              simp only [handler, getSeedRes, assertPgmIdle, copyGuard, h1, h2, ok_bind, g1, g2, g3', g4, if_false, if_true, e, Bool.false_eq_true]
          · rename_i g3
            have g3' : ¬ isProtected cfg { s with seedReq := s.seedReq ||| r } r = true := g3
            refine Again.sendBytes hm { s with seedReq := s.seedReq ||| r } _ h' ?_ rfl rfl rfl
            simp only [handler, getSeedRes, assertPgmIdle, h1, h2, ok_bind, g1, g2, g3', if_false, e, Bool.false_eq_true]

theorem again_setDaqPtr {cfg : Cfg} (hm : cfg.maxDlc = false) {env : Env} {s s1 : St} {p : Pdu}
    (h : handler cfg env s p .setDaqPtr = .ok s1) : Again cfg s s1 fun u => handler cfg env u p .setDaqPtr := by
  have h' := h
  simp only [handler, setDaqPtrRes, assertDaqStopped, assertPgmIdle, assertUnlocked] at h'
  split at h'
  · cases h'; exact Again.same h (result_alike hm _ _)
  · rename_i g1
    split at h'
    · cases h'; exact Again.same h (result_alike hm _ _)
    · rename_i g2
      split at h'
      · cases h'; exact Again.same h (result_alike hm _ _)
      · rename_i g3
        obtain ⟨list, e1, h'⟩ := bind_split h'
        obtain ⟨odt, e2, h'⟩ := bind_split h'
        obtain ⟨entry, e3, h'⟩ := bind_split h'
        obtain ⟨b, e4, h'⟩ := bind_split h'
        split at h'
        · rename_i g4
          cases h'
          refine Again.send8 hm { s with daq := { s.daq with ptr := ⟨list % 256, odt.toNat, entry.toNat⟩ } } [0xFF] (by decide) ?_ rfl rfl rfl
          have g3' : ¬ isProtected cfg { s with daq := { s.daq with ptr := ⟨list % 256, odt.toNat, entry.toNat⟩ } } RES_DAQ = true := g3
          have e4' : validateOdtEntry cfg { s.daq with ptr := ⟨list % 256, odt.toNat, entry.toNat⟩ } (list % 256) odt.toNat entry.toNat = .ok b := e4
          simp only [handler, setDaqPtrRes, assertDaqStopped, assertPgmIdle, assertUnlocked, e1, e2, e3, ok_bind]
          rw [if_neg g1, if_neg g2, if_neg g3', e4']
          simp only [ok_bind, g4, if_true]
          rfl
        · cases h'; exact Again.same h (alike_send8 hm _ _)

theorem newMode_again (a m : UInt8) : newMode (newMode a m) m = newMode a m := by
  rw [newMode_bits, newMode_bits]
  apply UInt8.toBitVec_inj.mp
  apply BitVec.eq_of_getLsbD_eq
  intro i hi
  simp only [UInt8.toBitVec_or, UInt8.toBitVec_and, BitVec.getLsbD_or, BitVec.getLsbD_and]
  have : ((UInt8.toBitVec 0x0C).getLsbD i && (UInt8.toBitVec 0xF3).getLsbD i) = false := by
    revert i; decide
  revert this
  cases a.toBitVec.getLsbD i <;> cases m.toBitVec.getLsbD i <;> cases (UInt8.toBitVec 0x0C).getLsbD i <;> cases (UInt8.toBitVec 0xF3).getLsbD i <;> decide

theorem again_setDaqListMode {cfg : Cfg} (hm : cfg.maxDlc = false) {env : Env} {s s1 : St} {p : Pdu}
    (h : handler cfg env s p .setDaqListMode = .ok s1) : Again cfg s s1 fun u => handler cfg env u p .setDaqListMode := by
  have h' := h
  simp only [handler, setDaqListModeRes, assertDaqStopped, assertPgmIdle, assertUnlocked] at h'
  obtain ⟨mode, e1, h'⟩ := bind_split h'
  obtain ⟨list, e2, h'⟩ := bind_split h'
  obtain ⟨ev, e3, h'⟩ := bind_split h'
  obtain ⟨ps, e4, h'⟩ := bind_split h'
  obtain ⟨pr, e5, h'⟩ := bind_split h'
  split at h'
  · cases h'; exact Again.same h (result_alike hm _ _)
  rename_i g1
  split at h'
  · cases h'; exact Again.same h (result_alike hm _ _)
  rename_i g2
  split at h'
  · cases h'; exact Again.same h (result_alike hm _ _)
  rename_i g3
  split at h'
  · cases h'; exact Again.same h (alike_send8 hm _ _)
  rename_i g4
  split at h'
  · cases h'; exact Again.same h (alike_send8 hm _ _)
  rename_i g5
  split at h'
  · cases h'; exact Again.same h (alike_send8 hm _ _)
  rename_i g6
  obtain ⟨d, e6, h'⟩ := bind_split h'
  cases h'
  unfold addEventChannel at e6
  split at e6
  · rename_i g7
    cases e6
    refine Again.send8 hm { s with daq := { s.daq with listForEvent := fun j => if j = ev then list % 256 else s.daq.listForEvent j, mode := newMode s.daq.mode mode } } [0xFF]
      (by decide) ?_ rfl rfl rfl
    have g3' : ¬ isProtected cfg { s with daq := { s.daq with listForEvent := fun j => if j = ev then list % 256 else s.daq.listForEvent j, mode := newMode s.daq.mode mode } } RES_DAQ = true := g3
    have e : (fun j => if j = ev then list % 256 else if j = ev then list % 256 else s.daq.listForEvent j) = fun j => if j = ev then list % 256 else s.daq.listForEvent j := by
      funext j
      split <;> rfl
    simp only [handler, setDaqListModeRes, assertDaqStopped, assertPgmIdle, assertUnlocked, addEventChannel, e1, e2, e3, e4, e5, ok_bind]
    rw [if_neg g1, if_neg g2, if_neg g3', if_neg g4, if_neg g5, if_neg g6, if_pos g7]
    simp only [ok_bind, newMode_again, e]
    rfl
  · cases e6

theorem startStop_again (b : Bool) (m : UInt8) : startStopBody b (startStopBody b m) = startStopBody b m := by
  unfold startStopBody
  by_cases h : m &&& MODE_SELECTED = MODE_SELECTED
  · simp only [h, if_true]
    rw [if_neg]
    rw [UInt8.and_assoc]
    have : ~~~MODE_SELECTED &&& MODE_SELECTED = 0 := by decide
    rw [this]
    simp [MODE_SELECTED]
  · simp only [h, if_false]

theorem repeat_idem {f : UInt8 → UInt8} (hf : ∀ x, f (f x) = f x) (n : Nat) (x : UInt8) : Nat.repeat f n (Nat.repeat f n x) = Nat.repeat f n x := by
  have : ∀ n x, Nat.repeat f (n + 1) x = f x := by
    intro n
    induction n with
    | zero => intro x; rfl
    | succ n ih => intro x; show f (Nat.repeat f (n + 1) x) = f x; rw [ih, hf]
  cases n with
  | zero => rfl
  | succ n => rw [this, this, hf]

theorem startStopLists_again (b r : Bool) (d : Daq) : startStopLists b { startStopLists b d with running := r } = { startStopLists b d with running := r } := by
  unfold startStopLists
  simp only [repeat_idem (startStop_again b)]

theorem again_startStopSynch {cfg : Cfg} (hm : cfg.maxDlc = false) {env : Env} {s s1 : St} {p : Pdu}
    (h : handler cfg env s p .startStopSynch = .ok s1) : Again cfg s s1 fun u => handler cfg env u p .startStopSynch := by
  have h' := h
  simp only [handler, startStopSynchRes, assertPgmIdle, assertUnlocked] at h'
  obtain ⟨mode, e1, h'⟩ := bind_split h'
  split at h'
  · cases h'; exact Again.same h (result_alike hm _ _)
  rename_i g1
  split at h'
  · cases h'; exact Again.same h (result_alike hm _ _)
  rename_i g2
  have key : ∀ d : Daq, handler cfg env { s with daq := d } p .startStopSynch = (if mode = 1 then
      .ok (positive cfg { s with daq := { startStopLists true d with running := true } })
    else if mode = 0 then
      .ok (positive cfg { s with daq := { startStopLists false d with running := false } })
    else if mode = 2 then
      .ok (positive cfg { s with daq := startStopLists false d })
    else .ok (errorResp cfg { s with daq := d } ERR_OUT_OF_RANGE)) := by
    intro d
    have g2' : ¬ isProtected cfg { s with daq := d } RES_DAQ = true := g2
    simp only [handler, startStopSynchRes, assertPgmIdle, assertUnlocked, e1, ok_bind, g1, g2', if_false, Bool.false_eq_true]
  split at h'
  · rename_i g3
    cases h'
    refine Again.send8 hm { s with daq := { startStopLists true s.daq with running := true } } [0xFF] (by decide) ?_ rfl rfl rfl
    rw [key _, if_pos g3, startStopLists_again]
    rfl
  rename_i g3
  split at h'
  · rename_i g4
    cases h'
    refine Again.send8 hm { s with daq := { startStopLists false s.daq with running := false } } [0xFF] (by decide) ?_ rfl rfl rfl
    rw [key _, if_neg g3, if_pos g4, startStopLists_again]
    rfl
  rename_i g4
  split at h'
  · rename_i g5
    cases h'
    refine Again.send8 hm { s with daq := startStopLists false s.daq } [0xFF] (by decide) ?_ rfl rfl rfl
    rw [key _, if_neg g3, if_neg g4, if_pos g5]
    have := startStopLists_again false s.daq.running s.daq
    have h2 : { startStopLists false s.daq with running := s.daq.running } = startStopLists false s.daq := rfl
    rw [h2] at this
    rw [this]
    rfl
  · cases h'; exact Again.same h (alike_send8 hm _ _)

theorem again_freeDaq {cfg : Cfg} (hm : cfg.maxDlc = false) {env : Env} {s s1 : St} {p : Pdu}
    (h : handler cfg env s p .freeDaq = .ok s1) : Again cfg s s1 fun u => handler cfg env u p .freeDaq := by
  have h' := h
  simp only [handler, freeDaqRes, assertPgmIdle, assertUnlocked] at h'
  split at h'
  · cases h'; exact Again.same h (result_alike hm _ _)
  rename_i g1
  split at h'
  · cases h'; exact Again.same h (result_alike hm _ _)
  rename_i g2
  have hf : ∀ a, allocOk a .free = true := by intro a; cases a <;> rfl
  have e1 : daqFreeResult s.daq = ERR_SUCCESS := by unfold daqFreeResult; rw [if_pos (hf _)]
  have e2 : daqFreeResult (daqFree s.daq) = ERR_SUCCESS := by unfold daqFreeResult; rw [if_pos (hf _)]
  have e3 : daqFree (daqFree s.daq) = daqFree s.daq := by unfold daqFree; simp only [hf, if_true]
  rw [e1] at h'
  cases h'
  refine Again.send8 hm { s with daq := daqFree s.daq } [0xFF] (by decide) ?_ rfl rfl rfl
  have g1' : ¬ isProtected cfg { s with daq := daqFree s.daq } RES_DAQ = true := g1
  simp only [handler, freeDaqRes, assertPgmIdle, assertUnlocked, g1', g2, if_false, Bool.false_eq_true, e2, e3]
  rfl

theorem again_programStart {cfg : Cfg} (hm : cfg.maxDlc = false) {env : Env} {s s1 : St} {p : Pdu}
    (h : handler cfg env s p .programStart = .ok s1) : Again cfg s s1 fun u => handler cfg env u p .programStart := by
  have h' := h
  simp only [handler, programStartRes, assertDaqStopped, assertUnlocked] at h'
  split at h'
  · cases h'; exact Again.same h (result_alike hm _ _)
  rename_i g1
  split at h'
  · cases h'; exact Again.same h (result_alike hm _ _)
  rename_i g2
  cases h'
  refine Again.send8 hm { s with pgm := .active } _ (by simp) ?_ rfl rfl rfl
  have g1' : ¬ isProtected cfg { s with pgm := .active } RES_PGM = true := g1
  simp only [handler, programStartRes, assertDaqStopped, assertUnlocked, g1', g2, if_false, Bool.false_eq_true]

theorem said_two {cfg : Cfg} (hm : cfg.maxDlc = false) {s u : St} (hu : u.tx = s.tx) (as bs : List UInt8) (ha : as.length ≤ 8) (hb : bs.length ≤ 8)
    {v : St} (hv : v.tx = (send8 cfg u as).tx) : Spec.said cfg s (send8 cfg v bs) = [(.cto, as), (.cto, bs)] := by
  have h1 := said_send8 hm hu as ha
  have h2 := said_send8 hm (u := v) rfl bs hb
  unfold Spec.said at *
  have e1 : ∃ l, (send8 cfg u as).tx = s.tx ++ l := ⟨_, by unfold send8 emit; rw [← hu]⟩
  have e2 : ∃ l, (send8 cfg v bs).tx = v.tx ++ l := ⟨_, by unfold send8 emit; rfl⟩
  obtain ⟨l, e1⟩ := e1
  obtain ⟨k, e2⟩ := e2
  rw [e1, List.drop_left] at h1
  rw [e2, List.drop_left] at h2
  rw [e2, hv, e1, List.append_assoc, List.drop_left]
  unfold Spec.payloadsOf at *
  rw [List.map_append, h1, h2]
  rfl

theorem again_startStopDaqList {cfg : Cfg} (hm : cfg.maxDlc = false) {env : Env} {s s1 : St} {p : Pdu}
    (h : handler cfg env s p .startStopDaqList = .ok s1) : Again cfg s s1 fun u => handler cfg env u p .startStopDaqList := by
  have h' := h
  simp only [handler, startStopDaqListRes, assertPgmIdle, assertUnlocked] at h'
  obtain ⟨mode, e1, h'⟩ := bind_split h'
  obtain ⟨list, e2, h'⟩ := bind_split h'
  split at h'
  · cases h'; exact Again.same h (result_alike hm _ _)
  rename_i g1
  split at h'
  · cases h'; exact Again.same h (result_alike hm _ _)
  rename_i g2
  have key : ∀ d : Daq, d.listCount = s.daq.listCount → handler cfg env { s with daq := d } p .startStopDaqList =
      if s.daq.listCount ≤ list % 256 then startStopDaqListBody cfg (errorResp cfg { s with daq := d } ERR_OUT_OF_RANGE) mode (list % 256)
      else startStopDaqListBody cfg { s with daq := d } mode (list % 256) := by
    intro d hd
    have g2' : ¬ isProtected cfg { s with daq := d } RES_DAQ = true := g2
    simp only [handler, startStopDaqListRes, assertPgmIdle, assertUnlocked, e1, e2, ok_bind, g1, g2', hd, if_false, Bool.false_eq_true]
  have end' : ∀ v : St, Spec.Alike cfg s v → ∀ x, startStopDaqListEnd cfg v (list % 256) = .ok x → Spec.Alike cfg s x := by
    intro v hv x hx
    unfold startStopDaqListEnd at hx
    obtain ⟨q, _, hx⟩ := bind_split hx
    cases hx
    exact hv.trans (alike_send8 hm _ _)
  have body : ∀ v : St, Spec.Alike cfg s v → mode ≠ 2 → ∀ x, startStopDaqListBody cfg v mode (list % 256) = .ok x → Spec.Alike cfg s x := by
    intro v hv hm2 x hx
    unfold startStopDaqListBody at hx
    split at hx
    · exact end' v hv x hx
    split at hx
    · exact end' v hv x hx
    first
      | rw [if_neg hm2] at hx
      | skip
    cases hx
    exact hv.trans (alike_send8 hm _ _)
  by_cases hm2 : mode = 2
  · subst hm2
    have hb : ∀ v : St, startStopDaqListBody cfg v 2 (list % 256) =
        startStopDaqListEnd cfg { v with daq := { v.daq with mode := v.daq.mode ||| MODE_SELECTED } } (list % 256) := fun v => rfl
    have e5 : s.daq.mode ||| MODE_SELECTED ||| MODE_SELECTED = s.daq.mode ||| MODE_SELECTED := or_idem _ _
    split at h'
    · rename_i g3
      rw [hb] at h'
      unfold startStopDaqListEnd at h'
      obtain ⟨q, e4, h'⟩ := bind_split h'
      cases h'
      refine ⟨{ s with daq := { s.daq with mode := s.daq.mode ||| MODE_SELECTED } },
        send8 cfg (errorResp cfg { s with daq := { s.daq with mode := s.daq.mode ||| MODE_SELECTED } } ERR_OUT_OF_RANGE) [0xFF, UInt8.ofNat q.2, 0, 0, 0, 0, 0, 0], ?_, rfl, rfl,
        ((key { s.daq with mode := s.daq.mode ||| MODE_SELECTED } rfl).trans (if_pos g3)).trans ((hb _).trans ?_), ?_, ?_⟩
      · refine Spec.Alike.trans (t := errorResp cfg { s with daq := { s.daq with mode := s.daq.mode ||| MODE_SELECTED } } ERR_OUT_OF_RANGE) (alike_send8 hm _ _) ?_
        exact alike_send8 hm _ _
      · unfold startStopDaqListEnd
        have e4' : getFirstPid cfg { s.daq with mode := s.daq.mode ||| MODE_SELECTED ||| MODE_SELECTED } (list % 256) = .ok q := by rw [e5]; exact e4
        show (getFirstPid cfg { s.daq with mode := s.daq.mode ||| MODE_SELECTED ||| MODE_SELECTED } (list % 256) >>= _) = _
        rw [e4']
        simp only [ok_bind]
        unfold errorResp
        show Except.ok (send8 cfg { send8 cfg _ _ with daq := { s.daq with mode := s.daq.mode ||| MODE_SELECTED ||| MODE_SELECTED } } _) = _
        rw [e5]
        rfl
      · exact Spec.Alike.trans (alike_send8 hm _ _) (alike_send8 hm _ _)
      · exact (said_two hm (u := { s with daq := { s.daq with mode := s.daq.mode ||| MODE_SELECTED } }) rfl [0xFE, ERR_OUT_OF_RANGE] _ (by simp) (by simp) rfl).trans
          (said_two hm (u := s) rfl [0xFE, ERR_OUT_OF_RANGE] _ (by simp) (by simp) rfl).symm
    · rename_i g3
      rw [hb] at h'
      unfold startStopDaqListEnd at h'
      obtain ⟨q, e4, h'⟩ := bind_split h'
      cases h'
      refine Again.send8 hm { s with daq := { s.daq with mode := s.daq.mode ||| MODE_SELECTED } } _ (by simp) ?_ rfl rfl rfl
      refine ((key { s.daq with mode := s.daq.mode ||| MODE_SELECTED } rfl).trans (if_neg g3)).trans ((hb _).trans ?_)
      unfold startStopDaqListEnd
      have e4' : getFirstPid cfg { s.daq with mode := s.daq.mode ||| MODE_SELECTED ||| MODE_SELECTED } (list % 256) = .ok q := by rw [e5]; exact e4
      show (getFirstPid cfg { s.daq with mode := s.daq.mode ||| MODE_SELECTED ||| MODE_SELECTED } (list % 256) >>= _) = _
      rw [e4']
      simp only [ok_bind, e5]
      rfl
  · refine Again.same h ?_
    split at h'
    · exact body _ (alike_send8 hm _ _) hm2 _ h'
    · exact body _ (alike_refl cfg s) hm2 _ h'

theorem store32_store32 (m : Mem) (a v : UInt32) : (m.store32 a v).store32 a v = m.store32 a v := by
  unfold Mem.store32 Mem.write
  funext x
  simp only [List.getD_eq_getElem?_getD]
  cases (leBytes 4 v.toNat)[(x - a).toNat]? <;> rfl

theorem load32_store32 (m : Mem) (a v : UInt32) : (m.store32 a v).load32 a = v := by
  have h : (m.store32 a v).load32 a = UInt32.ofNat v.toNat := by
    refine load32_eq v.toNat_lt ?_
    have e : ∀ k : UInt32, a + k - a = k := fun k => by rw [UInt32.add_comm, UInt32.add_sub_cancel]
    rw [enc_four]
    simp [bytesAt, List.range_succ, Mem.store32, Mem.write, leBytes, e]
  rw [h, UInt32.ofNat_toNat]

theorem again_modifyBits {cfg : Cfg} (hm : cfg.maxDlc = false) {env : Env} {s s1 : St} {p : Pdu}
    (h : handler cfg env s p .modifyBits = .ok s1) : Again cfg s s1 fun u => handler cfg env u p .modifyBits := by
  have h' := h
  simp only [handler, modifyBitsRes, checkMem] at h'
  obtain ⟨sh, e1, h'⟩ := bind_split h'
  obtain ⟨am, e2, h'⟩ := bind_split h'
  obtain ⟨xm, e3, h'⟩ := bind_split h'
  split at h'
  · cases h'; exact Again.same h (result_alike hm _ _)
  rename_i g1
  obtain ⟨a, e4, h'⟩ := bind_split h'
  obtain ⟨x, e5, h'⟩ := bind_split h'
  cases h'
  refine Again.send8 hm { s with mem := s.mem.store32 s.mta.addr (s.mem.load32 s.mta.addr &&& (~~~a ^^^ x)) } [0xFF] (by decide) ?_ rfl rfl rfl
  simp only [handler, modifyBitsRes, checkMem, e1, e2, e3, e4, e5, ok_bind, g1, if_false, Bool.false_eq_true, load32_store32]
  rw [UInt32.and_assoc, UInt32.and_self, store32_store32]
  rfl

/-- C119: every command not in the list `once` can be repeated. -/
theorem C119_repeatable (c : Cmd) (hc : c ∉ Spec.once) : Spec.Repeatable c := by
  intro cfg env s s1 p hm hr hq hs
  refine again_repeatable hr hq hs (Again.entry hm fun h => ?_)
  have hcon : (bumpReceived cfg s).connected = true := by simpa using hr.conn
  by_cases h1 : c ∈ Spec.asking
  · exact Again.same h (asking_handler hm env _ p c h1 _ h)
  by_cases h2 : c ∈ stills
  · exact Again.same h (still_handler hm env _ p c h2 _ h)
  revert hc h1 h2 h
  cases c <;> intro hc h h1 h2
  case connect => exact again_connect hm hcon h
  case disconnect => exact again_disconnect hm h
  case setMta => exact again_setMta hm h
  case getId => exact again_getId hm h
  case getDaqEventInfo => exact again_getDaqEventInfo hm h
  case getSeed => exact again_getSeed hm h
  case setDaqPtr => exact again_setDaqPtr hm h
  case setDaqListMode => exact again_setDaqListMode hm h
  case startStopDaqList => exact again_startStopDaqList hm h
  case startStopSynch => exact again_startStopSynch hm h
  case freeDaq => exact again_freeDaq hm h
  case programStart => exact again_programStart hm h
  case modifyBits => exact again_modifyBits hm h
  all_goals first | exact absurd (by decide) hc | exact absurd (by decide) h1 | exact absurd (by decide) h2

/-! ### The commands that cannot be repeated -/

/-- The packets a history leads to. -/
def Ex.packetsOf (cfg : Cfg) (s : St) (l : List (Env × Op)) : Option (List (List UInt8)) :=
  (Spec.outcome cfg s l).toOption.map fun x => x.1.map Prod.snd

/-- After `before`, sending `p` twice makes a difference: the second one faults, is answered in another
way, or changes the packets that follow on `after`. -/
def Ex.differs (cfg : Cfg) (env : Env) (before : List (List UInt8)) (p : List UInt8) (after : List (Env × Op)) : Bool :=
  match run cfg (St.init cfg Ex.mem) (before.map fun b => (env, .cmd (Ex.pkt b))) with
  | .error _ => false
  | .ok s => s.connected && !s.busy && match step cfg env s (.cmd (Ex.pkt p)) with
    | .error _ => false
    | .ok s1 => match step cfg env s1 (.cmd (Ex.pkt p)) with
      | .error _ => true
      | .ok s2 => decide ((Spec.said cfg s1 s2).map Prod.snd ≠ (Spec.said cfg s s1).map Prod.snd) || decide (Ex.packetsOf cfg s2 after ≠ Ex.packetsOf cfg s1 after)

theorem differs_fails {cfg : Cfg} {env : Env} {before : List (List UInt8)} {p : List UInt8} {after : List (Env × Op)} {c : Cmd}
    (h : (!cfg.maxDlc && decide (code (Ex.pkt p) = some (cmdCode c)) && Ex.differs cfg env before p after) = true) : ¬ Spec.Repeatable c := by
  intro hr
  simp only [Bool.and_eq_true, decide_eq_true_eq, Bool.not_eq_true'] at h
  obtain ⟨⟨hm, hc⟩, h⟩ := h
  unfold Ex.differs at h
  split at h
  · cases h
  · rename_i s hs
    simp only [Bool.and_eq_true, Bool.not_eq_true'] at h
    obtain ⟨⟨h1, h2⟩, h⟩ := h
    split at h
    · cases h
    · rename_i s1 hs1
      obtain ⟨s2, e1, e2, e3⟩ := hr cfg env s s1 (Ex.pkt p) hm ⟨h1, h2⟩ hc hs1
      rw [e1] at h
      simp only [Bool.or_eq_true, decide_eq_true_eq] at h
      rcases h with h | h
      · exact h (by rw [e2])
      · exact h (by unfold Ex.packetsOf; rw [e3])

/-- Everything switched on, nothing protected, no checks by the application. -/
def Ex.bare : Cfg := { Ex.sec with protPag := false, protStim := false, protCal := false, protDaq := false, protPgm := false, memCheck := false, timestamping := false }

/-- The application allows access from 0x1000 on only. -/
def Ex.picky : Env := { Ex.env with memCheck := fun m _ _ _ => decide (0x1000 ≤ m.addr) }

/-- One list with one ODT of two entries. -/
def Ex.twoBytes : List (List UInt8) := [[0xFF], [0xD6], [0xD5, 0, 1, 0], [0xD4, 0, 0, 0, 1], [0xD3, 0, 0, 0, 0, 2], [0xE2, 0, 0, 0, 0, 0]]

/-- Measure once. -/
def Ex.measureOnce : List (Env × Op) :=
  [Ex.c [0xE0, 0, 0, 0, 0, 0, 1, 0], Ex.c [0xDE, 2, 0, 0], Ex.c [0xDD, 1], (Ex.env, .trigger 0)]

def Ex.mta : List UInt8 := [0xF6, 0, 0, 0, 0x34, 0x12, 0, 0]

/-- A situation for each of the commands. -/
def Ex.situation : Cmd → Cfg × Env × List (List UInt8) × List UInt8 × List (Env × Op)
  | .unlock => (Ex.sec, Ex.env, [[0xFF], [0xF8, 0, 1]], [0xF7, 4, 1, 2, 3, 4], [])
  | .upload => (Ex.bare, Ex.env, [[0xFF], Ex.mta], [0xF5, 2], [])
  | .shortUpload => ({ Ex.bare with memCheck := true }, Ex.picky, [[0xFF], Ex.mta], [0xF4, 2, 0, 0, 0x34, 0, 0, 0], [])
  | .buildChecksum => (Ex.bare, Ex.env, [[0xFF], Ex.mta], [0xF3, 0, 0, 0, 200, 0, 0, 0], [])
  | .download => (Ex.bare, Ex.env, [[0xFF], Ex.mta], [0xF0, 2, 1, 2], [Ex.c [0xF5, 2]])
  | .downloadNext => (Ex.bare, Ex.env, [[0xFF], Ex.mta, [0xF0, 100]], [0xEF, 38], [])
  | .downloadMax => (Ex.bare, Ex.env, [[0xFF], Ex.mta], [0xEE, 1, 2], [Ex.c [0xF5, 2]])
  | .shortDownload => (Ex.bare, Ex.env, [[0xFF], Ex.mta], [0xED, 2, 0, 0, 0x34, 0, 0, 0, 1, 2], [Ex.c [0xF5, 2]])
  | .writeDaq => (Ex.bare, Ex.env, Ex.twoBytes, [0xE1, 0xFF, 1, 0, 0x34, 0, 0, 0], Ex.measureOnce)
  | .writeDaqMultiple => (Ex.bare, Ex.env, Ex.twoBytes, [0xC7, 1, 0xFF, 1, 0x34, 0, 0, 0, 0, 0], Ex.measureOnce)
  | .allocDaq => (Ex.bare, Ex.env, [[0xFF], [0xD6]], [0xD5, 0, 1, 0], [Ex.c [0xDA]])
  | .allocOdt => (Ex.bare, Ex.env, [[0xFF], [0xD6], [0xD5, 0, 1, 0]], [0xD4, 0, 0, 0, 60], [])
  | .allocOdtEntry => (Ex.bare, Ex.env, [[0xFF], [0xD6], [0xD5, 0, 1, 0], [0xD4, 0, 0, 0, 1]], [0xD3, 0, 0, 0, 0, 60], [])
  | .program => (Ex.bare, Ex.env, [[0xFF], Ex.mta, [0xD2]], [0xD0, 2, 1, 2], [Ex.c [0xCF], Ex.c [0xF5, 2]])
  | .programReset => (Ex.bare, Ex.env, [[0xFF], [0xD2]], [0xCF], [])
  | _ => (Ex.bare, Ex.env, [], [], [])

theorem once_fails : ∀ c, c ∈ Spec.once → ¬ Spec.Repeatable c := by
  have h : ∀ c, c ∈ Spec.once → (!(Ex.situation c).1.maxDlc && decide (code (Ex.pkt (Ex.situation c).2.2.2.1) = some (cmdCode c)) &&
      Ex.differs (Ex.situation c).1 (Ex.situation c).2.1 (Ex.situation c).2.2.1 (Ex.situation c).2.2.2.1 (Ex.situation c).2.2.2.2) = true := by
    decide +kernel
  exact fun c hc => differs_fails (h c hc)

/-- C119: a command can be repeated if and only if it is not in the list `once`. -/
theorem C119_iff (c : Cmd) : Spec.Repeatable c ↔ c ∉ Spec.once :=
  ⟨fun h hc => once_fails c hc h, C119_repeatable c⟩

/-- C119: SHORT_UPLOAD, which brings its address along, can be repeated as long as the application does not
check accesses (and uploads are not sent in blocks). -/
theorem C119_shortUpload {cfg : Cfg} (hm : cfg.maxDlc = false) (hk : cfg.memCheck = false) (hs : cfg.slaveBlock = false) {env : Env} {s s1 : St} {p : Pdu}
    (hr : Ready s) (hq : code p = some (cmdCode .shortUpload)) (h : step cfg env s (.cmd p) = .ok s1) :
    ∃ s2, step cfg env s1 (.cmd p) = .ok s2 ∧ Spec.said cfg s1 s2 = Spec.said cfg s s1 ∧ ∀ l, Spec.outcome cfg s2 l = Spec.outcome cfg s1 l := by
  refine again_repeatable hr hq h (Again.entry hm fun h => ?_)
  have h' := h
  simp only [handler, shortUploadRes, assertPgmIdle, checkMem, hk, Bool.false_and, Bool.false_eq_true, if_false] at h'
  obtain ⟨len, e1, h'⟩ := bind_split h'
  split at h'
  · cases h'; exact Again.same h (result_alike hm _ _)
  rename_i g1
  split at h'
  · cases h'; exact Again.same h (alike_send8 hm _ _)
  rename_i g2
  obtain ⟨ext, e2, h'⟩ := bind_split h'
  obtain ⟨addr, e3, h'⟩ := bind_split h'
  simp only [upload, hs, Bool.false_eq_true, if_false, copyGuard] at h'
  split at h'
  · cases h'
  rename_i g3
  refine Again.sendBytes hm { bumpReceived cfg s with mta := Mta.advance ⟨ext, addr⟩ len.toNat } _ h' ?_ rfl rfl rfl
  simp only [handler, shortUploadRes, assertPgmIdle, checkMem, hk, Bool.false_and, Bool.false_eq_true, if_false, e1, e2, e3, ok_bind, upload, hs, copyGuard]
  rw [if_neg g1, if_neg g2, if_neg g3]

/-! ### Examples -/

/-- Packets of a history. -/
def Ex.replies (cfg : Cfg) (h : List (List UInt8)) : Option (List (List UInt8)) := Ex.packetsOf cfg (St.init cfg Ex.mem) (h.map Ex.c)

/-- SHORT_DOWNLOAD to 0x34, sent twice, moves the MTA by four. -/
example : Ex.replies Ex.bare [[0xFF], Ex.mta, [0xED, 2, 0, 0, 0x34, 0, 0, 0, 1, 2], [0xF5, 2]] =
      some [[0xFF, 0x15, 0x80, 64, 64, 0, 1, 1], [0xFF], [0xFF], [0xFF, 0x36, 0x37]] ∧
    Ex.replies Ex.bare [[0xFF], Ex.mta, [0xED, 2, 0, 0, 0x34, 0, 0, 0, 1, 2], [0xED, 2, 0, 0, 0x34, 0, 0, 0, 1, 2], [0xF5, 2]] =
      some [[0xFF, 0x15, 0x80, 64, 64, 0, 1, 1], [0xFF], [0xFF], [0xFF], [0xFF, 0x38, 0x39]] := by
  decide +kernel

/-- ALLOC_DAQ of one list, sent twice, allocates two; the commands behind it are repeated without harm. -/
example : Ex.replies Ex.bare [[0xFF], [0xD6], [0xD6], [0xD5, 0, 1, 0], [0xD5, 0, 1, 0], [0xD4, 0, 0, 0, 1], [0xD3, 0, 0, 0, 0, 2], [0xE2, 0, 0, 0, 0, 0],
      [0xE2, 0, 0, 0, 0, 0], [0xE0, 0, 0, 0, 0, 0, 1, 0], [0xE0, 0, 0, 0, 0, 0, 1, 0], [0xDE, 2, 0, 0], [0xDE, 2, 0, 0], [0xDA], [0xDA]] =
    some [[0xFF, 0x15, 0x80, 64, 64, 0, 1, 1], [0xFF], [0xFF], [0xFF], [0xFF], [0xFF], [0xFF], [0xFF], [0xFF], [0xFF], [0xFF],
      [0xFF, 0, 0, 0, 0, 0, 0, 0], [0xFF, 0, 0, 0, 0, 0, 0, 0], [0xFF, 3, 2, 0, 3, 0, 0, 0], [0xFF, 3, 2, 0, 3, 0, 0, 0]] := by
  decide +kernel

end Xcp
