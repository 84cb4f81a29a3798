import Verif.Props.C68_Windows
import Verif.Props.C119_Again
/-
C121: a command whose answer was lost can be sent again after SYNCH and the commands that prepare it.
-/
set_option autoImplicit false
namespace Xcp
open Spec

/-! ### Specification -/

/-- The packets, one after the other. -/
def Spec.sends (env : Env) (ps : List Pdu) : List (Env × Op) := ps.map fun p => (env, .cmd p)

/-- Commands can be tried again: sent once more after a SYNCH they are answered as before, and whatever
comes after leads to the same packets, the same memory and the same faults as if they had been sent
once. -/
def Spec.Retriable (cfg : Cfg) (env : Env) (s : St) (ps : List Pdu) : Prop :=
  ∀ s1 q, run cfg s (Spec.sends env ps) = .ok s1 → code q = some 0xFC →
    ∃ s2, run cfg s1 (Spec.sends env (q :: ps)) = .ok s2 ∧ Spec.said cfg s1 s2 = (.cto, [0xFE, 0]) :: Spec.said cfg s s1 ∧
      ∀ l, Spec.outcome cfg s2 l = Spec.outcome cfg s1 l

/-- Commands that use and move the MTA. -/
def Spec.movesMta : List Cmd := [.upload, .shortUpload, .download, .downloadMax, .shortDownload, .program]

/-! ### SYNCH in front -/

theorem said_append {cfg : Cfg} {s t u : St} {a b : List Frame} (h1 : t.tx = s.tx ++ a) (h2 : u.tx = t.tx ++ b) :
    Spec.said cfg s u = Spec.said cfg s t ++ Spec.said cfg t u := by
  unfold Spec.said Spec.payloadsOf
  rw [h2, h1, List.append_assoc, List.drop_left, List.drop_left, ← List.append_assoc, List.drop_left, List.map_append]

theorem retriable_of {cfg : Cfg} (hm : cfg.maxDlc = false) {env : Env} {s : St} {ps : List Pdu}
    (h : ∀ s1, run cfg s (Spec.sends env ps) = .ok s1 → Ready s1 ∧
      ∃ u u1, Spec.Alike cfg u s1 ∧ run cfg u (Spec.sends env ps) = .ok u1 ∧ (∀ l, Spec.outcome cfg u1 l = Spec.outcome cfg s1 l) ∧ Spec.said cfg u u1 = Spec.said cfg s s1) :
    Spec.Retriable cfg env s ps := by
  intro s1 q h1 hq
  obtain ⟨hr, u, u1, g1, g2, g3, g4⟩ := h s1 h1
  have e1 : step cfg env s1 (.cmd q) = .ok (errorResp cfg (bumpReceived cfg s1) 0) := hr.stepc env .synch hq rfl
  have ha : Spec.Alike cfg s1 (errorResp cfg (bumpReceived cfg s1) 0) := (alike_received cfg s1).trans (alike_send8 hm _ _)
  have hT := (g1.trans ha).twin
  rcases Twins.run (Spec.sends env ps) hT with ⟨e, e2, _⟩ | ⟨a, s2, e2, e3, e4⟩
  · rw [g2] at e2; cases e2
  rw [g2] at e2
  cases e2
  have hb : (bumpReceived cfg s1).tx = s1.tx := by unfold bumpReceived; split <;> rfl
  refine ⟨s2, ?_, ?_, fun l => ?_⟩
  · show (step cfg env s1 (.cmd q) >>= fun x => run cfg x (Spec.sends env ps)) = _
    rw [e1]
    exact e3
  · have e5 := e4.said_eq
    obtain ⟨w, rfl, hw⟩ := e4
    obtain ⟨a, b, _, e6, _⟩ := hw.said
    have e7 : (errorResp cfg (bumpReceived cfg s1) 0).tx = s1.tx ++ [_] := congrArg (· ++ [_]) hb
    rw [said_append e7 e6]
    have e8 : Spec.said cfg s1 (errorResp cfg (bumpReceived cfg s1) 0) = [(.cto, [0xFE, 0])] := said_send8 hm hb _ (by simp)
    rw [e8, ← g4]
    exact congrArg _ e5
  · rw [e4.outcome l, g3 l]

/-! ### Commands behind SET_MTA -/

/-- Executed once more on its own results a command does exactly the same; nothing but memory, MTA and
the state of a block download has changed. -/
def Redo (cfg : Cfg) (v s1 : St) (f : St → R) : Prop :=
  f { v with mem := s1.mem, masterBlk := s1.masterBlk } = .ok s1 ∧
  Spec.Alike cfg { v with mem := s1.mem, masterBlk := s1.masterBlk, mta := s1.mta } s1

theorem Redo.same {cfg : Cfg} {v s1 : St} {f : St → R} (h : f v = .ok s1) (h1 : s1.mem = v.mem) (h2 : s1.masterBlk = v.masterBlk)
    (ha : Spec.Alike cfg { v with mta := s1.mta } s1) : Redo cfg v s1 f := by
  unfold Redo
  rw [h1, h2]
  exact ⟨h, ha⟩

theorem Redo.sent {cfg : Cfg} (hm : cfg.maxDlc = false) {v : St} {f : St → R} (bs : List UInt8) (h : f v = .ok (send8 cfg v bs)) :
    Redo cfg v (send8 cfg v bs) f := Redo.same h rfl rfl (alike_send8 hm v bs)

theorem result_send8 (cfg : Cfg) (s : St) (c : UInt8) : ∃ bs, sendResult cfg s c = send8 cfg s bs := by
  unfold sendResult positive errorResp
  split
  · exact ⟨_, rfl⟩
  · exact ⟨_, rfl⟩

theorem write_twice (m : Mem) (a : UInt32) (d : List UInt8) : (m.write a d).write a d = m.write a d := by
  funext x
  simp only [Mem.write, List.getD]
  cases d[(x - a).toNat]? <;> rfl

theorem redo_upload {cfg : Cfg} (hm : cfg.maxDlc = false) (hb : cfg.slaveBlock = false) {env : Env} {v s1 : St} {p : Pdu}
    (h : handler cfg env v p .upload = .ok s1) : Redo cfg v s1 fun u => handler cfg env u p .upload := by
  have h' := h
  simp only [handler, uploadRes, assertPgmIdle, checkMem, upload, hb, Bool.false_eq_true, if_false, copyGuard] at h'
  obtain ⟨len, e1, h'⟩ := bind_split h'
  split at h'
  · cases h'; exact Redo.sent hm _ h
  split at h'
  · cases h'; exact Redo.sent hm _ h
  split at h'
  · cases h'; exact Redo.sent hm _ h
  split at h'
  · cases h'
  unfold sendBytes at h'
  split at h'
  · cases h'
  cases h'
  exact Redo.same h rfl rfl (alike_sendRaw hm _ _)

theorem redo_program {cfg : Cfg} (hm : cfg.maxDlc = false) {env : Env} {v s1 : St} {p : Pdu}
    (h : handler cfg env v p .program = .ok s1) : Redo cfg v s1 fun u => handler cfg env u p .program := by
  have h' := h
  simp only [handler, programRes, assertPgmActive, checkMem] at h'
  obtain ⟨len, e1, h'⟩ := bind_split h'
  repeat' split at h'
  all_goals first
    | cases h'; done
    | (cases h'; exact Redo.same h rfl rfl (alike_send8 hm _ _))
    | (cases h'; exact Redo.sent hm _ h)
    | skip

theorem redo_shortUpload {cfg : Cfg} (hm : cfg.maxDlc = false) (hb : cfg.slaveBlock = false) {env : Env} {v s1 : St} {p : Pdu}
    (h : handler cfg env v p .shortUpload = .ok s1) : Redo cfg v s1 fun u => handler cfg env u p .shortUpload := by
  have h' := h
  simp only [handler, shortUploadRes, assertPgmIdle, checkMem, upload, hb, Bool.false_eq_true, if_false, copyGuard] at h'
  obtain ⟨len, e1, h'⟩ := bind_split h'
  split at h'
  · cases h'; exact Redo.sent hm _ h
  split at h'
  · cases h'; exact Redo.sent hm _ h
  split at h'
  · cases h'; exact Redo.sent hm _ h
  obtain ⟨ext, e2, h'⟩ := bind_split h'
  obtain ⟨addr, e3, h'⟩ := bind_split h'
  split at h'
  · cases h'
  unfold sendBytes at h'
  split at h'
  · cases h'
  cases h'
  exact Redo.same h rfl rfl (alike_sendRaw hm _ _)

/-- The copy of a download: the data goes to the MTA, the MTA moves on. -/
theorem downloadCopy_redo {cfg : Cfg} {env : Env} {p : Pdu} {off n : Nat} {v s1 : St} (h : downloadCopy cfg env v p off n = .ok s1) :
    ∃ d, s1 = { v with mem := v.mem.write (mapped cfg env v.mta) d, mta := v.mta.advance n } ∧
      ∀ u : St, u.mta = v.mta → downloadCopy cfg env u p off n = .ok { u with mem := u.mem.write (mapped cfg env v.mta) d, mta := v.mta.advance n } := by
  unfold downloadCopy at h
  obtain ⟨d, e1, h⟩ := bind_split h
  obtain ⟨w, e2, h⟩ := bind_split h
  unfold copyIn at e2
  split at e2
  · cases e2
  rename_i g
  cases e2
  cases h
  refine ⟨d, rfl, fun u hu => ?_⟩
  unfold downloadCopy copyIn
  rw [e1, hu]
  show ((if _ then _ else _ : R) >>= _) = _
  rw [if_neg g]
  rfl

theorem redo_download {cfg : Cfg} (hm : cfg.maxDlc = false) {env : Env} {v s1 : St} {p : Pdu}
    (h : handler cfg env v p .download = .ok s1) : Redo cfg v s1 fun u => handler cfg env u p .download := by
  have h' := h
  simp only [handler, downloadRes, assertPgmIdle, checkMem] at h'
  obtain ⟨len, e1, h'⟩ := bind_split h'
  split at h'
  · cases h'; exact Redo.sent hm _ h
  rename_i g1
  split at h'
  · cases h'; exact Redo.sent hm _ h
  rename_i g2
  have hpre : ∀ u : St, u.mta = v.mta → u.pgm = v.pgm → handler cfg env u p .download =
      if cfg.masterBlock then
        (let s0 := { u with masterBlk := { u.masterBlk with active := false } }
        if cfg.maxBs * cfg.dlPayload % 65536 < len.toNat then
          .ok (errorResp cfg s0 ERR_OUT_OF_RANGE)
        else if cfg.dlPayload < len.toNat then
          downloadCopy cfg env { s0 with masterBlk := ⟨true, len.toNat - cfg.dlPayload⟩ } p 2
            cfg.dlPayload
        else do
          let s1 ← downloadCopy cfg env s0 p 2 len.toNat
          return positive cfg s1)
      else if cfg.dlPayload < len.toNat then .ok (errorResp cfg u ERR_OUT_OF_RANGE)
      else do
        let s1 ← downloadCopy cfg env u p 2 len.toNat
        return positive cfg s1 := by
    intro u hu hp
    simp only [handler, downloadRes, assertPgmIdle, checkMem]
    rw [e1, hu, hp]
    show (if _ then _ else _) = _
    rw [if_neg g1, if_neg g2]
  unfold Redo
  simp only []
  rw [hpre { v with mem := s1.mem, masterBlk := s1.masterBlk } rfl rfl]
  split at h'
  · rename_i g3
    rw [if_pos g3]
    split at h'
    · rename_i g4
      cases h'
      simp only []
      rw [if_pos g4]
      exact ⟨rfl, alike_send8 hm _ _⟩
    rename_i g4
    simp only []
    rw [if_neg g4]
    split at h'
    · rename_i g5
      rw [if_pos g5]
      obtain ⟨d, e2, e3⟩ := downloadCopy_redo h'
      refine ⟨?_, ?_⟩
      · rw [e3 { v with masterBlk := ⟨true, len.toNat - cfg.dlPayload⟩, mem := s1.mem } rfl, e2]
        simp only [write_twice]
      · rw [e2]; exact alike_refl cfg _
    · rename_i g5
      rw [if_neg g5]
      obtain ⟨w, e4, h'⟩ := bind_split h'
      obtain ⟨d, e2, e3⟩ := downloadCopy_redo e4
      cases h'
      refine ⟨?_, ?_⟩
      · rw [e3 _ (by rfl), e2]
        show Except.ok _ = Except.ok _
        simp only [positive, send8_mem, send8_masterBlk, write_twice]
      · rw [e2]; exact alike_send8 hm _ _
  · rename_i g3
    rw [if_neg g3]
    split at h'
    · rename_i g4
      cases h'
      rw [if_pos g4]
      exact ⟨rfl, alike_send8 hm _ _⟩
    · rename_i g4
      rw [if_neg g4]
      obtain ⟨w, e4, h'⟩ := bind_split h'
      obtain ⟨d, e2, e3⟩ := downloadCopy_redo e4
      cases h'
      refine ⟨?_, ?_⟩
      · rw [e3 _ (by rfl), e2]
        show Except.ok _ = Except.ok _
        simp only [positive, send8_mem, send8_masterBlk, write_twice]
      · rw [e2]; exact alike_send8 hm _ _

theorem redo_downloadMax {cfg : Cfg} (hm : cfg.maxDlc = false) {env : Env} {v s1 : St} {p : Pdu}
    (h : handler cfg env v p .downloadMax = .ok s1) : Redo cfg v s1 fun u => handler cfg env u p .downloadMax := by
  have h' := h
  simp only [handler, downloadMaxRes, assertPgmIdle] at h'
  split at h'
  · cases h'; exact Redo.sent hm _ h
  rename_i g1
  obtain ⟨w, e4, h'⟩ := bind_split h'
  obtain ⟨d, e2, e3⟩ := downloadCopy_redo e4
  cases h'
  refine ⟨?_, ?_⟩
  · simp only [handler, downloadMaxRes, assertPgmIdle]
    rw [if_neg g1, e3 _ (by rfl), e2]
    show Except.ok _ = Except.ok _
    simp only [positive, send8_mem, send8_masterBlk, write_twice]
  · rw [e2]; exact alike_send8 hm _ _

theorem redo_shortDownload {cfg : Cfg} (hm : cfg.maxDlc = false) {env : Env} {v s1 : St} {p : Pdu}
    (h : handler cfg env v p .shortDownload = .ok s1) : Redo cfg v s1 fun u => handler cfg env u p .shortDownload := by
  have h' := h
  simp only [handler, shortDownloadRes, assertPgmIdle, checkMem] at h'
  obtain ⟨len, e1, h'⟩ := bind_split h'
  obtain ⟨ext, e2, h'⟩ := bind_split h'
  obtain ⟨addr, e3, h'⟩ := bind_split h'
  split at h'
  · cases h'; exact Redo.sent hm _ h
  rename_i g1
  split at h'
  · cases h'; exact Redo.sent hm _ h
  rename_i g2
  split at h'
  · cases h'; exact Redo.sent hm _ h
  rename_i g3
  obtain ⟨d, e4, h'⟩ := bind_split h'
  obtain ⟨w, e5, h'⟩ := bind_split h'
  unfold copyIn at e5
  split at e5
  · cases e5
  rename_i g4
  cases e5
  cases h'
  refine ⟨?_, alike_send8 hm _ _⟩
  simp only [handler, shortDownloadRes, assertPgmIdle, checkMem, e1, e2, e3, e4, ok_bind, copyIn]
  rw [if_neg g1, if_neg g2, if_neg g3, if_neg g4]
  show Except.ok _ = Except.ok _
  simp only [positive, send8_mem, send8_masterBlk, write_twice]

theorem redo_handler {cfg : Cfg} {c : Cmd} (hm : cfg.maxDlc = false) (hb : cfg.slaveBlock = false ∨ c ∉ [Cmd.upload, .shortUpload]) {env : Env} {v s1 : St} {p : Pdu}
    (hc : c ∈ Spec.movesMta) (h : handler cfg env v p c = .ok s1) : Redo cfg v s1 fun u => handler cfg env u p c := by
  simp only [Spec.movesMta, List.mem_cons, List.not_mem_nil, or_false] at hc
  rcases hc with rfl | rfl | rfl | rfl | rfl | rfl
  · exact redo_upload hm (hb.resolve_right (by simp)) h
  · exact redo_shortUpload hm (hb.resolve_right (by simp)) h
  · exact redo_download hm h
  · exact redo_downloadMax hm h
  · exact redo_shortDownload hm h
  · exact redo_program hm h

theorem redo_entry {cfg : Cfg} {c : Cmd} (hm : cfg.maxDlc = false) (hb : cfg.slaveBlock = false ∨ c ∉ [Cmd.upload, .shortUpload]) {env : Env} {v s1 : St} {p : Pdu}
    (hc : c ∈ Spec.movesMta) (h : tableEntry cfg env v p c = .ok s1) : Redo cfg v s1 fun u => tableEntry cfg env u p c := by
  by_cases hs : cfg.supports c = true
  · simp only [tableEntry, hs, if_true] at h ⊢
    exact redo_handler hm hb hc h
  · have h' := h
    simp only [tableEntry, hs, if_false, Bool.false_eq_true] at h'
    cases h'
    exact Redo.sent hm _ h

/-- C121: a command that reads or writes at the MTA is tried again behind SYNCH and SET_MTA. -/
theorem C121_mta {cfg : Cfg} {c : Cmd} (hm : cfg.maxDlc = false) (hb : cfg.slaveBlock = false ∨ c ∉ [Cmd.upload, .shortUpload]) (hon : cfg.supports .setMta = true) {env : Env} {s : St}
    (hr : Ready s) {p q : Pdu} (hc : c ∈ Spec.movesMta) (hp : code p = some (cmdCode .setMta)) (hq : code q = some (cmdCode c)) :
    Spec.Retriable cfg env s [p, q] := by
  refine retriable_of hm fun s1 h => ?_
  obtain ⟨t, h1, h⟩ := bind_split (x := step cfg env s (.cmd p)) h
  obtain ⟨w, h2, h⟩ := bind_split (x := step cfg env t (.cmd q)) h
  cases h
  rw [ready_entry env hr hp] at h1
  simp only [tableEntry, hon, if_true, handler, setMtaRes] at h1
  obtain ⟨ext, e1, h1⟩ := bind_split h1
  obtain ⟨addr, e2, h1⟩ := bind_split h1
  cases h1
  have ht : Ready (positive cfg { bumpReceived cfg s with mta := ⟨ext, addr⟩ }) := by
    unfold bumpReceived
    split <;> exact ⟨hr.conn, hr.idle⟩
  rw [ready_entry env ht hq] at h2
  obtain ⟨k1, k2⟩ := redo_entry hm hb hc h2
  have k3 : Spec.Alike cfg { s with mem := s1.mem, masterBlk := s1.masterBlk, mta := s1.mta } s1 := by
    refine Spec.Alike.trans ?_ k2
    refine Spec.Alike.trans (alike_received cfg _) ?_
    have := alike_send8 hm (bumpReceived cfg { s with mem := s1.mem, masterBlk := s1.masterBlk, mta := s1.mta }) [0xFF]
    refine Spec.Alike.trans this ?_
    refine Spec.Alike.trans (alike_received cfg _) ?_
    have e : bumpReceived cfg (send8 cfg (bumpReceived cfg { s with mem := s1.mem, masterBlk := s1.masterBlk, mta := s1.mta }) [0xFF]) =
        { bumpReceived cfg (positive cfg { bumpReceived cfg s with mta := ⟨ext, addr⟩ }) with mem := s1.mem, masterBlk := s1.masterBlk, mta := s1.mta } := by
      unfold bumpReceived
      split <;> rfl
    rw [e]
    exact alike_refl cfg _
  have hr1 : Ready s1 := ⟨by rw [k3.connected]; exact hr.conn, by rw [k3.busy]; exact hr.idle⟩
  have hru : Ready { s with mem := s1.mem, masterBlk := s1.masterBlk, mta := s1.mta } := ⟨hr.conn, hr.idle⟩
  refine ⟨hr1, { s with mem := s1.mem, masterBlk := s1.masterBlk, mta := s1.mta }, s1, k3, ?_, fun _ => rfl, rfl⟩
  show (step cfg env _ (.cmd p) >>= fun x => step cfg env x (.cmd q) >>= fun y => .ok y) = _
  rw [ready_entry env hru hp]
  simp only [tableEntry, hon, if_true, handler, setMtaRes, e1, e2, ok_bind]
  show (step cfg env (positive cfg { bumpReceived cfg { s with mem := s1.mem, masterBlk := s1.masterBlk, mta := s1.mta } with mta := ⟨ext, addr⟩ }) (.cmd q) >>= fun y => .ok y) = _
  have htu : Ready (positive cfg { bumpReceived cfg { s with mem := s1.mem, masterBlk := s1.masterBlk, mta := s1.mta } with mta := ⟨ext, addr⟩ }) := by
    unfold bumpReceived
    split <;> exact ⟨hr.conn, hr.idle⟩
  rw [ready_entry env htu hq]
  have e : bumpReceived cfg (positive cfg { bumpReceived cfg { s with mem := s1.mem, masterBlk := s1.masterBlk, mta := s1.mta } with mta := ⟨ext, addr⟩ }) =
        { bumpReceived cfg (positive cfg { bumpReceived cfg s with mta := ⟨ext, addr⟩ }) with mem := s1.mem, masterBlk := s1.masterBlk } := by
    unfold bumpReceived
    split <;> rfl
  rw [e]
  exact congrArg (fun r : R => r >>= fun y => .ok y) k1

/-! ### Allocation -/

/-- Commands that build up the pool of DAQ lists. -/
def Spec.allocates : List Cmd := [.freeDaq, .allocDaq, .allocOdt, .allocOdtEntry]

/-- Nothing has changed but the pool, and nothing at all while DAQ is locked or programming is going on. -/
structure PoolOnly (cfg : Cfg) (v s1 : St) : Prop where
  alike : Spec.Alike cfg { v with daq := s1.daq } s1
  pool : daqFree s1.daq = daqFree v.daq
  shut : isProtected cfg v RES_DAQ = true ∨ v.pgm = .active → s1.daq = v.daq

theorem PoolOnly.of_alike {cfg : Cfg} {v s1 : St} (h : Spec.Alike cfg v s1) : PoolOnly cfg v s1 := by
  have e := h.daq
  refine ⟨?_, by rw [e], fun _ => e⟩
  rw [e]
  exact h

theorem PoolOnly.trans {cfg : Cfg} {s t u : St} (h1 : PoolOnly cfg s t) (h2 : PoolOnly cfg t u) : PoolOnly cfg s u := by
  refine ⟨?_, h2.pool.trans h1.pool, fun h => ?_⟩
  · refine Spec.Alike.trans (t := { t with daq := u.daq }) ?_ h2.alike
    obtain ⟨a, b, _, d, e, f, g, i, j, k, l, m, n, o, p⟩ := h1.alike
    exact ⟨a, b, rfl, d, e, f, g, i, j, k, l, m, n, o, p⟩
  · rw [h2.shut ?_, h1.shut h]
    rcases h with h | h
    · left
      unfold isProtected at h ⊢
      rw [h1.alike.resProt]
      exact h
    · exact .inr (h1.alike.programming.2 h)

theorem free_legal (a : AllocState) : allocOk a .free = true := by cases a <;> rfl

theorem daqFree_eq (d : Daq) : daqFree d =
    { d with entityCount := 0, listCount := 0, odtCount := 0, listForEvent := fun _ => 0, entities := fun _ => Entity.zero, allocState := .afterFree } := by
  unfold daqFree
  simp only [free_legal, if_true]

theorem pool_allocDaq {cfg : Cfg} (hs : cfg.resetOnSeqErr = false) (d : Daq) (n : Nat) : daqFree (allocDaq cfg d n).1 = daqFree d := by
  unfold allocDaq
  rw [hs]
  split
  · rfl
  split
  · simp only [daqFree_eq, Daq.mapRange]
  · rfl

theorem pool_allocOdt {cfg : Cfg} (hs : cfg.resetOnSeqErr = false) (d : Daq) (l n : Nat) : Post (allocOdt cfg d l n) fun r => daqFree r.1 = daqFree d := by
  unfold allocOdt
  rw [hs]
  intro r h
  split at h
  · cases h; rfl
  split at h
  · obtain ⟨e, _, h⟩ := bind_split h
    cases h
    simp only [daqFree_eq, Daq.mapRange, Daq.setEnt]
  · cases h; rfl

theorem pool_allocOdtEntry {cfg : Cfg} (hs : cfg.resetOnSeqErr = false) (d : Daq) (l o n : Nat) :
    Post (allocOdtEntry cfg d l o n) fun r => daqFree r.1 = daqFree d := by
  unfold allocOdtEntry
  rw [hs]
  intro r h
  split at h
  · cases h; rfl
  split at h
  · obtain ⟨e, _, h⟩ := bind_split h
    obtain ⟨e', _, h⟩ := bind_split h
    cases h
    simp only [daqFree_eq, Daq.mapRange, Daq.setEnt]
  · cases h; rfl

theorem PoolOnly.answer {cfg : Cfg} (hm : cfg.maxDlc = false) {v : St} (d : Daq) (c : UInt8) (h : daqFree d = daqFree v.daq)
    (h1 : ¬ isProtected cfg v RES_DAQ = true) (h2 : ¬ v.pgm = .active) : PoolOnly cfg v (sendResult cfg { v with daq := d } c) := by
  have e : (sendResult cfg { v with daq := d } c).daq = d := by
    unfold sendResult
    split <;> rfl
  refine ⟨?_, by rw [e, h], fun g => (g.elim h1 h2).elim⟩
  rw [e]
  exact result_alike hm _ c

theorem poolOnly_handler {cfg : Cfg} (hm : cfg.maxDlc = false) (hs : cfg.resetOnSeqErr = false) {env : Env} {v s1 : St} {p : Pdu} {c : Cmd}
    (hc : c ∈ Spec.allocates) (h : handler cfg env v p c = .ok s1) : PoolOnly cfg v s1 := by
  simp only [Spec.allocates, List.mem_cons, List.not_mem_nil, or_false] at hc
  rcases hc with rfl | rfl | rfl | rfl
  · simp only [handler, freeDaqRes, assertUnlocked, assertPgmIdle] at h
    split at h
    · cases h; exact .of_alike (result_alike hm _ _)
    rename_i g1
    split at h
    · cases h; exact .of_alike (result_alike hm _ _)
    rename_i g2
    cases h
    exact .answer hm _ _ (by simp only [daqFree_eq]) g1 g2
  · simp only [handler, allocDaqRes, assertUnlocked, assertPgmIdle] at h
    split at h
    · cases h; exact .of_alike (result_alike hm _ _)
    rename_i g2
    split at h
    · cases h; exact .of_alike (result_alike hm _ _)
    rename_i g1
    obtain ⟨n, _, h⟩ := bind_split h
    cases h
    exact .answer hm _ _ (pool_allocDaq hs _ _) g1 g2
  · simp only [handler, allocOdtRes, assertUnlocked, assertPgmIdle] at h
    split at h
    · cases h; exact .of_alike (result_alike hm _ _)
    rename_i g2
    split at h
    · cases h; exact .of_alike (result_alike hm _ _)
    rename_i g1
    obtain ⟨n, _, h⟩ := bind_split h
    obtain ⟨m, _, h⟩ := bind_split h
    obtain ⟨r, e, h⟩ := bind_split h
    cases h
    exact .answer hm _ _ (pool_allocOdt hs _ _ _ r e) g1 g2
  · simp only [handler, allocOdtEntryRes, assertUnlocked, assertPgmIdle] at h
    split at h
    · cases h; exact .of_alike (result_alike hm _ _)
    rename_i g2
    split at h
    · cases h; exact .of_alike (result_alike hm _ _)
    rename_i g1
    obtain ⟨n, _, h⟩ := bind_split h
    obtain ⟨m, _, h⟩ := bind_split h
    obtain ⟨k, _, h⟩ := bind_split h
    obtain ⟨r, e, h⟩ := bind_split h
    cases h
    exact .answer hm _ _ (pool_allocOdtEntry hs _ _ _ _ r e) g1 g2

theorem poolOnly_step {cfg : Cfg} (hm : cfg.maxDlc = false) (hs : cfg.resetOnSeqErr = false) {env : Env} {s s1 : St} (hr : Ready s) {p : Pdu} {c : Cmd}
    (hc : c ∈ Spec.allocates) (hp : code p = some (cmdCode c)) (h : step cfg env s (.cmd p) = .ok s1) : PoolOnly cfg s s1 := by
  rw [ready_entry env hr hp] at h
  refine (PoolOnly.of_alike (alike_received cfg s)).trans ?_
  by_cases g : cfg.supports c = true
  · simp only [tableEntry, g, if_true] at h
    exact poolOnly_handler hm hs hc h
  · simp only [tableEntry, g, if_false, Bool.false_eq_true] at h
    cases h
    exact .of_alike (alike_send8 hm _ _)

theorem PoolOnly.ready {cfg : Cfg} {s s1 : St} (h : PoolOnly cfg s s1) (hr : Ready s) : Ready s1 :=
  ⟨by rw [h.alike.connected]; exact hr.conn, by rw [h.alike.busy]; exact hr.idle⟩

theorem poolOnly_run {cfg : Cfg} (hm : cfg.maxDlc = false) (hs : cfg.resetOnSeqErr = false) {env : Env} : ∀ {ps : List Pdu} {s s1 : St}, Ready s →
    (∀ p ∈ ps, ∃ c ∈ Spec.allocates, code p = some (cmdCode c)) → run cfg s (Spec.sends env ps) = .ok s1 → PoolOnly cfg s s1
  | [], s, s1, _, _, h => by cases h; exact .of_alike (alike_refl cfg s)
  | p :: ps, s, s1, hr, hps, h => by
    obtain ⟨t, h1, h2⟩ := bind_split (x := step cfg env s (.cmd p)) h
    obtain ⟨c, hc, hp⟩ := hps p (by simp)
    have g := poolOnly_step hm hs hr hc hp h1
    exact g.trans (poolOnly_run hm hs (g.ready hr) (fun q hq => hps q (by simp [hq])) h2)

/-- C121: the allocation of DAQ lists is tried again from FREE_DAQ on, wherever it stopped. -/
theorem C121_alloc {cfg : Cfg} (hm : cfg.maxDlc = false) (hs : cfg.resetOnSeqErr = false) (hon : cfg.supports .freeDaq = true) {env : Env} {s : St}
    (hr : Ready s) {p : Pdu} {ps : List Pdu} (hp : code p = some (cmdCode .freeDaq)) (hps : ∀ q ∈ ps, ∃ c ∈ Spec.allocates, code q = some (cmdCode c)) :
    Spec.Retriable cfg env s (p :: ps) := by
  refine retriable_of hm fun s1 h => ?_
  have hall : ∀ q ∈ p :: ps, ∃ c ∈ Spec.allocates, code q = some (cmdCode c) := by
    intro q hq
    rcases List.mem_cons.1 hq with rfl | hq
    · exact ⟨.freeDaq, by simp [Spec.allocates], hp⟩
    · exact hps q hq
  have hP := poolOnly_run hm hs hr hall h
  refine ⟨hP.ready hr, { s with daq := s1.daq }, s1, hP.alike, ?_, fun _ => rfl, rfl⟩
  by_cases g : isProtected cfg s RES_DAQ = true ∨ s.pgm = .active
  · rw [hP.shut g]
    exact h
  have hru : Ready { s with daq := s1.daq } := ⟨hr.conn, hr.idle⟩
  rw [← h]
  show (step cfg env _ (.cmd p) >>= _) = (step cfg env _ (.cmd p) >>= _)
  have e : step cfg env { s with daq := s1.daq } (.cmd p) = step cfg env s (.cmd p) := by
    rw [ready_entry env hru hp, ready_entry env hr hp]
    simp only [tableEntry, hon, if_true, handler, freeDaqRes, assertUnlocked, assertPgmIdle]
    have g1 : ¬ isProtected cfg (bumpReceived cfg s) RES_DAQ = true := by
      intro h; apply g; left; revert h; unfold bumpReceived isProtected; split <;> exact id
    have g2 : ¬ (bumpReceived cfg s).pgm = .active := by
      intro h; apply g; right; revert h; unfold bumpReceived; split <;> exact id
    have e1 : bumpReceived cfg { s with daq := s1.daq } = { bumpReceived cfg s with daq := s1.daq } := by unfold bumpReceived; split <;> rfl
    have e2 : (bumpReceived cfg s).daq = s.daq := by unfold bumpReceived; split <;> rfl
    rw [e1, e2]
    have g3 : ¬ isProtected cfg { bumpReceived cfg s with daq := s1.daq } RES_DAQ = true := g1
    have g4 : ¬ { bumpReceived cfg s with daq := s1.daq }.pgm = .active := g2
    rw [if_neg g1, if_neg g2, if_neg g3, if_neg g4]
    simp only [daqFreeResult, free_legal, if_true, hP.pool]
  rw [e]

/-! ### Commands that need no preparation -/

theorem step_idle {cfg : Cfg} (env : Env) {s : St} (hr : Ready s) {p : Pdu} {c : Cmd} (hc : c ∉ Spec.once) (hp : code p = some (cmdCode c)) :
    Post (step cfg env s (.cmd p)) fun s' => s'.busy = false := by
  rw [ready_entry env hr hp]
  have hb : (bumpReceived cfg s).busy = false := by
    unfold bumpReceived
    split <;> exact hr.idle
  revert hb
  generalize bumpReceived cfg s = t
  intro hb
  unfold tableEntry
  refine Post.ite (fun _ => ?_) fun _ => Post.ok hb
  cases c
  all_goals first
    | (exfalso; apply hc; simp [Spec.once]; done)
    | (unfold_handlers; post)
  all_goals simp [hb]

/-- C121: a command that can be repeated (C119) can be tried again behind SYNCH alone (DISCONNECT, too:
the slave keeps answering after it, C09). -/
theorem C121_repeatable {cfg : Cfg} (hm : cfg.maxDlc = false) {env : Env} {s : St} (hr : Ready s) {p : Pdu} {c : Cmd} (hc : c ∉ Spec.once)
    (hp : code p = some (cmdCode c)) : Spec.Retriable cfg env s [p] := by
  refine retriable_of hm fun s1 h => ?_
  obtain ⟨t, h1, h⟩ := bind_split (x := step cfg env s (.cmd p)) h
  cases h
  obtain ⟨s2, e1, e2, e3⟩ := C119_repeatable c hc cfg env s s1 p hm hr hp h1
  refine ⟨?_, s1, s2, alike_refl cfg s1, ?_, e3, e2⟩
  · exact ⟨step_connected env _ hr.conn _ h1, step_idle env hr hc hp _ h1⟩
  · show (step cfg env _ (.cmd p) >>= _) = _
    rw [e1]
    rfl

/-! ### What cannot be tried again -/

/-- A command behind the one that prepares it can always be tried again. -/
def Spec.PreparedRetry (a c : Cmd) : Prop :=
  ∀ (cfg : Cfg) (env : Env) (s : St) (p q : Pdu), cfg.maxDlc = false → cfg.supports a = true → Ready s → code p = some (cmdCode a) →
    code q = some (cmdCode c) → Spec.Retriable cfg env s [p, q]

/-- The full statement: it holds for the commands that are sent behind another one that prepares them. -/
def Spec.AllPreparedRetry : Prop :=
  (∀ c ∈ Spec.movesMta ++ [.buildChecksum], Spec.PreparedRetry .setMta c) ∧ Spec.PreparedRetry .getSeed .unlock

/-- C121: it holds for the commands that write. -/
theorem C121_prepared_partial (c : Cmd) (hc : c ∈ [Cmd.download, .downloadMax, .shortDownload, .program]) : Spec.PreparedRetry .setMta c := by
  intro cfg env s p q hm hon hr hp hq
  refine C121_mta hm (.inr ?_) hon hr ?_ hp hq
  · intro h
    simp only [List.mem_cons, List.not_mem_nil, or_false] at hc h
    rcases h with rfl | rfl <;> simp at hc
  · simp only [Spec.movesMta, List.mem_cons, List.not_mem_nil, or_false] at hc ⊢
    rcases hc with rfl | rfl | rfl | rfl <;> simp

/-- After `before`, trying the packets again leads to other packets. -/
def Ex.inVain (cfg : Cfg) (env : Env) (before ps : List (List UInt8)) : Bool :=
  match run cfg (St.init cfg Ex.mem) (Spec.sends env (before.map Ex.pkt)) with
  | .error _ => false
  | .ok s => s.connected && !s.busy && match run cfg s (Spec.sends env (ps.map Ex.pkt)) with
    | .error _ => false
    | .ok s1 => match run cfg s1 (Spec.sends env (Ex.pkt [0xFC] :: ps.map Ex.pkt)) with
      | .error _ => true
      | .ok s2 => decide ((Spec.said cfg s1 s2).map Prod.snd ≠ [0xFE, 0] :: (Spec.said cfg s s1).map Prod.snd)

theorem inVain_fails {cfg : Cfg} {env : Env} {before : List (List UInt8)} {x y : List UInt8} {a c : Cmd}
    (h : (!cfg.maxDlc && cfg.supports a && decide (code (Ex.pkt x) = some (cmdCode a)) && decide (code (Ex.pkt y) = some (cmdCode c)) &&
      Ex.inVain cfg env before [x, y]) = true) : ¬ Spec.PreparedRetry a c := by
  intro hr
  simp only [Bool.and_eq_true, decide_eq_true_eq, Bool.not_eq_true'] at h
  obtain ⟨⟨⟨⟨hm, ha⟩, hx⟩, hy⟩, h⟩ := h
  unfold Ex.inVain at h
  split at h
  · cases h
  · rename_i s hs
    simp only [Bool.and_eq_true, Bool.not_eq_true'] at h
    obtain ⟨⟨h1, h2⟩, h⟩ := h
    split at h
    · cases h
    · rename_i s1 hs1
      obtain ⟨s2, e1, e2, e3⟩ := hr cfg env s _ _ hm ha ⟨h1, h2⟩ hx hy s1 (Ex.pkt [0xFC]) hs1 rfl
      have e1' : run cfg s1 (Spec.sends env (Ex.pkt [0xFC] :: [x, y].map Ex.pkt)) = .ok s2 := e1
      rw [e1'] at h
      simp only [decide_eq_true_eq] at h
      exact h (by rw [e2]; rfl)

/-- C121: not so for UNLOCK behind GET_SEED (the resource is unlocked now, the second seed is empty and
the second key out of sequence), for BUILD_CHECKSUM behind SET_MTA (the slave is busy) and for UPLOAD
in blocks. -/
theorem C121_fails : ¬ Spec.PreparedRetry .getSeed .unlock ∧ ¬ Spec.PreparedRetry .setMta .buildChecksum ∧ ¬ Spec.PreparedRetry .setMta .upload := by
  refine ⟨inVain_fails (cfg := Ex.sec) (env := Ex.env) (before := [[0xFF]]) (x := [0xF8, 0, 1]) (y := [0xF7, 4, 1, 2, 3, 4]) ?_,
    inVain_fails (cfg := Ex.bare) (env := Ex.env) (before := [[0xFF]]) (x := Ex.mta) (y := [0xF3, 0, 0, 0, 200, 0, 0, 0]) ?_,
    inVain_fails (cfg := { Ex.bare with slaveBlock := true }) (env := Ex.env) (before := [[0xFF]]) (x := Ex.mta) (y := [0xF5, 200]) ?_⟩
  all_goals decide +kernel

theorem C121_not_all : ¬ Spec.AllPreparedRetry := fun h => C121_fails.1 h.2

/-! ### Examples -/

/-- A download to 0x1234 whose answer is lost is tried again; the upload behind it continues at 0x1236 and the memory
holds the data once. -/
example : Ex.replies Ex.bare [[0xFF], Ex.mta, [0xF0, 2, 1, 2], [0xFC], Ex.mta, [0xF0, 2, 1, 2], [0xF5, 1], Ex.mta, [0xF5, 3]] =
    some [[0xFF, 0x15, 0x80, 64, 64, 0, 1, 1], [0xFF], [0xFF], [0xFE, 0], [0xFF], [0xFF], [0xFF, 0x36], [0xFF], [0xFF, 1, 2, 0x36]] := by
  decide +kernel

/-- Without SET_MTA the second download goes two bytes further. -/
example : Ex.replies Ex.bare [[0xFF], Ex.mta, [0xF0, 2, 1, 2], [0xFC], [0xF0, 2, 1, 2], Ex.mta, [0xF5, 4]] =
    some [[0xFF, 0x15, 0x80, 64, 64, 0, 1, 1], [0xFF], [0xFF], [0xFE, 0], [0xFF], [0xFF], [0xFF, 1, 2, 1, 2]] := by
  decide +kernel

/-- An allocation is broken off and tried again: one list. -/
example : Ex.replies { Ex.bare with resetOnSeqErr := false } [[0xFF], [0xD6], [0xD5, 0, 1, 0], [0xD4, 0, 0, 0, 1], [0xFC], [0xD6], [0xD5, 0, 1, 0], [0xD4, 0, 0, 0, 1],
      [0xD3, 0, 0, 0, 0, 2], [0xDA]] =
    some [[0xFF, 0x15, 0x80, 64, 64, 0, 1, 1], [0xFF], [0xFF], [0xFF], [0xFE, 0], [0xFF], [0xFF], [0xFF], [0xFF], [0xFF, 3, 1, 0, 3, 0, 0, 0]] := by
  decide +kernel

example : ({ Ex.bare with resetOnSeqErr := false } : Cfg).supports .freeDaq = true ∧ ({ Ex.bare with resetOnSeqErr := false } : Cfg).supports .setMta = true := by
  decide +kernel

end Xcp
