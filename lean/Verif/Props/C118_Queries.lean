import Verif.Props.C117_Session
/-
C118: Information commands have no side effects.
-/
set_option autoImplicit false
namespace Xcp
open Spec

/-- Commands that ask for information, test the connection or are meant to do nothing to the slave. -/
def Spec.asking : List Cmd :=
  [.getStatus, .synch, .getCommModeInfo, .getDaqListMode, .getDaqClock, .getDaqProcessorInfo, .getDaqResolutionInfo, .getDaqListInfo,
   .getPgmProcessorInfo, .getSectorInfo, .transportLayerCmd, .userCmd, .getCalPage, .getPagProcessorInfo, .getSegmentInfo, .getPageInfo,
   .getSegmentMode]

/-- Commands that ask for information and set the MTA to where it can be uploaded. -/
def Spec.pointing : List Cmd := [.getId, .getDaqEventInfo]

theorem alike_refl (cfg : Cfg) (s : St) : Spec.Alike cfg s s :=
  ⟨rfl, rfl, rfl, rfl, rfl, rfl, rfl, Iff.rfl, fun _ => rfl, rfl, fun _ => rfl, rfl, fun _ => rfl, rfl, fun _ => rfl⟩

theorem alike_send8 {cfg : Cfg} (hm : cfg.maxDlc = false) (s : St) (bs : List UInt8) : Spec.Alike cfg s (send8 cfg s bs) :=
  ⟨rfl, rfl, rfl, rfl, rfl, rfl, rfl, Iff.rfl, fun hx => absurd hx (by rw [hm]; decide), rfl, fun _ => rfl, rfl, fun _ => rfl, rfl, fun _ => rfl⟩

theorem Spec.Alike.trans {cfg : Cfg} {s t u : St} (h : Spec.Alike cfg s t) (g : Spec.Alike cfg t u) : Spec.Alike cfg s u :=
  ⟨g.connected.trans h.connected, g.busy.trans h.busy, g.daq.trans h.daq, g.resProt.trans h.resProt, g.seedReq.trans h.seedReq,
   g.mta.trans h.mta, g.mem.trans h.mem, g.programming.trans h.programming, fun hx => (g.buffer hx).trans (h.buffer hx),
   g.upload.trans h.upload, fun hx => (g.uploadRest (h.upload.trans hx)).trans (h.uploadRest hx), g.download.trans h.download,
   fun hx => (g.downloadRest (h.download.trans hx)).trans (h.downloadRest hx), g.job.trans h.job,
   fun hx => (g.jobData (by rw [h.job]; exact hx)).trans (h.jobData hx)⟩

theorem alike_received (cfg : Cfg) (s : St) : Spec.Alike cfg s (bumpReceived cfg s) := by
  unfold bumpReceived
  split
  · exact ⟨rfl, rfl, rfl, rfl, rfl, rfl, rfl, Iff.rfl, fun _ => rfl, rfl, fun _ => rfl, rfl, fun _ => rfl, rfl, fun _ => rfl⟩
  · exact alike_refl cfg s

theorem asking_handler {cfg : Cfg} (hm : cfg.maxDlc = false) (env : Env) (s : St) (p : Pdu) (c : Cmd) (hc : c ∈ Spec.asking) :
    Post (handler cfg env s p c) (Spec.Alike cfg s) := by
  simp only [Spec.asking, List.mem_cons, List.not_mem_nil, or_false] at hc
  rcases hc with rfl | rfl | rfl | rfl | rfl | rfl | rfl | rfl | rfl | rfl | rfl | rfl | rfl | rfl | rfl | rfl | rfl
  all_goals unfold_handlers
  all_goals post
  all_goals first
    | exact alike_send8 hm _ _
    | exact alike_refl cfg s
    | exact (alike_send8 hm _ _).trans (alike_send8 hm _ _)

theorem tableEntry_alike {cfg : Cfg} (hm : cfg.maxDlc = false) {env : Env} {s t : St} {p : Pdu} {c : Cmd}
    (h : Post (handler cfg env s p c) (Spec.Alike cfg t)) (h0 : Spec.Alike cfg t s) : Post (tableEntry cfg env s p c) (Spec.Alike cfg t) := by
  unfold tableEntry
  split
  · exact h
  · exact Post.ok (h0.trans (alike_send8 hm _ _))

theorem ready_entry {cfg : Cfg} (env : Env) {s : St} (hr : Ready s) {p : Pdu} {c : Cmd} (hq : code p = some (cmdCode c)) :
    step cfg env s (.cmd p) = tableEntry cfg env (bumpReceived cfg s) p c := by
  have hb : p.byte 0 = .ok (cmdCode c) := by
    unfold code at hq
    unfold Pdu.byte
    rw [hq]
  show dispatch cfg env s p = _
  unfold dispatch
  rw [hb]
  simp only [ok_bind, hr.conn, hr.idle, table_code]
  rfl

/-- C118: an information command leaves no trace.  Whatever comes after it leads to the same packets, the
same memory and the same faults as without it. -/
theorem C118_asking {cfg : Cfg} (hm : cfg.maxDlc = false) {s s' : St} (hr : Ready s) {c : Cmd} (hc : c ∈ Spec.asking) {p : Pdu}
    (hq : code p = some (cmdCode c)) {env : Env} (h1 : step cfg env s (.cmd p) = .ok s') (l : List (Env × Op)) :
    Spec.outcome cfg s' l = Spec.outcome cfg s l := by
  rw [ready_entry env hr hq] at h1
  have h0 := alike_received cfg s
  have h2 := tableEntry_alike hm (t := s) (s := bumpReceived cfg s) (fun x hx => h0.trans (asking_handler hm env _ p c hc x hx)) h0 s' h1
  exact C117_alike h2 l

theorem pointing_handler {cfg : Cfg} (hm : cfg.maxDlc = false) (env : Env) (s : St) (p : Pdu) (c : Cmd) (hc : c ∈ Spec.pointing) :
    Post (handler cfg env s p c) fun s' => Spec.Alike cfg { s with mta := s'.mta } s' := by
  have h : ∀ (m : Mta) (bs : List UInt8), Spec.Alike cfg { s with mta := m } (send8 cfg { s with mta := m } bs) := fun m bs => alike_send8 hm _ _
  simp only [Spec.pointing, List.mem_cons, List.not_mem_nil, or_false] at hc
  rcases hc with rfl | rfl
  all_goals unfold_handlers
  all_goals post
  all_goals first
    | exact h _ _
    | exact alike_send8 hm _ _

/-- C118: GET_ID and GET_DAQ_EVENT_INFO change the MTA and nothing else. -/
theorem C118_pointing {cfg : Cfg} (hm : cfg.maxDlc = false) {s s' : St} (hr : Ready s) {c : Cmd} (hc : c ∈ Spec.pointing) {p : Pdu}
    (hq : code p = some (cmdCode c)) {env : Env} (h1 : step cfg env s (.cmd p) = .ok s') (l : List (Env × Op)) :
    Spec.outcome cfg s' l = Spec.outcome cfg { s with mta := s'.mta } l := by
  rw [ready_entry env hr hq] at h1
  have h2 : Spec.Alike cfg { bumpReceived cfg s with mta := s'.mta } s' := by
    unfold tableEntry at h1
    split at h1
    · exact pointing_handler hm env _ p c hc s' h1
    · injection h1 with h1
      subst h1
      exact alike_send8 hm _ _
  have h3 : Spec.Alike cfg { s with mta := s'.mta } { bumpReceived cfg s with mta := s'.mta } := by
    have := bumpReceived_same cfg s
    have h0 := alike_received cfg s
    exact ⟨h0.connected, h0.busy, h0.daq, h0.resProt, h0.seedReq, rfl, h0.mem, h0.programming, h0.buffer, h0.upload, h0.uploadRest, h0.download, h0.downloadRest, h0.job, h0.jobData⟩
  exact C117_alike (h3.trans h2) l

/-- C118: a CONNECT during a session is answered and leaves no trace. -/
theorem C118_connect {cfg : Cfg} (hm : cfg.maxDlc = false) {s s' : St} (hr : Ready s) {p : Pdu}
    (hq : code p = some 0xFF) {env : Env} (h1 : step cfg env s (.cmd p) = .ok s') (l : List (Env × Op)) :
    Spec.outcome cfg s' l = Spec.outcome cfg s l := by
  rw [ready_entry (c := .connect) env hr hq] at h1
  have h0 := alike_received cfg s
  refine C117_alike (tableEntry_alike hm (t := s) (s := bumpReceived cfg s) ?_ h0 s' h1) l
  unfold_handlers
  refine Post.ok ?_
  refine h0.trans (Spec.Alike.trans (t := { bumpReceived cfg s with connected := true }) ?_ (alike_send8 hm _ _))
  have h2 : (bumpReceived cfg s).connected = true := by simpa using hr.conn
  exact ⟨h2.symm, rfl, rfl, rfl, rfl, rfl, rfl, Iff.rfl, fun _ => rfl, rfl, fun _ => rfl, rfl, fun _ => rfl, rfl, fun _ => rfl⟩

/-- C118: a command that arrives while the slave is busy leaves no trace. -/
theorem C118_busy {cfg : Cfg} (hm : cfg.maxDlc = false) {s s' : St} (hc : s.connected = true) (hb : s.busy = true) {p : Pdu}
    {env : Env} (h1 : step cfg env s (.cmd p) = .ok s') (l : List (Env × Op)) :
    Spec.outcome cfg s' l = Spec.outcome cfg s l := by
  have h2 : s' = busyResponse cfg s := by
    have h3 : dispatch cfg env s p = .ok s' := h1
    unfold dispatch at h3
    cases hp : p.byte 0 with
    | error e => rw [hp] at h3; cases h3
    | ok b =>
      rw [hp] at h3
      simp only [ok_bind, hc, hb, if_true] at h3
      injection h3 with h3
      exact h3.symm
  subst h2
  refine C117_alike ?_ l
  unfold busyResponse errorResp
  refine Spec.Alike.trans ?_ (alike_send8 hm _ _)
  split
  · exact ⟨rfl, rfl, rfl, rfl, rfl, rfl, rfl, Iff.rfl, fun _ => rfl, rfl, fun _ => rfl, rfl, fun _ => rfl, rfl, fun _ => rfl⟩
  · exact alike_refl cfg s

/-- C118: a packet other than CONNECT that arrives before the first CONNECT leaves no trace. -/
theorem C118_before {cfg : Cfg} {s s' : St} (hc : s.connected = false) {p : Pdu} (hq : code p ≠ some 0xFF)
    {env : Env} (h1 : step cfg env s (.cmd p) = .ok s') (l : List (Env × Op)) :
    Spec.outcome cfg s' l = Spec.outcome cfg s l := by
  have h2 : s' = bumpReceived cfg s := by
    have h3 : dispatch cfg env s p = .ok s' := h1
    unfold dispatch at h3
    unfold code at hq
    cases hp : p.buf[0]? with
    | none =>
      have : p.byte 0 = .error .rxOob := by unfold Pdu.byte; rw [hp]
      rw [this] at h3; cases h3
    | some b =>
      have hb : p.byte 0 = .ok b := by unfold Pdu.byte; rw [hp]
      have hne : b ≠ 0xFF := fun hx => hq (by rw [hp, hx])
      rw [hb] at h3
      simp only [ok_bind, hc, Bool.false_eq_true, if_false, hne] at h3
      injection h3 with h3
      exact h3.symm
  subst h2
  exact C117_alike (alike_received cfg s) l

/-- C118: event and service request packets leave no trace. -/
theorem C118_event {cfg : Cfg} (hm : cfg.maxDlc = false) {s s' : St} {op : Op} (ho : (∃ c d, op = .eventPkt c d) ∨ ∃ c d, op = .servPkt c d)
    {env : Env} (h1 : step cfg env s op = .ok s') (l : List (Env × Op)) : Spec.outcome cfg s' l = Spec.outcome cfg s l := by
  have key : ∀ bs, sendBytes cfg s bs = .ok s' → Spec.outcome cfg s' l = Spec.outcome cfg s l := by
    intro bs h
    unfold sendBytes at h
    split at h
    · cases h
    · injection h with h
      subst h
      refine C117_alike (s := s) (t := sendRaw cfg s bs) ?_ l
      exact ⟨rfl, rfl, rfl, rfl, rfl, rfl, rfl, Iff.rfl, fun hx => absurd hx (by rw [hm]; decide), rfl, fun _ => rfl, rfl, fun _ => rfl, rfl, fun _ => rfl⟩
  rcases ho with ⟨c, d, rfl⟩ | ⟨c, d, rfl⟩
  · exact key _ h1
  · exact key _ h1

/-- CLEAR_DAQ_LIST, which is to clear the entries of a list, is among the commands that leave no trace:
it is acknowledged (see C38) and does nothing. -/
theorem C118_clear {cfg : Cfg} (hm : cfg.maxDlc = false) {s s' : St} (hr : Ready s) {p : Pdu}
    (hq : code p = some (cmdCode .clearDaqList)) {env : Env} (h1 : step cfg env s (.cmd p) = .ok s') (l : List (Env × Op)) :
    Spec.outcome cfg s' l = Spec.outcome cfg s l := by
  rw [ready_entry env hr hq] at h1
  have h0 := alike_received cfg s
  refine C117_alike (tableEntry_alike hm (t := s) (s := bumpReceived cfg s) ?_ h0 s' h1) l
  unfold_handlers
  post
  all_goals exact h0.trans (alike_send8 hm _ _)

/-- C118: a BUILD_CHECKSUM that is answered at once leaves no trace; in particular it leaves the MTA where
it was. -/
theorem C118_checksum {cfg : Cfg} (hm : cfg.maxDlc = false) (hk : cfg.chunked = false) {s s' : St} (hr : Ready s) {p : Pdu}
    (hq : code p = some (cmdCode .buildChecksum)) {env : Env} (h1 : step cfg env s (.cmd p) = .ok s') (l : List (Env × Op)) :
    Spec.outcome cfg s' l = Spec.outcome cfg s l := by
  rw [ready_entry env hr hq] at h1
  have h0 := alike_received cfg s
  refine C117_alike (tableEntry_alike hm (t := s) (s := bumpReceived cfg s) ?_ h0 s' h1) l
  unfold_handlers
  simp only [hk, Bool.false_eq_true, false_and, if_false]
  post
  all_goals exact h0.trans (alike_send8 hm _ _)

/-- The full statement: a command that only asks for something, GET_ID and GET_DAQ_EVENT_INFO included,
leaves no trace. -/
def Spec.AskingLeavesNoTrace : Prop :=
  ∀ (cfg : Cfg) (s s' : St) (env : Env) (p : Pdu) (c : Cmd) (l : List (Env × Op)), cfg.maxDlc = false → Ready s → c ∈ Spec.asking ++ Spec.pointing →
    code p = some (cmdCode c) → step cfg env s (.cmd p) = .ok s' → Spec.outcome cfg s' l = Spec.outcome cfg s l

def Ex.asked : List (List UInt8) := [[0xFF], [0xF6, 0, 0, 0, 0x34, 0x12, 0, 0]]

/-- It fails: GET_ID redirects a following UPLOAD. -/
theorem C118_fails : ¬ Spec.AskingLeavesNoTrace := by
  intro h
  have e : ∃ s, run Ex.sim (St.init Ex.sim Ex.mem) (Ex.asked.map Ex.c) = .ok s ∧ Ready s ∧ ∃ s', step Ex.sim Ex.env s (.cmd (Ex.pkt [0xFA, 0])) = .ok s' ∧
      (Spec.outcome Ex.sim s' [Ex.c [0xF5, 2]]).toOption.map (fun x => x.1.map Prod.snd) ≠
        (Spec.outcome Ex.sim s [Ex.c [0xF5, 2]]).toOption.map (fun x => x.1.map Prod.snd) := by
    have h1 : ((run Ex.sim (St.init Ex.sim Ex.mem) (Ex.asked.map Ex.c)).toOption.map fun s => (s.connected, s.busy)) = some (true, false) ∧
        (((run Ex.sim (St.init Ex.sim Ex.mem) (Ex.asked.map Ex.c)).toOption.bind fun s => (step Ex.sim Ex.env s (.cmd (Ex.pkt [0xFA, 0]))).toOption.map fun s' =>
          (Spec.outcome Ex.sim s' [Ex.c [0xF5, 2]]).toOption.map fun x => x.1.map Prod.snd) = some (some [[0xFF, 0, 1]])) ∧
        (((run Ex.sim (St.init Ex.sim Ex.mem) (Ex.asked.map Ex.c)).toOption.map fun s =>
          (Spec.outcome Ex.sim s [Ex.c [0xF5, 2]]).toOption.map fun x => x.1.map Prod.snd) = some (some [[0xFF, 0x34, 0x35]])) := by
      decide +kernel
    revert h1
    cases hx : run Ex.sim (St.init Ex.sim Ex.mem) (Ex.asked.map Ex.c) with
    | error f => intro h1; simp [Except.toOption] at h1
    | ok s =>
      intro ⟨h1, h2, h3⟩
      simp only [Except.toOption, Option.map_some, Option.some.injEq, Prod.mk.injEq, Option.bind_some] at h1 h2 h3
      refine ⟨s, rfl, ⟨h1.1, h1.2⟩, ?_⟩
      cases hy : step Ex.sim Ex.env s (.cmd (Ex.pkt [0xFA, 0])) with
      | error f => rw [hy] at h2; simp at h2
      | ok s' =>
        rw [hy] at h2
        simp only [Option.map_some, Option.some.injEq] at h2
        refine ⟨s', rfl, ?_⟩
        intro hz
        have h4 := h2.symm.trans (hz.trans h3)
        revert h4
        decide
  obtain ⟨s, _, hr, s', hs, hne⟩ := e
  exact hne (by rw [h Ex.sim s s' Ex.env _ .getId [Ex.c [0xF5, 2]] rfl hr (by decide) (by decide) hs])

/-! ### Examples -/

/-- Packets of a history. -/
def Ex.heard (cfg : Cfg) (h : List (List UInt8)) : Option (List (List UInt8)) :=
  (Spec.outcome cfg (St.init cfg Ex.mem) (h.map Ex.c)).toOption.map fun x => x.1.map Prod.snd

/-- Non-trivial: information commands in the middle of an upload by parts and of the configuration of
data acquisition; GET_ID does move the MTA. -/
example :
    Ex.heard Ex.sim [[0xFF], [0xF6, 0, 0, 0, 0x34, 0x12, 0, 0], [0xF5, 2], [0xD6], [0xD5, 0, 1, 0], [0xD4, 0, 0, 0, 1], [0xF5, 2]] =
      some [[0xFF, 0x15, 0x80, 64, 64, 0, 1, 1], [0xFF], [0xFF, 0x34, 0x35], [0xFF], [0xFF], [0xFF], [0xFF, 0x36, 0x37]] ∧
    Ex.heard Ex.sim [[0xFF], [0xF6, 0, 0, 0, 0x34, 0x12, 0, 0], [0xF5, 2], [0xFC], [0xD6], [0xFD], [0xD5, 0, 1, 0], [0xFF], [0xDA], [0xD4, 0, 0, 0, 1],
        [0xFB], [0xF5, 2]] =
      some [[0xFF, 0x15, 0x80, 64, 64, 0, 1, 1], [0xFF], [0xFF, 0x34, 0x35], [0xFE, 0], [0xFF], [0xFF, 0, 0, 0, 0, 0], [0xFF],
        [0xFF, 0x15, 0x80, 64, 64, 0, 1, 1], [0xFF, 3, 1, 0, 3, 0, 0, 0], [0xFF], [0xFF, 0, 0, 0, 8, 0, 0, 10], [0xFF, 0x36, 0x37]] ∧
    Ex.heard Ex.sim [[0xFF], [0xF6, 0, 0, 0, 0x34, 0x12, 0, 0], [0xF5, 2], [0xFA, 0], [0xF5, 2]] =
      some [[0xFF, 0x15, 0x80, 64, 64, 0, 1, 1], [0xFF], [0xFF, 0x34, 0x35], [0xFF, 0, 0, 0, 33, 0, 0, 0], [0xFF, 0, 1]] := by
  decide +kernel

end Xcp
