import Verif.Props.C70_PredefModes
/-
C71: predefined lists cannot be altered.

WRITE_DAQ and WRITE_DAQ_MULTIPLE are refused in every state that can occur; SET_DAQ_PTR is accepted exactly for the
entries in the tables.  The upper byte of the list number is ignored (`C71_fails_list`).
-/
set_option autoImplicit false
namespace Xcp
open Spec

/-- Entry `k` of ODT `j` of list `l` is in the tables. -/
def Spec.InTables (cfg : PCfg) (l j k : Nat) : Prop :=
  ∃ pl o, cfg.lists[l]? = some pl ∧ j < pl.numOdts.toNat ∧ cfg.odts[pl.firstOdt.toNat + j]? = some o ∧ k < o.numEntries.toNat

/-- The DAQ pointer points to a list, and there is a mode for each list. -/
structure Spec.PInv (cfg : PCfg) (s : PSt) : Prop where
  ptr : s.st.daq.ptr.list < cfg.lists.length
  modes : s.modes.length = cfg.lists.length

theorem Spec.PInv.keep {cfg : PCfg} {s : PSt} (h : PInv cfg s) {st : St} (hd : st.daq.ptr = s.st.daq.ptr) : PInv cfg { s with st := st } :=
  ⟨by show st.daq.ptr.list < _; rw [hd]; exact h.ptr, h.modes⟩

theorem Spec.PInv.keepM {cfg : PCfg} {s : PSt} (h : PInv cfg s) {st : St} (hd : st.daq.ptr = s.st.daq.ptr) {m : List UInt8}
    (hm : m.length = s.modes.length) : PInv cfg ⟨st, m⟩ :=
  ⟨by show st.daq.ptr.list < _; rw [hd]; exact h.ptr, hm.trans h.modes⟩

theorem setModeAt_length {m : List UInt8} {i : Nat} {f : UInt8 → UInt8} : Post (setModeAt m i f) (fun m' => m'.length = m.length) := by
  unfold setModeAt
  exact Post.bindAny fun b _ => Post.pure (by simp)

theorem setModes_length (f : UInt8 → UInt8) (l : List Nat) (m : List UInt8) :
    Post (l.foldlM (fun m i => setModeAt m i f) m) (fun m' => m'.length = m.length) := by
  induction l generalizing m with
  | nil => exact Post.pure rfl
  | cons i l ih =>
    rw [foldlM_cons]
    exact Post.bindAny fun b hb => (ih b).mono fun a ha => ha.trans (setModeAt_length b hb)

theorem pDaqInit_inv {cfg : PCfg} (hc : Consistent cfg) {s : PSt} (h : PInv cfg s) : Post (pDaqInit cfg s) (PInv cfg) := by
  unfold pDaqInit
  refine Post.bindAny fun a ha => Post.bindAny fun b hb => Post.pure ⟨hc.pos, ?_⟩
  exact (setModes_length _ _ _ b hb).trans ((setModes_length _ _ _ a ha).trans h.modes)

theorem pDisconnect_inv {cfg : PCfg} (hc : Consistent cfg) {s : PSt} (h : PInv cfg s) : Post (pDisconnect cfg s) (PInv cfg) :=
  pDaqInit_inv hc (h.keep (by unfold defaultResourceProtection; split <;> rfl))

theorem pPgmIdle_inv {cfg : PCfg} {s : PSt} (h : PInv cfg s) {k : PR} (hk : Post k (PInv cfg)) : Post (pPgmIdle cfg s k) (PInv cfg) :=
  Post.ite (fun _ => Post.ok (h.keep rfl)) (fun _ => hk)

theorem pDaqStopped_inv {cfg : PCfg} {s : PSt} (h : PInv cfg s) {k : PR} (hk : Post k (PInv cfg)) : Post (pDaqStopped cfg s k) (PInv cfg) :=
  Post.ite (fun _ => Post.ok (h.keep rfl)) (fun _ => hk)

theorem pUnlocked_inv {cfg : PCfg} {s : PSt} (h : PInv cfg s) {k : PR} (hk : Post k (PInv cfg)) : Post (pUnlocked cfg s k) (PInv cfg) :=
  Post.ite (fun _ => Post.ok (h.keep rfl)) (fun _ => hk)

theorem pWriteProtected_inv {cfg : PCfg} {s : PSt} (h : PInv cfg s) : Post (pWriteProtected cfg s) (PInv cfg) :=
  Post.ite (fun _ => Post.ok (h.keep rfl)) (fun _ => Post.error)

theorem pListEnd_inv {cfg : PCfg} {s : PSt} (h : PInv cfg s) (l : Nat) : Post (pStartStopDaqListEnd cfg s l) (PInv cfg) :=
  Post.bindAny fun _ _ => Post.pure (h.keep rfl)

theorem pListBody_inv {cfg : PCfg} {s : PSt} (h : PInv cfg s) (m : UInt8) (l : Nat) : Post (pStartStopDaqListBody cfg s m l) (PInv cfg) := by
  unfold pStartStopDaqListBody
  refine Post.ite (fun _ => pListEnd_inv h l) fun _ => Post.ite (fun _ => pListEnd_inv h l) fun _ => Post.ite (fun _ => ?_) fun _ => ?_
  · exact Post.bindAny fun b hb => pListEnd_inv (h.keepM rfl (setModeAt_length b hb)) l
  · exact Post.ok (h.keep rfl)

theorem pValidate_list {cfg : PCfg} (hc : Consistent cfg) {l j k : Nat} (h : pValidate cfg l j k = .ok true) : l < cfg.lists.length := by
  unfold pValidate at h
  by_cases hl : cfg.count ≤ l
  · rw [if_pos hl] at h; cases h
  · rw [hc.count] at hl; omega

theorem addEvent_ptr {cfg : Cfg} {d : Daq} {l e : Nat} : Post (addEventChannel cfg d l e) (fun d' => d'.ptr = d.ptr) := by
  unfold addEventChannel
  exact Post.ite (fun _ => Post.ok rfl) (fun _ => Post.error)

theorem pHandler_inv {cfg : PCfg} (hc : Consistent cfg) (env : Env) {s : PSt} (h : PInv cfg s) (p : Pdu) (c : Cmd) :
    Post (pHandler cfg env s p c) (PInv cfg) := by
  have base : ∀ c, changesDaq c = false → Post (do
      let st ← handler cfg.base env s.st p c
      return ({ s with st := st } : PSt)) (PInv cfg) := by
    intro c hcd
    exact Post.bindAny fun b hb => Post.pure (h.keep (by rw [handler_daq env p c hcd b hb]))
  have notImpl : Post (do
      let st ← notImplemented cfg.base s.st
      return ({ s with st := st } : PSt)) (PInv cfg) := by
    refine Post.bindAny fun b hb => Post.pure (h.keep ?_)
    cases hb
    rfl
  cases c <;> first | exact base _ rfl | exact notImpl | skip
  · -- disconnect
    exact pPgmIdle_inv h (pDisconnect_inv hc (h.keep rfl))
  · -- unlock
    simp only [pHandler, pUnlockRes]
    refine Post.bindAny fun len _ => pPgmIdle_inv h (Post.ite (fun _ => ?_) fun _ => Post.ite (fun _ => ?_) fun _ => ?_)
    · exact Post.ok (h.keep rfl)
    · exact Post.ok (h.keep rfl)
    · refine Post.bindAny fun b hb => Post.pure ?_
      have h1 := pDisconnect_inv hc (s := { s with st := errorResp cfg.base s.st ERR_ACCESS_LOCKED })
        (h.keep rfl) b hb
      exact ⟨h1.ptr, h1.modes⟩
  · -- setDaqPtr
    refine pDaqStopped_inv h (pPgmIdle_inv h (pUnlocked_inv h ?_))
    refine Post.bindAny fun list _ => Post.bindAny fun odt _ => Post.bindAny fun entry _ => Post.bindAny fun ok hok => ?_
    refine Post.ite (fun hh => Post.pure ⟨?_, h.modes⟩) fun _ => Post.pure (h.keep rfl)
    subst hh
    exact pValidate_list hc hok
  · -- writeDaq
    exact Post.bindAny fun _ _ => Post.bindAny fun _ _ => Post.bindAny fun _ _ => Post.bindAny fun _ _ =>
      pDaqStopped_inv h (pPgmIdle_inv h (pUnlocked_inv h (pWriteProtected_inv h)))
  · -- setDaqListMode
    refine Post.bindAny fun mode _ => Post.bindAny fun list _ => Post.bindAny fun ev _ => Post.bindAny fun b6 _ => Post.bindAny fun b7 _ => ?_
    refine pDaqStopped_inv h (pPgmIdle_inv h (pUnlocked_inv h ?_))
    refine Post.ite (fun _ => Post.ok (h.keep rfl)) fun _ => Post.ite (fun _ => Post.ok (h.keep rfl)) fun _ =>
      Post.ite (fun _ => Post.ok (h.keep rfl)) fun _ => ?_
    exact Post.bindAny fun d hd => Post.bindAny fun m hm => Post.pure (h.keepM (addEvent_ptr d hd) (setModeAt_length m hm))
  · -- startStopDaqList
    refine Post.bindAny fun mode _ => Post.bindAny fun list _ => pPgmIdle_inv h (pUnlocked_inv h ?_)
    exact Post.ite (fun _ => pListBody_inv (s := ⟨errorResp cfg.base s.st ERR_OUT_OF_RANGE, s.modes⟩) ⟨h.ptr, h.modes⟩ _ _) fun _ => pListBody_inv h _ _
  · -- startStopSynch
    refine Post.bindAny fun mode _ => pPgmIdle_inv h (pUnlocked_inv h ?_)
    refine Post.ite (fun _ => ?_) fun _ => Post.ite (fun _ => ?_) fun _ => Post.ite (fun _ => ?_) fun _ => Post.ok (h.keep rfl)
    all_goals exact Post.bindAny fun m hm => Post.pure ⟨h.ptr, (setModes_length _ _ _ m hm).trans h.modes⟩
  · -- getDaqProcessorInfo
    exact pPgmIdle_inv h (pUnlocked_inv h (Post.ok (h.keep rfl)))
  · -- getDaqListInfo
    refine Post.bindAny fun list _ => pPgmIdle_inv h (pUnlocked_inv h ?_)
    refine Post.ite (fun _ => ?_) fun _ => ?_
    all_goals exact Post.bindAny fun l _ => Post.pure (h.keep rfl)
  · -- writeDaqMultiple
    exact Post.bindAny fun _ _ => Post.ite (fun _ => Post.pure (h.keep rfl)) fun _ =>
      pDaqStopped_inv h (pPgmIdle_inv h (pUnlocked_inv h (pWriteProtected_inv h)))

theorem pTrigger_daq {cfg : PCfg} (env : Env) {s : PSt} (ev : Nat) :
    Post (pTrigger cfg env s ev) (fun s' => TrigEff s.st s'.st ∧ s'.modes = s.modes) := by
  unfold pTrigger
  refine Post.ite (fun _ => Post.ok ⟨TrigEff.refl _, rfl⟩) fun _ => Post.ite (fun _ => Post.ok ⟨TrigEff.refl _, rfl⟩) fun _ => ?_
  refine Post.bindAny fun a _ => Post.ite (fun _ => Post.pure ⟨TrigEff.refl _, rfl⟩) fun _ => ?_
  refine Post.bindAny fun l _ => Post.bindAny fun mode _ => Post.bindAny fun q _ => Post.bindAny fun st hst => Post.pure ⟨?_, rfl⟩
  exact transmit_eff (s0 := s.st) (s := { s.st with daq := { s.st.daq with queue := q.2 } }) _ ⟨rfl, rfl, ⟨_, rfl⟩, rfl, rfl, rfl, rfl, rfl, rfl, rfl, rfl, rfl⟩ st hst

theorem connectRes_daq {cfg : Cfg} {s : St} : Post (connectRes cfg s) (fun s' => s'.daq = s.daq) := by
  unfold connectRes
  post
  all_goals simp only [send8_daq]

theorem pDispatch_inv {cfg : PCfg} (hc : Consistent cfg) (env : Env) {s : PSt} (h : PInv cfg s) (p : Pdu) :
    Post (pDispatch cfg env s p) (PInv cfg) := by
  have hb : PInv cfg { s with st := bumpReceived cfg.base s.st } := h.keep (by rw [(bumpReceived_same cfg.base s.st).daq])
  unfold pDispatch
  refine Post.bindAny fun cmd _ => Post.ite (fun _ => Post.ite (fun _ => Post.pure (h.keep ?_)) fun _ => ?_) fun _ => Post.ite (fun _ => ?_) fun _ => Post.pure hb
  · unfold busyResponse; split <;> rfl
  · dsimp only
    split
    · exact Post.ite (fun _ => pHandler_inv hc env hb p _) fun _ => Post.pure (hb.keep rfl)
    · exact Post.throw
  · exact Post.bindAny fun st hst => Post.pure (hb.keep (by rw [connectRes_daq st hst]))

theorem pStep_inv {cfg : PCfg} (hc : Consistent cfg) (env : Env) {s : PSt} (h : PInv cfg s) (op : Op) :
    Post (pStep cfg env s op) (PInv cfg) := by
  have base : ∀ op, (Post (step cfg.base env s.st op) fun st => st.daq = s.st.daq) → Post (do
      let st ← step cfg.base env s.st op
      return ({ s with st := st } : PSt)) (PInv cfg) :=
    fun op hop => Post.bindAny fun b hb => Post.pure (h.keep (by rw [hop b hb]))
  cases op with
  | cmd p => exact pDispatch_inv hc env h p
  | trigger ev =>
    intro s' hs'
    obtain ⟨h1, h2⟩ := pTrigger_daq env ev.toNat s' hs'
    obtain ⟨q, hq⟩ := h1.daq
    exact ⟨by rw [hq]; exact h.ptr, by rw [h2]; exact h.modes⟩
  | apiDisconnect => exact pDisconnect_inv hc h
  | main => exact base _ fun b hb => (main_eff env b hb).daq
  | eventPkt c d => exact base _ fun b hb => (special_eff b hb).same.daq
  | servPkt c d => exact base _ fun b hb => (special_eff b hb).same.daq
  | appWrite a b => exact base _ fun b hb => by cases hb; rfl

/-- C71: in every history the DAQ pointer stays on a predefined list. -/
theorem C71_invariant {cfg : PCfg} (hc : Consistent cfg) (mem : Mem) (h : List (Env × Op)) {s : PSt}
    (hr : pRun cfg (PSt.init cfg mem) h = .ok s) : PInv cfg s := by
  have key : ∀ (h : List (Env × Op)) (s0 : PSt), PInv cfg s0 → Post (pRun cfg s0 h) (PInv cfg) := by
    intro h
    induction h with
    | nil => intro s0 h0; exact Post.ok h0
    | cons x h ih => intro s0 h0; exact Post.bindAny fun b hb => ih b (pStep_inv hc x.1 h0 x.2 b hb)
  exact key h _ ⟨hc.pos, List.length_replicate ..⟩ s hr

/-- C71: WRITE_DAQ is refused as write protected and changes nothing, in every state a history can lead to. -/
theorem C71_write {cfg : PCfg} (hc : Consistent cfg) (hs : ShortOk cfg.base) {mem : Mem} {h : List (Env × Op)} (env : Env) {s : PSt}
    (hr : pRun cfg (PSt.init cfg mem) h = .ok s) (hd : DaqReady cfg.base s.st) (hsup : cfg.base.supports .writeDaq = true)
    (hrun : s.st.daq.running = false) {p : Pdu} {b1 b2 b3 : UInt8} {a : Nat} (hp : code p = some 0xE1) (h1 : p.buf[1]? = some b1)
    (h2 : p.buf[2]? = some b2) (h3 : p.buf[3]? = some b3) (h4 : Param cfg.base.motorola p 4 4 a) (ha : cfg.base.wrapv = true ∨ a < 2 ^ 31) :
    ∃ s', pStep cfg env s (.cmd p) = .ok s' ∧ Refused cfg.base s.st s'.st 0x23 ∧ s'.modes = s.modes := by
  refine ⟨⟨errorResp cfg.base (bumpReceived cfg.base s.st) 0x23, s.modes⟩, ?_, Refused.of_bump (refused_send8 hs _ _), rfl⟩
  have hi := (C71_invariant hc mem h hr).ptr
  rw [hd.ready.pstep env .writeDaq hp hsup]
  simp only [pHandler, pWriteDaqRes, pDaqStopped, byte_eq h1, byte_eq h2, byte_eq h3, h4.dword ha, ok_bind]
  rw [if_neg (by rw [(bumpReceived_same cfg.base s.st).daq, hrun]; decide), pGuards hd.bump]
  unfold pWriteProtected
  rw [if_pos (by rw [hc.count, (bumpReceived_same cfg.base s.st).daq]; exact hi)]
  rfl

/-- C71: so is WRITE_DAQ_MULTIPLE (with as many elements as fit in a packet). -/
theorem C71_write_multiple {cfg : PCfg} (hc : Consistent cfg) (hs : ShortOk cfg.base) {mem : Mem} {h : List (Env × Op)} (env : Env)
    {s : PSt} (hr : pRun cfg (PSt.init cfg mem) h = .ok s) (hd : DaqReady cfg.base s.st)
    (hsup : cfg.base.supports .writeDaqMultiple = true) (hrun : s.st.daq.running = false) {p : Pdu} {n : UInt8}
    (hp : code p = some 0xC7) (h1 : p.buf[1]? = some n) (hn : n.toNat * 8 + 2 ≤ cfg.base.maxCto) :
    ∃ s', pStep cfg env s (.cmd p) = .ok s' ∧ Refused cfg.base s.st s'.st 0x23 ∧ s'.modes = s.modes := by
  refine ⟨⟨errorResp cfg.base (bumpReceived cfg.base s.st) 0x23, s.modes⟩, ?_, Refused.of_bump (refused_send8 hs _ _), rfl⟩
  have hi := (C71_invariant hc mem h hr).ptr
  rw [hd.ready.pstep env .writeDaqMultiple hp hsup]
  simp only [pHandler, pWriteDaqMultipleRes, pDaqStopped, byte_eq h1, ok_bind]
  rw [if_neg (by omega), if_neg (by rw [(bumpReceived_same cfg.base s.st).daq, hrun]; decide), pGuards hd.bump]
  unfold pWriteProtected
  rw [if_pos (by rw [hc.count, (bumpReceived_same cfg.base s.st).daq]; exact hi)]
  rfl

/-- C71: WRITE_DAQ_MULTIPLE with more elements than fit in a packet is refused as out of range, whatever the state is, and changes nothing. -/
theorem C71_write_multiple_long {cfg : PCfg} (hs : ShortOk cfg.base) (env : Env) {s : PSt} (hd : DaqReady cfg.base s.st)
    (hsup : cfg.base.supports .writeDaqMultiple = true) {p : Pdu} {n : UInt8} (hp : code p = some 0xC7) (h1 : p.buf[1]? = some n)
    (hn : cfg.base.maxCto < n.toNat * 8 + 2) :
    ∃ s', pStep cfg env s (.cmd p) = .ok s' ∧ Refused cfg.base s.st s'.st 0x22 ∧ s'.modes = s.modes := by
  refine ⟨⟨errorResp cfg.base (bumpReceived cfg.base s.st) 0x22, s.modes⟩, ?_, Refused.of_bump (refused_send8 hs _ _), rfl⟩
  rw [hd.ready.pstep env .writeDaqMultiple hp hsup]
  simp only [pHandler, pWriteDaqMultipleRes, byte_eq h1, ok_bind]
  rw [if_pos hn]
  rfl

theorem pValidate_iff {cfg : PCfg} (hc : Consistent cfg) (l j k : Nat) :
    ∃ b, pValidate cfg l j k = .ok b ∧ (b = true ↔ InTables cfg l j k) := by
  unfold pValidate
  rw [hc.count]
  by_cases hl : cfg.lists.length ≤ l
  · refine ⟨false, if_pos hl, by simp, ?_⟩
    rintro ⟨pl, o, h1, -⟩
    have := getElem?_lt h1
    omega
  · have hpl : cfg.lists[l]? = some cfg.lists[l] := List.getElem?_eq_getElem (by omega)
    generalize cfg.lists[l] = pl at hpl
    rw [if_neg hl, tableAt_ok hpl]
    simp only [ok_bind]
    by_cases hj : pl.numOdts.toNat ≤ j
    · refine ⟨false, if_pos hj, by simp, ?_⟩
      rintro ⟨pl', o, h1, h2, -⟩
      rw [hpl] at h1; cases h1
      omega
    · obtain ⟨o, ho, hg⟩ := pOdt hc hpl (j := j) (by omega)
      rw [if_neg hj, hg]
      refine ⟨decide (k < o.numEntries.toNat), rfl, ?_⟩
      rw [decide_eq_true_iff]
      constructor
      · intro hk; exact ⟨pl, o, hpl, by omega, ho, hk⟩
      · rintro ⟨pl', o', h1, h2, h3, h4⟩
        rw [hpl] at h1; cases h1
        rw [ho] at h3; cases h3
        exact h4

/-- C71, partial: SET_DAQ_PTR to an entry in the tables is accepted; only the DAQ pointer changes.
(List numbers above 255 are taken modulo 256, see `C71_fails_list`.) -/
theorem C71_ptr_partial {cfg : PCfg} (hc : Consistent cfg) (hs : ShortOk cfg.base) (env : Env) {s : PSt} (hd : DaqReady cfg.base s.st)
    (hsup : cfg.base.supports .setDaqPtr = true) (hrun : s.st.daq.running = false) {p : Pdu} {l : Nat} {j k : UInt8}
    (hp : code p = some 0xE2) (h2 : Param cfg.base.motorola p 2 2 l) (hl : l < 256) (h4 : p.buf[4]? = some j) (h5 : p.buf[5]? = some k)
    (hin : InTables cfg l j.toNat k.toNat) :
    ∃ s', pStep cfg env s (.cmd p) = .ok s' ∧ Answers cfg.base s.st s'.st [0xFF] ∧ s'.modes = s.modes ∧
      SameCore { s.st with daq := { s.st.daq with ptr := ⟨l, j.toNat, k.toNat⟩ } } s'.st := by
  obtain ⟨b, hv, hb⟩ := pValidate_iff hc l j.toNat k.toNat
  rw [hb.mpr hin] at hv
  refine ⟨⟨send8 cfg.base { bumpReceived cfg.base s.st with daq := { s.st.daq with ptr := ⟨l, j.toNat, k.toNat⟩ } } [0xFF], s.modes⟩, ?_,
    send8_answers hs (by simp) (bumpReceived_tx cfg.base s.st), rfl, send8_newDaq⟩
  rw [hd.ready.pstep env .setDaqPtr hp hsup]
  simp only [pHandler, pSetDaqPtrRes, pDaqStopped]
  rw [if_neg (by rw [(bumpReceived_same cfg.base s.st).daq, hrun]; decide), pGuards hd.bump]
  simp only [h2.word, byte_eq h4, byte_eq h5, ok_bind, Nat.mod_eq_of_lt hl, hv, if_true]
  simp only [positive, (bumpReceived_same cfg.base s.st).daq]
  rfl

/-- C71, partial: SET_DAQ_PTR to anything else is refused. -/
theorem C71_ptr_refused_partial {cfg : PCfg} (hc : Consistent cfg) (hs : ShortOk cfg.base) (env : Env) {s : PSt} (hd : DaqReady cfg.base s.st)
    (hsup : cfg.base.supports .setDaqPtr = true) (hrun : s.st.daq.running = false) {p : Pdu} {l : Nat} {j k : UInt8}
    (hp : code p = some 0xE2) (h2 : Param cfg.base.motorola p 2 2 l) (hl : l < 256) (h4 : p.buf[4]? = some j) (h5 : p.buf[5]? = some k)
    (hin : ¬ InTables cfg l j.toNat k.toNat) :
    ∃ s', pStep cfg env s (.cmd p) = .ok s' ∧ Refused cfg.base s.st s'.st 0x22 ∧ s'.modes = s.modes := by
  obtain ⟨b, hv, hb⟩ := pValidate_iff hc l j.toNat k.toNat
  cases b with
  | true => exact absurd (hb.mp rfl) hin
  | false =>
    refine ⟨⟨errorResp cfg.base (bumpReceived cfg.base s.st) 0x22, s.modes⟩, ?_, Refused.of_bump (refused_send8 hs _ _), rfl⟩
    rw [hd.ready.pstep env .setDaqPtr hp hsup]
    simp only [pHandler, pSetDaqPtrRes, pDaqStopped]
    rw [if_neg (by rw [(bumpReceived_same cfg.base s.st).daq, hrun]; decide), pGuards hd.bump]
    simp only [h2.word, byte_eq h4, byte_eq h5, ok_bind, Nat.mod_eq_of_lt hl, hv, Bool.false_eq_true, if_false]
    rfl

/-- The last answer and the DAQ pointer after CONNECT and the given commands. -/
def Ex.pptr (h : List (List UInt8)) : Option (Option (List UInt8) × DaqPtr) :=
  Ex.pobs Ex.pre ([Ex.c [0xFF]] ++ h.map Ex.c) (fun s => ((s.st.tx.map fun f => f.bytes.drop 4).getLast?, s.st.daq.ptr))

/-- Entry 1 of ODT 0 of list 0 exists, entry 1 of ODT 1 does not; the write is refused. -/
example : Ex.pptr [[0xE2, 0, 0, 0, 0, 1]] = some (some [0xFF], ⟨0, 0, 1⟩) ∧
    Ex.pptr [[0xE2, 0, 0, 0, 1, 1]] = some (some [0xFE, 0x22], ⟨0, 0, 0⟩) ∧
    Ex.pptr [[0xE2, 0, 2, 0, 0, 0]] = some (some [0xFE, 0x22], ⟨0, 0, 0⟩) ∧
    Ex.pptr [[0xE2, 0, 0, 0, 0, 1], [0xE1, 0xFF, 1, 0, 0, 0x10, 0, 0]] = some (some [0xFE, 0x23], ⟨0, 0, 1⟩) := by
  refine ⟨?_, ?_, ?_, ?_⟩ <;> decide +kernel

/-- With WRITE_DAQ_MULTIPLE switched on: 7 elements fit in a packet of 64 bytes, 8 do not. -/
example : let obs := fun p => Ex.pobs { Ex.pre with base := { Ex.sim with on := fun _ => true } } [Ex.c [0xFF], Ex.c p] (fun s =>
      (s.st.tx.map fun f => f.bytes.drop 4).getLast?)
    obs [0xC7, 7] = some (some [0xFE, 0x23]) ∧ obs [0xC7, 8] = some (some [0xFE, 0x22]) := by decide +kernel

/-- List 256 does not exist, but SET_DAQ_PTR accepts it as list 0. -/
theorem C71_fails_list : Ex.pptr [[0xE2, 0, 0, 1, 0, 1]] = some (some [0xFF], ⟨0, 0, 1⟩) := by decide +kernel

end Xcp
