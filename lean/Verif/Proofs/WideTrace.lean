import Verif.Proofs.WideRep
/-
Histories of a slave with a large pool.
-/
set_option autoImplicit false
namespace Xcp
open Spec

theorem first16 (e : Entity) : e.firstW .w16 = e.first := rfl

/-- A command of a ready slave is handled. -/
theorem wstep_handler {cfg : Cfg} (env : Env) {s : St} {p : Pdu} {c : Cmd} (h : executes cfg s p c) :
    wStep cfg env s (.cmd p) = wHandler cfg env (bumpReceived cfg s) p c := by
  obtain ⟨h1, h2, h3, h4⟩ := h
  show wDispatch cfg env s p = _
  unfold wDispatch
  simp only [byte_eq (show p.buf[0]? = some (cmdCode c) from h3), ok_bind, h1, h2, table_code, h4, if_true]
  rfl

theorem Spec.DaqReady.wstepc {cfg : Cfg} (env : Env) {s : St} (h : DaqReady cfg s) {p : Pdu} (c : Cmd)
    (hp : code p = some (cmdCode c)) (hs : cfg.supports c = true) :
    wStep cfg env s (.cmd p) = wHandler cfg env (bumpReceived cfg s) p c :=
  wstep_handler env ⟨h.ready.conn, h.ready.idle, hp, hs⟩

/-- Where the handlers agree, so do the steps. -/
theorem wstep_same {cfg : Cfg} (env : Env) {s : St} {p : Pdu}
    (h : ∀ c, executes cfg s p c → wHandler cfg env (bumpReceived cfg s) p c = handler cfg env (bumpReceived cfg s) p c) :
    wStep cfg env s (.cmd p) = step cfg env s (.cmd p) := by
  show wDispatch cfg env s p = dispatch cfg env s p
  unfold wDispatch dispatch
  cases hb : p.byte 0 with
  | error e => rfl
  | ok b =>
    simp only [ok_bind]
    have hcode : code p = some b := by
      unfold Pdu.byte at hb
      unfold code
      cases h : p.buf[0]? with
      | none => rw [h] at hb; cases hb
      | some x => rw [h] at hb; cases hb; rfl
    split
    · rename_i hc
      split
      · rfl
      · rename_i hbz
        cases ht : cmdTable[0xFF - b.toNat]? with
        | none => rfl
        | some c =>
          simp only [tableEntry]
          split
          · rename_i hsup
            refine h c ⟨hc, by simpa using hbz, ?_, hsup⟩
            have hi : 0xC7 ≤ b.toNat := by
              apply Nat.le_of_not_lt
              intro hlt
              rw [table_lo hlt] at ht; cases ht
            obtain ⟨c', hc', hbc⟩ := table_hi hi
            rw [ht] at hc'
            cases hc'
            rw [hcode, hbc]
          · rfl
    · rfl

/-- An allocation command is `wApplyReq` followed by the response. -/
theorem walloc_step {cfg : Cfg} (env : Env) {s : St} (hd : DaqReady cfg s) {p : Pdu} {r : AllocReq}
    (hsup : cfg.supports (reqCmd r) = true) (hp : IsReq cfg.motorola p r) :
    wStep cfg env s (.cmd p) = (wApplyReq cfg s.daq r).bind (fun x =>
      .ok (sendResult cfg { bumpReceived cfg s with daq := x.1 } x.2)) := by
  rw [hd.wstepc env _ (req_code hp) hsup]
  have hb := hd.bump
  have hdq : (bumpReceived cfg s).daq = s.daq := by simp
  generalize bumpReceived cfg s = b at *
  rw [← hdq]
  cases r with
  | free =>
    simp only [reqCmd, wHandler, handler, freeDaqRes, assertUnlocked, assertPgmIdle, wApplyReq]
    rw [if_neg hb.notProtected, if_neg hb.pgm]
    rfl
  | daq n =>
    simp only [reqCmd, wHandler, wAllocDaqRes, assertUnlocked, assertPgmIdle, wApplyReq]
    rw [if_neg hb.pgm, if_neg hb.notProtected, hp.2.word]
    rfl
  | odt l n =>
    obtain ⟨-, h1, h2, h3⟩ := hp
    simp only [reqCmd, wHandler, wAllocOdtRes, assertUnlocked, assertPgmIdle, wApplyReq]
    rw [if_neg hb.pgm, if_neg hb.notProtected, h1.word]
    simp only [ok_bind, byte_eq h3, u8n h2]
    rfl
  | entry l o n =>
    obtain ⟨-, h1, h2, h3, h4, h5⟩ := hp
    simp only [reqCmd, wHandler, wAllocOdtEntryRes, assertUnlocked, assertPgmIdle, wApplyReq]
    rw [if_neg hb.pgm, if_neg hb.notProtected, h1.word]
    simp only [ok_bind, byte_eq h3, byte_eq h5, u8n h2, u8n h4]
    rfl

/-- Numbers in packets are not cut. -/
theorem wcut_size {m : Bool} {p : Pdu} {r : AllocReq} (h : IsReq m p r) : wCutReq r = r := by
  cases r with
  | free => rfl
  | daq n =>
    have := h.2.1
    simp only [wCutReq]; rw [Nat.mod_eq_of_lt (by omega)]
  | odt l n =>
    have := h.2.1.1
    simp only [wCutReq]; rw [Nat.mod_eq_of_lt (by omega)]
  | entry l o n =>
    have := h.2.1.1
    simp only [wCutReq]; rw [Nat.mod_eq_of_lt (by omega)]

theorem wtrigger_eff {cfg : Cfg} (env : Env) (ev : Nat) {s : St} : Post (wTriggerEvent cfg env s ev) (TrigEff s) := by
  unfold wTriggerEvent
  post
  · exact TrigEff.refl s
  · exact TrigEff.refl s
  · exact TrigEff.refl s
  · exact transmit_eff _ ⟨rfl, rfl, ⟨_, rfl⟩, rfl, rfl, rfl, rfl, rfl, rfl, rfl, rfl, rfl⟩

/-- A history, as `AllocTrace`, of a slave with a pool of any size. -/
inductive Spec.WideTrace (cfg : Cfg) (s : St) : List (AllocReq × UInt8) → St → Prop where
  | nil : WideTrace cfg s [] s
  | req {t : List (AllocReq × UInt8)} {s1 s2 : St} {env : Env} {p : Pdu} {r : AllocReq} {a : UInt8}
      (h : WideTrace cfg s t s1) (hd : DaqReady cfg s1) (hp : IsReq cfg.motorola p r)
      (hs : wStep cfg env s1 (.cmd p) = .ok s2) (ha : Answers cfg s1 s2 (resp a)) :
      WideTrace cfg s (t ++ [(r, a)]) s2
  | other {t : List (AllocReq × UInt8)} {s1 s2 : St} {env : Env} {op : Op}
      (h : WideTrace cfg s t s1) (hu : unrelated cfg s1 op) (hs : wStep cfg env s1 op = .ok s2) : WideTrace cfg s t s2

theorem whandler_pool {cfg : Cfg} (env : Env) {s : St} (p : Pdu) (c : Cmd) (hc : ¬ touchesPool c) :
    Post (wHandler cfg env s p c) (fun t => SamePool s.daq t.daq) := by
  cases c <;> first
    | (exact absurd trivial hc)
    | exact handler_pool env p _ hc
    | skip
  all_goals simp only [wHandler, wSetDaqPtrRes, wSetDaqListModeRes, wStartStopDaqListRes, wGetDaqListInfoRes, wStartStopDaqListBody,
    wStartStopDaqListEnd, getDaqListInfoBody, positive, errorResp]
  all_goals post
  all_goals simp only [send8_daq]
  all_goals first
    | exact .refl _
    | exact ⟨rfl, rfl, rfl, rfl, rfl⟩
    | (rename_i hd; exact SamePool.trans (addEvent_pool hd) ⟨rfl, rfl, rfl, rfl, rfl⟩)

theorem wunrelated_pool {cfg : Cfg} {env : Env} {s s' : St} {op : Op} (hu : unrelated cfg s op)
    (h : wStep cfg env s op = .ok s') : SamePool s.daq s'.daq := by
  cases op with
  | cmd p =>
    by_cases hx : ∃ c, executes cfg s p c
    · obtain ⟨c, hx⟩ := hx
      rw [wstep_handler env hx] at h
      have := whandler_pool (cfg := cfg) env (s := bumpReceived cfg s) p c (hu.2 p c rfl hx) s' h
      simpa using this
    · rw [wstep_same env (fun c hc => absurd ⟨c, hc⟩ hx)] at h
      exact unrelated_pool hu h
  | trigger ev =>
    simp only [wStep] at h
    split at h
    · obtain ⟨q, e⟩ := (wtrigger_eff env _ s' h).daq
      rw [e]; exact ⟨rfl, rfl, rfl, rfl, rfl⟩
    · cases h; exact .refl _
  | main => exact unrelated_pool (env := env) hu h
  | eventPkt code data => exact unrelated_pool (env := env) hu h
  | servPkt code data => exact unrelated_pool (env := env) hu h
  | appWrite a data => exact unrelated_pool (env := env) hu h
  | apiDisconnect => exact unrelated_pool (env := env) hu h

/-- What one allocation request does. -/
theorem wrequest_step {cfg : Cfg} (hs : ShortOk cfg) (ha : AllocOn cfg) {env : Env} {s s' : St} (hd : DaqReady cfg s) {p : Pdu}
    {r : AllocReq} (hp : IsReq cfg.motorola p r) (h : wStep cfg env s (.cmd p) = .ok s') :
    ∃ a, wApplyReq cfg s.daq r = .ok (s'.daq, a) ∧ Answers cfg s s' (resp a) ∧
      SameCore { s with daq := s'.daq } s' := by
  rw [walloc_step env hd (ha r) hp] at h
  cases hx : wApplyReq cfg s.daq r with
  | error e => rw [hx] at h; cases h
  | ok x =>
    rw [hx] at h
    change Except.ok _ = _ at h
    cases h
    have hr : (if x.2 = ERR_SUCCESS then [0xFF] else [0xFE, x.2]) = resp x.2 := by
      unfold resp ERR_SUCCESS; split <;> simp_all
    rw [sendResult_eq, hr]
    have htx : (bumpReceived cfg s).tx = s.tx := bumpReceived_tx cfg s
    have hsame := bumpReceived_same cfg s
    generalize bumpReceived cfg s = b at *
    refine ⟨x.2, rfl, send8_answers hs ?_ htx, ?_⟩
    · unfold resp; split <;> simp
    · exact SameCore.trans (b := { b with daq := x.1 })
        ⟨hsame.connected, hsame.busy, rfl, hsame.pgm, hsame.resProt, hsame.seedReq, hsame.mta, hsame.slaveBlk,
          hsame.masterBlk, hsame.ck, hsame.mem⟩ (send8_same _ _ _)

theorem wrep_pool {cfg : Cfg} {d d' : Daq} {c : Conf} (h : SamePool d d') (hr : WideRep cfg d c) : WideRep cfg d' c := by
  refine ⟨h.lists.trans hr.lists, h.odts.trans hr.odtCount, h.used.trans hr.used, hr.fits, ?_, ?_, ?_, ?_, ?_⟩
  · rw [h.pool]; exact hr.listN
  · intro i j odts m; rw [slot_pool h.pool, h.pool]; exact hr.odtNum i j odts m
  · intro o; rw [slot_pool h.pool, h.used]; exact hr.inside o
  · intro o o'; rw [slot_pool h.pool, slot_pool h.pool]; exact hr.disjoint o o'
  · rw [h.used, h.pool]; exact hr.fresh

theorem wheld_pool {cfg : Cfg} {d d' : Daq} {c : Conf} (h : SamePool d d') (hr : WideHeld cfg d c) : WideHeld cfg d' c :=
  ⟨wrep_pool h hr.rep, by rw [h.state]; exact hr.flat, by rw [h.state]; exact hr.init⟩

theorem wheld_empty {cfg : Cfg} {d : Daq} (h : Empty d) : WideHeld cfg d [] :=
  ⟨wrep_free cfg d h.lists h.odts h.used h.pool, flat_nil _, by rw [h.freed]; decide⟩

theorem wtrace_phase {cfg : Cfg} (hc : Wide16 cfg) (hs : ShortOk cfg) (ha : AllocOn cfg) {s s' : St} (h0 : Empty s.daq)
    {t : List (AllocReq × UInt8)} (h : WideTrace cfg s t s') :
    s'.daq.allocState ≠ .idle ∧ phase s'.daq.allocState = phaseAfter cfg.resetOnSeqErr t ∧
    Each (fun t1 r a => (¬ r.legal (phaseAfter cfg.resetOnSeqErr t1) → a = 0x29) ∧
      (r.legal (phaseAfter cfg.resetOnSeqErr t1) → a = 0xFF ∨ a = 0x30)) t := by
  induction h with
  | nil => exact ⟨by rw [h0.freed]; decide, by rw [h0.freed]; rfl, each_nil _⟩
  | other _ hu hst ih =>
    have hp := wunrelated_pool hu hst
    exact ⟨by rw [hp.state]; exact ih.1, by rw [hp.state]; exact ih.2.1, ih.2.2⟩
  | @req t s1 s2 env p r a _ hd hp hst hans ih =>
    obtain ⟨ih1, ih2, ih3⟩ := ih
    obtain ⟨b, h1, h2, -⟩ := wrequest_step hs ha hd hp hst
    have := resp_inj hans h2
    subst this
    obtain ⟨g1, g2, g3⟩ := wApplyReq_code hc ih1 h1
    rw [each_snoc, phaseAfter_snoc]
    rw [ih2] at g1 g2 g3
    by_cases hl : r.legal (phaseAfter cfg.resetOnSeqErr t)
    · by_cases hf : r = .free ∨ s1.daq.entityCount + (wCutReq r).size ≤ cfg.maxEnt
      · obtain ⟨k1, k2, k3, -⟩ := g3 hl hf
        have k1 : a = 0xFF := k1
        subst k1
        exact ⟨k3, by rw [k2]; rfl, ih3, fun h => absurd hl h, fun _ => Or.inl rfl⟩
      · obtain ⟨k1, k2⟩ := g2 hl (by omega) (by simp_all)
        have k1 : a = 0x30 := k1
        subst k1
        rw [k2]
        exact ⟨ih1, by rw [ih2]; rfl, ih3, fun h => absurd hl h, fun _ => Or.inr rfl⟩
    · obtain ⟨k1, k2⟩ := g1 hl
      have k1 : a = 0x29 := k1
      subst k1
      rw [k2]
      refine ⟨?_, ?_, ih3, fun _ => rfl, fun h => absurd h hl⟩
      · split
        · rw [daqInit_state]; decide
        · exact ih1
      · cases hq : cfg.resetOnSeqErr
        · simpa [hq] using ih2
        · simp [daqInit_state, phase]

theorem wtrace_used {cfg : Cfg} (hc : Wide16 cfg) (hs : ShortOk cfg) (ha : AllocOn cfg) {s s' : St} (h0 : Empty s.daq)
    {t : List (AllocReq × UInt8)} (h : WideTrace cfg s t s')  :
    s'.daq.entityCount = usedAfter cfg.resetOnSeqErr t ∧ usedAfter cfg.resetOnSeqErr t ≤ cfg.maxEnt ∧
    Each (fun t1 r a => a = 0x30 ↔ r.legal (phaseAfter cfg.resetOnSeqErr t1) ∧ r ≠ .free ∧
      cfg.maxEnt < usedAfter cfg.resetOnSeqErr t1 + r.size) t := by
  induction h with
  | nil => exact ⟨h0.used, Nat.zero_le _, each_nil _⟩
  | other _ hu hst ih =>
    have hp := wunrelated_pool hu hst
    obtain ⟨ih1, ih2⟩ := ih
    exact ⟨by rw [hp.used]; exact ih1, ih2⟩
  | @req t s1 s2 env p r a htr hd hp hst hans ih =>
    obtain ⟨ih1, ih2, ih3⟩ := ih
    obtain ⟨p1, p2, -⟩ := wtrace_phase hc hs ha h0 htr
    obtain ⟨b, h1, h2, -⟩ := wrequest_step hs ha hd hp hst
    have := resp_inj hans h2
    subst this
    obtain ⟨g1, g2, g3⟩ := wApplyReq_code hc p1 h1
    have hsz : (wCutReq r).size = r.size := by rw [wcut_size hp]
    have hlt := hc.2
    rw [each_snoc, usedAfter_snoc]
    rw [p2] at g1 g2 g3
    rw [hsz, ih1] at g2 g3
    by_cases hl : r.legal (phaseAfter cfg.resetOnSeqErr t)
    · by_cases hf : r = .free ∨ usedAfter cfg.resetOnSeqErr t + r.size ≤ cfg.maxEnt
      · obtain ⟨k1, -, -, k2⟩ := g3 hl hf
        have k1 : a = 0xFF := k1
        subst k1
        rw [k2, if_pos rfl]
        refine ⟨?_, ?_, ih3, ?_⟩
        · split
          · rfl
          · rename_i hne
            apply Nat.mod_eq_of_lt
            rcases hf with hf | hf
            · exact absurd hf hne
            · omega
        · split
          · omega
          · rename_i hne
            rcases hf with hf | hf
            · exact absurd hf hne
            · exact hf
        · refine ⟨fun h => absurd h (by decide), fun ⟨_, k4, k5⟩ => ?_⟩
          rcases hf with hf | hf
          · exact absurd hf k4
          · omega
      · have hne : r ≠ .free := fun h => hf (Or.inl h)
        have hgt : cfg.maxEnt < usedAfter cfg.resetOnSeqErr t + r.size := by
          apply Decidable.byContradiction; intro h; exact hf (Or.inr (by omega))
        obtain ⟨k1, k2⟩ := g2 hl hgt hne
        have k1 : a = 0x30 := k1
        subst k1
        rw [k2]
        exact ⟨ih1, ih2, ih3, fun _ => ⟨hl, hne, hgt⟩, fun _ => rfl⟩
    · obtain ⟨k1, k2⟩ := g1 hl
      have k1 : a = 0x29 := k1
      subst k1
      rw [k2]
      refine ⟨?_, ?_, ih3, fun h => absurd h (by decide), fun h => absurd h.1 hl⟩
      · cases hq : cfg.resetOnSeqErr
        · simpa [hq] using ih1
        · simp [(empty_init _).used]
      · cases hq : cfg.resetOnSeqErr
        · simpa [hq] using ih2
        · simp

theorem wtrace_held {cfg : Cfg} (hc : Wide16 cfg) (hs : ShortOk cfg) (ha : AllocOn cfg) {s s' : St} (h0 : Empty s.daq)
    {t : List (AllocReq × UInt8)} (h : WideTrace cfg s t s') 
    (had : Each (fun t1 r a => a = 0xFF → (confAfter cfg.resetOnSeqErr t1).admits r) t) :
    WideHeld cfg s'.daq (confAfter cfg.resetOnSeqErr t) := by
  induction h with
  | nil => exact wheld_empty h0
  | other _ hu hst ih => exact wheld_pool (wunrelated_pool hu hst) (ih had)
  | @req t s1 s2 env p r a htr hd hp hst hans ih =>
    obtain ⟨had1, had2⟩ := each_snoc.mp had
    have ih := ih had1
    obtain ⟨b, h1, h2, -⟩ := wrequest_step hs ha hd hp hst
    have := resp_inj hans h2
    subst this
    obtain ⟨g1, g2, g3⟩ := wApplyReq_code hc ih.init h1
    have hsz : (wCutReq r).size = r.size := by rw [wcut_size hp]
    rw [hsz] at g2 g3
    rw [confAfter_snoc]
    by_cases hl : r.legal (phase s1.daq.allocState)
    · by_cases hf : r = .free ∨ s1.daq.entityCount + r.size ≤ cfg.maxEnt
      · have k1 : a = 0xFF := (g3 hl hf).1
        obtain ⟨d', k2, k3⟩ := wheld_accept hc ih (had2 k1) hl hf
        rw [h1] at k2
        cases k2
        rw [if_pos (show ERR_SUCCESS = 255 from rfl)]
        exact k3
      · have hne : r ≠ .free := fun h => hf (Or.inl h)
        obtain ⟨k1, k2⟩ := g2 hl (by apply Decidable.byContradiction; intro h; exact hf (Or.inr (by omega))) hne
        have k1 : a = 0x30 := k1
        subst k1
        rw [k2]
        exact ih
    · obtain ⟨k1, k2⟩ := g1 hl
      have k1 : a = 0x29 := k1
      subst k1
      rw [k2]
      cases hq : cfg.resetOnSeqErr
      · simpa [hq] using ih
      · simpa using wheld_empty (empty_init _)

theorem Spec.WideRep.count_le {cfg : Cfg} {d : Daq} {c : Conf} (h : WideRep cfg d c) : d.entityCount ≤ cfg.maxEnt := by
  rw [h.used]; exact h.fits

theorem Spec.WideRep.ent_list {cfg : Cfg} {d : Daq} {c : Conf} (h : WideRep cfg d c) {i : Nat} (hi : i < c.length) :
    d.ent cfg i = .ok (d.entities i) := by
  have : i < d.entityCount := h.inside (.list i) hi
  have := h.count_le
  unfold Daq.ent; rw [if_pos (by omega)]

/-- `XcpDaq_GetOdt` finds the slot of the ODT. -/
theorem Spec.WideRep.getOdt {cfg : Cfg} (hc : Wide16 cfg) {d : Daq} {c : Conf} (h : WideRep cfg d c) {i j : Nat} (hj : c.has (.odt i j)) :
    wGetOdt cfg d i j = .ok (d.entities (slot d (.odt i j))) := by
  have hlt := hc.2
  have hs := h.inside _ hj
  obtain ⟨odts, h1, h2⟩ := hj
  have := h.count_le
  have e : slot d (.odt i j) = (d.entities i).first + j := rfl
  unfold wGetOdt
  rw [h.ent_list (getElem?_lt h1), hc.width]
  simp only [ok_bind, Width.mod, first16]
  rw [Nat.mod_eq_of_lt (a := (d.entities i).first) (by omega), Nat.mod_eq_of_lt (by omega), e]
  unfold Daq.ent; rw [if_pos (by omega)]

/-- `XcpDaq_GetOdtEntry` finds the slot of the entry. -/
theorem Spec.WideRep.getEntry {cfg : Cfg} (hc : Wide16 cfg) {d : Daq} {c : Conf} (h : WideRep cfg d c) {i j k : Nat}
    (hk : c.has (.entry i j k)) : wGetOdtEntryIdx cfg d i j k = .ok (slot d (.entry i j k)) := by
  have hlt := hc.2
  have hs := h.inside _ hk
  obtain ⟨odts, m, h1, h2, h3⟩ := hk
  have := h.count_le
  have e : slot d (.entry i j k) = (d.entities (slot d (.odt i j))).first + k := rfl
  unfold wGetOdtEntryIdx
  rw [h.getOdt hc ⟨odts, h1, getElem?_lt h2⟩, hc.width]
  simp only [ok_bind, Width.mod, first16]
  rw [Nat.mod_eq_of_lt (a := k) (by omega), Nat.mod_eq_of_lt (by omega), e]
  rfl

/-- `XcpDaq_ValidateOdtEntry` decides whether the entry exists. -/
theorem Spec.WideRep.validate {cfg : Cfg} (hc : Wide16 cfg) {d : Daq} {c : Conf} (h : WideRep cfg d c) (i j k : Nat) :
    ∃ b, wValidateOdtEntry cfg d i j k = .ok b ∧ (b = true ↔ c.has (.entry i j k)) := by
  unfold wValidateOdtEntry
  simp only [hc.width, beyond, decide_eq_true_eq]
  split
  · rename_i hl
    refine ⟨false, rfl, ?_⟩
    rw [h.lists] at hl
    refine ⟨fun h => (by cases h), fun ⟨odts, m, h1, _⟩ => ?_⟩
    have := getElem?_lt h1
    omega
  · rename_i hl
    rw [h.lists] at hl
    have hi : i < c.length := by omega
    obtain ⟨odts, ho⟩ : ∃ odts, c[i]? = some odts := ⟨c[i], List.getElem?_eq_getElem hi⟩
    rw [h.ent_list hi]
    simp only [ok_bind]
    rw [h.listN i odts ho]
    split
    · rename_i hj
      refine ⟨false, rfl, ?_⟩
      refine ⟨fun h => (by cases h), fun ⟨odts', m, h1, h2, _⟩ => ?_⟩
      rw [ho] at h1; cases h1
      have := getElem?_lt h2
      omega
    · rename_i hj
      have hj : j < odts.length := by omega
      obtain ⟨m, hm⟩ : ∃ m, odts[j]? = some m := ⟨odts[j], List.getElem?_eq_getElem hj⟩
      rw [h.getOdt hc ⟨odts, ho, hj⟩]
      simp only [ok_bind]
      rw [h.odtN i j odts m ho hm]
      refine ⟨_, rfl, ?_⟩
      rw [Bool.not_eq_true', decide_eq_false_iff_not, Nat.not_le]
      refine ⟨fun h => ⟨odts, m, ho, hm, h⟩, fun ⟨odts', m', h1, h2, h3⟩ => ?_⟩
      rw [ho] at h1; cases h1
      rw [hm] at h2; cases h2
      exact h3

theorem Spec.WideRep.odts_lt {cfg : Cfg} (hc : Wide16 cfg) {d : Daq} {c : Conf} (h : WideRep cfg d c) : c.odts < 65536 := by
  have h1 := h.fits
  have h2 := hc.2
  have h3 := odts_le c
  unfold Conf.size at h1
  unfold Conf.odts
  omega

/-- `XcpDaq_GetFirstPid` counts the ODTs of the lists before. -/
theorem Spec.WideRep.firstPid {cfg : Cfg} (hc : Wide16 cfg) {d : Daq} {c : Conf} (h : WideRep cfg d c) {l : Nat} (hl : l < c.length) :
    wGetFirstPid cfg d l = .ok (true, c.firstPid l) := by
  have key : ∀ n, n ≤ c.length → (List.range n).foldlM (fun acc i => do
      let l ← d.ent cfg i
      return (acc + l.numW .w16) % 65536) 0 = (Except.ok (c.firstPid n) : Except Fault Nat) := by
    intro n
    induction n with
    | zero => intro _; rfl
    | succ n ih =>
      intro hn
      rw [foldlM_range_succ, ih (by omega)]
      obtain ⟨odts, ho⟩ : ∃ odts, c[n]? = some odts := ⟨c[n], List.getElem?_eq_getElem (by omega)⟩
      have h1 := firstPid_succ ho
      have h2 := firstPid_le c (n + 1)
      have h3 := h.odts_lt hc
      show (d.ent cfg n).bind _ = _
      rw [h.ent_list (by omega)]
      show Except.ok _ = _
      rw [h.listN n odts ho, h1, Nat.mod_eq_of_lt (by omega)]
  unfold wGetFirstPid
  simp only [hc.width, beyond, decide_eq_true_eq, Width.mod]
  rw [h.lists, if_neg (by omega), key l (by omega)]
  rfl

end Xcp
