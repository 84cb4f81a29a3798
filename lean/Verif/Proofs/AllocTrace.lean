import Verif.Proofs.DaqOps
import Verif.Model.Example
/-
Histories seen as sequences of allocation requests and their answers.
-/
set_option autoImplicit false
namespace Xcp
open Spec

/-- The response for a result code: 0xFF stands for success. -/
def Spec.resp (a : UInt8) : List UInt8 := if a = 0xFF then [0xFF] else [0xFE, a]

/-- The commands that allocate, write or reset the DAQ configuration. -/
def Spec.touchesPool : Cmd → Prop
  | .freeDaq | .allocDaq | .allocOdt | .allocOdtEntry | .writeDaq | .writeDaqMultiple | .disconnect | .unlock => True
  | _ => False

/-- The operation is none of these commands, nor the disconnect function of the API. -/
def Spec.unrelated (cfg : Cfg) (s : St) (op : Op) : Prop :=
  op ≠ .apiDisconnect ∧ ∀ p c, op = .cmd p → executes cfg s p c → ¬ touchesPool c

/-- A history from `s` to `s'`, of which only the allocation requests and the codes they were
answered with are recorded.  In between there may be any number of unrelated operations. -/
inductive Spec.AllocTrace (cfg : Cfg) (s : St) : List (AllocReq × UInt8) → St → Prop where
  | nil : AllocTrace cfg s [] s
  | req {t : List (AllocReq × UInt8)} {s1 s2 : St} {env : Env} {p : Pdu} {r : AllocReq} {a : UInt8}
      (h : AllocTrace cfg s t s1) (hd : DaqReady cfg s1) (hp : IsReq cfg.motorola p r)
      (hs : step cfg env s1 (.cmd p) = .ok s2) (ha : Answers cfg s1 s2 (resp a)) :
      AllocTrace cfg s (t ++ [(r, a)]) s2
  | other {t : List (AllocReq × UInt8)} {s1 s2 : St} {env : Env} {op : Op}
      (h : AllocTrace cfg s t s1) (hu : unrelated cfg s1 op) (hs : step cfg env s1 op = .ok s2) : AllocTrace cfg s t s2

/-- Nothing is allocated. -/
structure Spec.Empty (d : Daq) : Prop where
  lists : d.listCount = 0
  odts : d.odtCount = 0
  used : d.entityCount = 0
  freed : d.allocState = .afterFree
  pool : ∀ i, d.entities i = Entity.zero

/-- The slave implements the four allocation commands. -/
def Spec.AllocOn (cfg : Cfg) : Prop := ∀ r, cfg.supports (reqCmd r) = true

theorem resp_inj {cfg : Cfg} {s s' : St} {a b : UInt8} (h : Answers cfg s s' (resp a)) (h' : Answers cfg s s' (resp b)) : a = b := by
  obtain ⟨f, h1, -, h2, h3⟩ := h
  obtain ⟨g, h4, -, h5, h6⟩ := h'
  have : f = g := by
    rw [h1] at h4
    simpa using List.append_cancel_left h4
  subst this
  unfold resp at *
  generalize payload cfg f = l at *
  split at h2 <;> split at h5
  · simp_all
  · cases l with
    | nil => simp at h2
    | cons x l => simp at h2 h5; obtain ⟨h5, -⟩ := h5; rw [h2] at h5; exact absurd h5 (by decide)
  · cases l with
    | nil => simp at h2
    | cons x l => simp at h2 h5; obtain ⟨h2, -⟩ := h2; rw [h2] at h5; exact absurd h5 (by decide)
  · match l with
    | [] => simp at h2
    | [x] => simp at h2
    | x :: y :: l => simp at h2 h5; rw [← h2.2, ← h5.2]

/-- What one allocation request does. -/
theorem request_step {cfg : Cfg} (hs : ShortOk cfg) (ha : AllocOn cfg) {env : Env} {s s' : St} (hd : DaqReady cfg s) {p : Pdu}
    {r : AllocReq} (hp : IsReq cfg.motorola p r) (h : step cfg env s (.cmd p) = .ok s') :
    ∃ a, applyReq cfg s.daq r = .ok (s'.daq, a) ∧ Answers cfg s s' (resp a) ∧
      SameCore { s with daq := s'.daq } s' := by
  rw [alloc_step env hd (ha r) hp] at h
  cases hx : applyReq cfg s.daq r with
  | error e => rw [hx] at h; cases h
  | ok x =>
    rw [hx] at h
    change Except.ok _ = _ at h
    cases h
    have hr : (if x.2 = ERR_SUCCESS then [0xFF] else [0xFE, x.2]) = resp x.2 := by
      unfold resp ERR_SUCCESS; split <;> simp_all
    rw [sendResult_eq, hr]
    have htx : (bumpReceived cfg s).tx = s.tx := bumpReceived_tx cfg s
    have hsame := bumpReceived_same cfg s
    generalize bumpReceived cfg s = b at *
    refine ⟨x.2, rfl, send8_answers hs ?_ htx, ?_⟩
    · unfold resp; split <;> simp
    · exact SameCore.trans (b := { b with daq := x.1 })
        ⟨hsame.connected, hsame.busy, rfl, hsame.pgm, hsame.resProt, hsame.seedReq, hsame.mta, hsame.slaveBlk,
          hsame.masterBlk, hsame.ck, hsame.mem⟩ (send8_same _ _ _)

/-- Unrelated operations leave the pool alone. -/
structure SamePool (d d' : Daq) : Prop where
  state : d'.allocState = d.allocState
  lists : d'.listCount = d.listCount
  odts : d'.odtCount = d.odtCount
  used : d'.entityCount = d.entityCount
  pool : d'.entities = d.entities

theorem SamePool.refl (d : Daq) : SamePool d d := ⟨rfl, rfl, rfl, rfl, rfl⟩

theorem SamePool.trans {a b c : Daq} (h : SamePool a b) (h' : SamePool b c) : SamePool a c :=
  ⟨h'.state.trans h.state, h'.lists.trans h.lists, h'.odts.trans h.odts, h'.used.trans h.used, h'.pool.trans h.pool⟩

theorem addEvent_pool {cfg : Cfg} {d d' : Daq} {l ev : Nat} (h : addEventChannel cfg d l ev = .ok d') : SamePool d d' := by
  unfold addEventChannel at h
  split at h
  · cases h; exact ⟨rfl, rfl, rfl, rfl, rfl⟩
  · cases h

theorem handler_pool {cfg : Cfg} (env : Env) {s : St} (p : Pdu) (c : Cmd) (hc : ¬ touchesPool c) :
    Post (handler cfg env s p c) (fun t => SamePool s.daq t.daq) := by
  rcases Bool.eq_false_or_eq_true (changesDaq c) with hd | hd
  · cases c <;> first | (simp [changesDaq] at hd; done) | (exact absurd trivial hc) | skip
    all_goals unfold_handlers
    all_goals post
    all_goals simp only [send8_daq]
    all_goals first
      | exact .refl _
      | exact ⟨rfl, rfl, rfl, rfl, rfl⟩
      | (rename_i hd; exact SamePool.trans (addEvent_pool hd) ⟨rfl, rfl, rfl, rfl, rfl⟩)
  · exact (handler_daq env p c hd).mono (fun t h => by rw [h]; exact .refl _)

theorem unrelated_pool {cfg : Cfg} {env : Env} {s s' : St} {op : Op} (hu : unrelated cfg s op)
    (h : step cfg env s op = .ok s') : SamePool s.daq s'.daq := by
  have keep : ∀ t : St, t.daq = s.daq → SamePool s.daq t.daq := fun t h => by rw [h]; exact .refl _
  revert s'
  change Post _ (fun t : St => SamePool s.daq t.daq)
  cases op with
  | cmd p =>
    apply Post.cmd
    · intro t h1 h2; exact keep t (h1.daq)
    · intro _ t _ h1 h2; exact keep t (h1.daq)
    · intro c hx
      have := handler_pool (cfg := cfg) env (s := bumpReceived cfg s) p c (hu.2 p c rfl hx)
      simpa using this
  | main => exact (main_eff env).mono (fun t ht => keep t ht.daq)
  | trigger ev =>
    unfold step
    apply Post.ite
    · intro _
      refine (trigger_eff env _).mono (fun t ht => ?_)
      obtain ⟨q, h⟩ := ht.daq
      rw [h]; exact ⟨rfl, rfl, rfl, rfl, rfl⟩
    · intro _; exact Post.ok (.refl _)
  | eventPkt code data => exact special_eff.mono (fun t ht => keep t ht.same.daq)
  | servPkt code data => exact special_eff.mono (fun t ht => keep t ht.same.daq)
  | appWrite a data => exact Post.ok (keep _ rfl)
  | apiDisconnect => exact absurd rfl hu.1

theorem slot_pool {d d' : Daq} (h : d'.entities = d.entities) (o : Owner) : slot d' o = slot d o := by
  cases o <;> simp only [slot, h]

theorem rep_pool {cfg : Cfg} {d d' : Daq} {c : Conf} (h : SamePool d d') (hr : Rep cfg d c) : Rep cfg d' c := by
  refine ⟨h.lists.trans hr.lists, h.odts.trans hr.odtCount, h.used.trans hr.used, hr.fits, ?_, ?_, ?_, ?_, ?_⟩
  · rw [h.pool]; exact hr.listNum
  · intro i j odts m; rw [slot_pool h.pool, h.pool]; exact hr.odtNum i j odts m
  · intro o; rw [slot_pool h.pool, h.used]; exact hr.inside o
  · intro o o'; rw [slot_pool h.pool, slot_pool h.pool]; exact hr.disjoint o o'
  · rw [h.used, h.pool]; exact hr.fresh

theorem held_pool {cfg : Cfg} {d d' : Daq} {c : Conf} (h : SamePool d d') (hr : Held cfg d c) : Held cfg d' c :=
  ⟨rep_pool h hr.rep, by rw [h.state]; exact hr.flat, by rw [h.state]; exact hr.init⟩

theorem held_empty {cfg : Cfg} {d : Daq} (h : Empty d) : Held cfg d [] :=
  ⟨rep_free cfg d h.lists h.odts h.used h.pool, flat_nil _, by rw [h.freed]; decide⟩

theorem empty_free (d : Daq) : Empty (daqFree d) := by
  unfold daqFree
  cases h : d.allocState <;> exact ⟨rfl, rfl, rfl, rfl, fun _ => rfl⟩

theorem empty_init (d : Daq) : Empty (daqInit d) :=
  have h := empty_free { startStopLists false d with running := false, ptr := ⟨0, 0, 0⟩, allocState := .idle }
  ⟨h.lists, h.odts, h.used, h.freed, h.pool⟩

/-- Every request of the trace, its answer, and the trace before it satisfy `P`. -/
def Spec.Each (P : List (AllocReq × UInt8) → AllocReq → UInt8 → Prop) (t : List (AllocReq × UInt8)) : Prop :=
  ∀ t1 r a t2, t = t1 ++ (r, a) :: t2 → P t1 r a

theorem each_nil (P : List (AllocReq × UInt8) → AllocReq → UInt8 → Prop) : Each P [] := by
  intro t1 r a t2 h
  simp at h

theorem each_snoc {P : List (AllocReq × UInt8) → AllocReq → UInt8 → Prop} {t : List (AllocReq × UInt8)} {r : AllocReq} {a : UInt8} :
    Each P (t ++ [(r, a)]) ↔ Each P t ∧ P t r a := by
  constructor
  · intro h
    refine ⟨?_, h t r a [] rfl⟩
    intro t1 r1 a1 t2 e
    exact h t1 r1 a1 (t2 ++ [(r, a)]) (by rw [e]; simp)
  · rintro ⟨h1, h2⟩ t1 r1 a1 t2 e
    rcases List.eq_nil_or_concat t2 with h | ⟨t3, y, h⟩
    · subst h
      have := List.append_inj' e rfl
      obtain ⟨rfl, h⟩ := this
      cases h
      exact h2
    · subst h
      have e' : t ++ [(r, a)] = (t1 ++ (r1, a1) :: t3) ++ [y] := by rw [e]; simp
      obtain ⟨rfl, -⟩ := List.append_inj' e' rfl
      exact h1 t1 r1 a1 t3 rfl

/-- Where the prescribed order stands after a trace that starts with nothing allocated.  With
the option to reset on sequence errors, ERR_SEQUENCE starts over. -/
def Spec.phaseAfter (reset : Bool) (t : List (AllocReq × UInt8)) : Nat :=
  t.foldl (fun ph x => if x.2 = 0xFF then x.1.rank else if x.2 = 0x29 ∧ reset = true then 0 else ph) 0

/-- What the accepted requests of a trace ask for together, since the last FREE_DAQ. -/
def Spec.usedAfter (reset : Bool) (t : List (AllocReq × UInt8)) : Nat :=
  t.foldl (fun n x => if x.2 = 0xFF then (if x.1 = .free then 0 else n + x.1.size)
    else if x.2 = 0x29 ∧ reset = true then 0 else n) 0

/-- The configuration the accepted requests of a trace describe. -/
def Spec.confAfter (reset : Bool) (t : List (AllocReq × UInt8)) : Conf :=
  t.foldl (fun c x => if x.2 = 0xFF then c.apply x.1 else if x.2 = 0x29 ∧ reset = true then [] else c) []

theorem phaseAfter_snoc (b : Bool) (t : List (AllocReq × UInt8)) (r : AllocReq) (a : UInt8) :
    phaseAfter b (t ++ [(r, a)]) = if a = 0xFF then r.rank else if a = 0x29 ∧ b = true then 0 else phaseAfter b t := by
  simp [phaseAfter]
theorem usedAfter_snoc (b : Bool) (t : List (AllocReq × UInt8)) (r : AllocReq) (a : UInt8) :
    usedAfter b (t ++ [(r, a)]) = if a = 0xFF then (if r = .free then 0 else usedAfter b t + r.size)
      else if a = 0x29 ∧ b = true then 0 else usedAfter b t := by
  simp [usedAfter]
theorem confAfter_snoc (b : Bool) (t : List (AllocReq × UInt8)) (r : AllocReq) (a : UInt8) :
    confAfter b (t ++ [(r, a)]) = if a = 0xFF then (confAfter b t).apply r
      else if a = 0x29 ∧ b = true then [] else confAfter b t := by
  simp [confAfter]

/-- Requests whose answer does not depend on the 8-bit cut of ALLOC_DAQ's count. -/
def Spec.small : AllocReq → Prop
  | .daq n => n < 256
  | _ => True

theorem cut_size {r : AllocReq} (h : small r) : (cutReq r).size = r.size := by
  cases r <;> simp [cutReq, AllocReq.size]
  exact h

theorem trace_phase {cfg : Cfg} (hs : ShortOk cfg) (ha : AllocOn cfg) {s s' : St} (h0 : Empty s.daq)
    {t : List (AllocReq × UInt8)} (h : AllocTrace cfg s t s') :
    s'.daq.allocState ≠ .idle ∧ phase s'.daq.allocState = phaseAfter cfg.resetOnSeqErr t ∧
    Each (fun t1 r a => (¬ r.legal (phaseAfter cfg.resetOnSeqErr t1) → a = 0x29) ∧
      (r.legal (phaseAfter cfg.resetOnSeqErr t1) → a = 0xFF ∨ a = 0x30)) t := by
  induction h with
  | nil => exact ⟨by rw [h0.freed]; decide, by rw [h0.freed]; rfl, each_nil _⟩
  | other _ hu hst ih =>
    have hp := unrelated_pool hu hst
    exact ⟨by rw [hp.state]; exact ih.1, by rw [hp.state]; exact ih.2.1, ih.2.2⟩
  | @req t s1 s2 env p r a _ hd hp hst hans ih =>
    obtain ⟨ih1, ih2, ih3⟩ := ih
    obtain ⟨b, h1, h2, -⟩ := request_step hs ha hd hp hst
    have := resp_inj hans h2
    subst this
    obtain ⟨g1, g2, g3⟩ := applyReq_code ih1 h1
    rw [each_snoc, phaseAfter_snoc]
    rw [ih2] at g1 g2 g3
    by_cases hl : r.legal (phaseAfter cfg.resetOnSeqErr t)
    · by_cases hf : r = .free ∨ s1.daq.entityCount + (cutReq r).size ≤ cfg.maxEnt
      · obtain ⟨k1, k2, k3, -⟩ := g3 hl hf
        have k1 : a = 0xFF := k1
        subst k1
        exact ⟨k3, by rw [k2]; rfl, ih3, fun h => absurd hl h, fun _ => Or.inl rfl⟩
      · obtain ⟨k1, k2⟩ := g2 hl (by omega) (by simp_all)
        have k1 : a = 0x30 := k1
        subst k1
        rw [k2]
        exact ⟨ih1, by rw [ih2]; rfl, ih3, fun h => absurd hl h, fun _ => Or.inr rfl⟩
    · obtain ⟨k1, k2⟩ := g1 hl
      have k1 : a = 0x29 := k1
      subst k1
      rw [k2]
      refine ⟨?_, ?_, ih3, fun _ => rfl, fun h => absurd h hl⟩
      · split
        · rw [daqInit_state]; decide
        · exact ih1
      · cases hq : cfg.resetOnSeqErr
        · simpa [hq] using ih2
        · simp [daqInit_state, phase]

theorem trace_used {cfg : Cfg} (hc : cfg.Ok) (hs : ShortOk cfg) (ha : AllocOn cfg) {s s' : St} (h0 : Empty s.daq)
    {t : List (AllocReq × UInt8)} (h : AllocTrace cfg s t s') (hsm : ∀ x ∈ t, small x.1) :
    s'.daq.entityCount = usedAfter cfg.resetOnSeqErr t ∧ usedAfter cfg.resetOnSeqErr t ≤ cfg.maxEnt ∧
    Each (fun t1 r a => a = 0x30 ↔ r.legal (phaseAfter cfg.resetOnSeqErr t1) ∧ r ≠ .free ∧
      cfg.maxEnt < usedAfter cfg.resetOnSeqErr t1 + r.size) t := by
  induction h with
  | nil => exact ⟨h0.used, Nat.zero_le _, each_nil _⟩
  | other _ hu hst ih =>
    have hp := unrelated_pool hu hst
    obtain ⟨ih1, ih2⟩ := ih hsm
    exact ⟨by rw [hp.used]; exact ih1, ih2⟩
  | @req t s1 s2 env p r a htr hd hp hst hans ih =>
    obtain ⟨ih1, ih2, ih3⟩ := ih (fun x hx => hsm x (by simp [hx]))
    obtain ⟨p1, p2, -⟩ := trace_phase hs ha h0 htr
    obtain ⟨b, h1, h2, -⟩ := request_step hs ha hd hp hst
    have := resp_inj hans h2
    subst this
    obtain ⟨g1, g2, g3⟩ := applyReq_code p1 h1
    have hsz : (cutReq r).size = r.size := cut_size (hsm (r, a) (by simp))
    have hlt := hc.ent_lt
    rw [each_snoc, usedAfter_snoc]
    rw [p2] at g1 g2 g3
    rw [hsz, ih1] at g2 g3
    by_cases hl : r.legal (phaseAfter cfg.resetOnSeqErr t)
    · by_cases hf : r = .free ∨ usedAfter cfg.resetOnSeqErr t + r.size ≤ cfg.maxEnt
      · obtain ⟨k1, -, -, k2⟩ := g3 hl hf
        have k1 : a = 0xFF := k1
        subst k1
        rw [k2, if_pos rfl]
        refine ⟨?_, ?_, ih3, ?_⟩
        · split
          · rfl
          · rename_i hne
            apply Nat.mod_eq_of_lt
            rcases hf with hf | hf
            · exact absurd hf hne
            · omega
        · split
          · omega
          · rename_i hne
            rcases hf with hf | hf
            · exact absurd hf hne
            · exact hf
        · refine ⟨fun h => absurd h (by decide), fun ⟨_, k4, k5⟩ => ?_⟩
          rcases hf with hf | hf
          · exact absurd hf k4
          · omega
      · have hne : r ≠ .free := fun h => hf (Or.inl h)
        have hgt : cfg.maxEnt < usedAfter cfg.resetOnSeqErr t + r.size := by
          apply Decidable.byContradiction; intro h; exact hf (Or.inr (by omega))
        obtain ⟨k1, k2⟩ := g2 hl hgt hne
        have k1 : a = 0x30 := k1
        subst k1
        rw [k2]
        exact ⟨ih1, ih2, ih3, fun _ => ⟨hl, hne, hgt⟩, fun _ => rfl⟩
    · obtain ⟨k1, k2⟩ := g1 hl
      have k1 : a = 0x29 := k1
      subst k1
      rw [k2]
      refine ⟨?_, ?_, ih3, fun h => absurd h (by decide), fun h => absurd h.1 hl⟩
      · cases hq : cfg.resetOnSeqErr
        · simpa [hq] using ih1
        · simp [(empty_init _).used]
      · cases hq : cfg.resetOnSeqErr
        · simpa [hq] using ih2
        · simp

theorem trace_held {cfg : Cfg} (hc : cfg.Ok) (hs : ShortOk cfg) (ha : AllocOn cfg) {s s' : St} (h0 : Empty s.daq)
    {t : List (AllocReq × UInt8)} (h : AllocTrace cfg s t s') (hsm : ∀ x ∈ t, small x.1)
    (had : Each (fun t1 r a => a = 0xFF → (confAfter cfg.resetOnSeqErr t1).admits r) t) :
    Held cfg s'.daq (confAfter cfg.resetOnSeqErr t) := by
  induction h with
  | nil => exact held_empty h0
  | other _ hu hst ih => exact held_pool (unrelated_pool hu hst) (ih hsm had)
  | @req t s1 s2 env p r a htr hd hp hst hans ih =>
    obtain ⟨had1, had2⟩ := each_snoc.mp had
    have ih := ih (fun x hx => hsm x (by simp [hx])) had1
    obtain ⟨b, h1, h2, -⟩ := request_step hs ha hd hp hst
    have := resp_inj hans h2
    subst this
    obtain ⟨g1, g2, g3⟩ := applyReq_code ih.init h1
    have hsz : (cutReq r).size = r.size := cut_size (hsm (r, a) (by simp))
    rw [hsz] at g2 g3
    rw [confAfter_snoc]
    by_cases hl : r.legal (phase s1.daq.allocState)
    · by_cases hf : r = .free ∨ s1.daq.entityCount + r.size ≤ cfg.maxEnt
      · have k1 : a = 0xFF := (g3 hl hf).1
        obtain ⟨d', k2, k3⟩ := held_accept hc ih (had2 k1) hl hf
        rw [h1] at k2
        cases k2
        rw [if_pos (show ERR_SUCCESS = 255 from rfl)]
        exact k3
      · have hne : r ≠ .free := fun h => hf (Or.inl h)
        obtain ⟨k1, k2⟩ := g2 hl (by apply Decidable.byContradiction; intro h; exact hf (Or.inr (by omega))) hne
        have k1 : a = 0x30 := k1
        subst k1
        rw [k2]
        exact ih
    · obtain ⟨k1, k2⟩ := g1 hl
      have k1 : a = 0x29 := k1
      subst k1
      rw [k2]
      cases hq : cfg.resetOnSeqErr
      · simpa [hq] using ih
      · simpa using held_empty (empty_init _)

end Xcp
