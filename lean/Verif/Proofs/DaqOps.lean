import Verif.Proofs.AllocRep
import Verif.Proofs.QueueInv
/-
Every change of the DAQ state is a sequence of a few elementary changes.
-/
set_option autoImplicit false
namespace Xcp
open Spec

/-- Elementary changes of the DAQ state. -/
inductive DaqOp (cfg : Cfg) : Daq → Daq → Prop where
  | init (d : Daq) : DaqOp cfg d (daqInit d)
  | req (d : Daq) (r : AllocReq) (d' : Daq) (a : UInt8) (h : applyReq cfg d r = .ok (d', a)) : DaqOp cfg d d'
  | ptr (d : Daq) (l o e : Nat) (hr : d.running = false) (h : validateOdtEntry cfg d l o e = .ok true) :
      DaqOp cfg d { d with ptr := ⟨l, o, e⟩ }
  | write (d : Daq) (size : UInt8) (addr : UInt32) (d' : Daq) (hr : d.running = false)
      (h : writeDaqEntry cfg d size addr = .ok d') : DaqOp cfg d d'
  | event (d : Daq) (l ev : Nat) (d' : Daq) (hr : d.running = false) (h : addEventChannel cfg d l ev = .ok d') : DaqOp cfg d d'
  | mode (d : Daq) (m : UInt8) : DaqOp cfg d { d with mode := m }
  | running (d : Daq) (b : Bool) : DaqOp cfg d { d with running := b }
  | queue (d : Daq) (q : Queue) (h : QE d.queue → QE q) : DaqOp cfg d { d with queue := q }

/-- Sequences of elementary changes. -/
inductive DaqOps (cfg : Cfg) : Daq → Daq → Prop where
  | refl (d : Daq) : DaqOps cfg d d
  | tail {d d1 d2 : Daq} (h : DaqOps cfg d d1) (h' : DaqOp cfg d1 d2) : DaqOps cfg d d2

theorem DaqOps.one {cfg : Cfg} {d d' : Daq} (h : DaqOp cfg d d') : DaqOps cfg d d' := .tail (.refl d) h

theorem DaqOps.trans {cfg : Cfg} {a b c : Daq} (h : DaqOps cfg a b) (h' : DaqOps cfg b c) : DaqOps cfg a c := by
  induction h' with
  | refl => exact h
  | tail _ h2 ih => exact .tail ih h2

theorem DaqOps.inv {cfg : Cfg} {I : Daq → Prop} (hI : ∀ d d', I d → DaqOp cfg d d' → I d') {d d' : Daq}
    (h : DaqOps cfg d d') (h0 : I d) : I d' := by
  induction h with
  | refl => exact h0
  | tail _ h2 ih => exact hI _ _ ih h2

theorem write_same {cfg : Cfg} {d d' : Daq} {size : UInt8} {addr : UInt32} (h : writeDaqEntry cfg d size addr = .ok d') :
    d'.running = d.running ∧ d'.listCount = d.listCount ∧ d'.odtCount = d.odtCount ∧ d'.entityCount = d.entityCount ∧
    d'.allocState = d.allocState ∧ d'.mode = d.mode ∧ d'.listForEvent = d.listForEvent ∧ d'.queue = d.queue := by
  unfold writeDaqEntry at h
  cases h1 : getOdtEntryIdx cfg d d.ptr.list d.ptr.odt d.ptr.entry with
  | error e => rw [h1] at h; cases h
  | ok i =>
    rw [h1] at h
    simp only [ok_bind, Daq.ent] at h
    split at h
    · cases h; exact ⟨rfl, rfl, rfl, rfl, rfl, rfl, rfl, rfl⟩
    · cases h

theorem foldlM_cons {α β : Type} {f : β → α → Except Fault β} {b : β} {a : α} {l : List α} :
    (a :: l).foldlM f b = (f b a).bind (fun b' => l.foldlM f b') := rfl

theorem writeMultiple_ops {cfg : Cfg} {p : Pdu} {d : Daq} (l : List Nat) (hr : d.running = false) :
    Post (l.foldlM (writeDaqMultipleBody cfg p) d) (fun d' => DaqOps cfg d d' ∧ d'.running = false) := by
  induction l generalizing d with
  | nil => exact Post.ok ⟨.refl d, hr⟩
  | cons i l ih =>
    have hb : Post (writeDaqMultipleBody cfg p d i) (fun d' => DaqOps cfg d d' ∧ d'.running = false) := by
      unfold writeDaqMultipleBody
      apply Post.bindAny; intro _ _
      apply Post.bindAny; intro size _
      apply Post.bindAny; intro addr _
      apply Post.bindAny; intro _ _
      intro d' h
      refine ⟨.one (.write d size addr d' hr h), ?_⟩
      rw [(write_same h).1]; exact hr
    refine Post.bind (hb.mono ?_)
    intro d' ⟨h1, h2⟩
    exact (ih h2).mono (fun e he => ⟨h1.trans he.1, he.2⟩)

theorem startStop_ops {cfg : Cfg} (b : Bool) (d : Daq) : DaqOps cfg d (startStopLists b d) := .one (.mode d _)

theorem handler_daqOps {cfg : Cfg} (env : Env) {s : St} (p : Pdu) (c : Cmd) :
    Post (handler cfg env s p c) (fun t => DaqOps cfg s.daq t.daq) := by
  rcases Bool.eq_false_or_eq_true (changesDaq c) with hc | hc
  · cases c <;> first | (simp [changesDaq] at hc; done) | skip
    case unlock =>
      unfold_handlers
      post
      all_goals simp only [send8_daq, apiDisconnect_daq]
      all_goals first
        | exact .refl _
        | (split <;> first | exact .one (.init _) | exact .refl _)
    case disconnect =>
      unfold_handlers
      post
      all_goals simp only [send8_daq, apiDisconnect_daq]
      all_goals first
        | exact .refl _
        | (split <;> first | exact .one (.init _) | exact .refl _)
    case setDaqPtr =>
      unfold_handlers
      post
      all_goals simp only [send8_daq]
      all_goals first | exact .refl _ | skip
      rename_i h _ _ _ _ _ _ _ _ b hb ht
      subst ht
      exact .one (.ptr _ _ _ _ h hb)
    case writeDaq =>
      unfold_handlers
      post
      all_goals simp only [send8_daq]
      all_goals first | exact .refl _ | skip
      rename_i h _ _ _ hd
      exact .one (.write _ _ _ _ h hd)
    case writeDaqMultiple =>
      unfold_handlers
      post
      all_goals simp only [send8_daq]
      all_goals first | exact .refl _ | skip
      rename_i h _ _ _ hd
      exact (writeMultiple_ops _ h _ hd).1
    case setDaqListMode =>
      unfold_handlers
      post
      all_goals simp only [send8_daq]
      all_goals first | exact .refl _ | skip
      rename_i h _ _ _ _ _ d hd
      exact .tail (.one (.event _ _ _ _ h hd)) (.mode d _)
    case startStopDaqList =>
      unfold_handlers
      post
      all_goals simp only [send8_daq]
      all_goals first | exact .refl _ | exact .one (.mode _ _)
    case startStopSynch =>
      unfold_handlers
      post
      all_goals simp only [send8_daq]
      all_goals first
        | exact .refl _
        | exact startStop_ops _ _
        | exact .tail (startStop_ops true s.daq) (.running _ _)
        | exact .tail (startStop_ops false s.daq) (.running _ _)
    case freeDaq =>
      unfold_handlers
      post
      all_goals simp only [send8_daq]
      all_goals first | exact .refl _ | exact .one (.req _ .free _ _ rfl)
    case allocDaq =>
      unfold_handlers
      post
      all_goals simp only [send8_daq]
      all_goals first | exact .refl _ | exact .one (.req _ (.daq _) _ _ rfl)
    case allocOdt =>
      unfold_handlers
      post
      all_goals simp only [send8_daq]
      all_goals first | exact .refl _ | skip
      rename_i hd
      exact .one (.req _ (.odt _ _) _ _ hd)
    case allocOdtEntry =>
      unfold_handlers
      post
      all_goals simp only [send8_daq]
      all_goals first | exact .refl _ | skip
      rename_i hd
      exact .one (.req _ (.entry _ _ _) _ _ hd)
  · exact (handler_daq env p c hc).mono (fun t h => by rw [h]; exact .refl _)

theorem step_daqOps {cfg : Cfg} (env : Env) {s : St} (op : Op) :
    Post (step cfg env s op) (fun t => DaqOps cfg s.daq t.daq) := by
  have keep : ∀ t : St, t.daq = s.daq → DaqOps cfg s.daq t.daq := fun t h => by rw [h]; exact .refl _
  cases op with
  | cmd p =>
    apply Post.cmd
    · intro t h1 h2; exact keep t (h1.daq)
    · intro _ t _ h1 h2; exact keep t (h1.daq)
    · intro c hx
      have := handler_daqOps (cfg := cfg) env (s := bumpReceived cfg s) p c
      simpa using this
  | main => exact (main_eff env).mono (fun t ht => keep t ht.daq)
  | trigger ev =>
    unfold step
    apply Post.ite
    · intro _
      intro t h1
      have hq : QE s.daq.queue → QE t.daq.queue := trigger_qe t h1
      obtain ⟨q, h⟩ := (trigger_eff env _ t h1).daq
      rw [h] at hq ⊢
      exact .one (.queue _ _ hq)
    · intro _; exact Post.ok (.refl _)
  | eventPkt code data => exact special_eff.mono (fun t ht => keep t ht.same.daq)
  | servPkt code data => exact special_eff.mono (fun t ht => keep t ht.same.daq)
  | appWrite a data => exact Post.ok (keep _ rfl)
  | apiDisconnect =>
    refine Post.ok ?_
    rw [apiDisconnect_daq]
    split <;> first | exact .one (.init _) | exact .refl _

/-- An invariant of the elementary changes holds in every reachable state. -/
theorem daq_invariant {cfg : Cfg} {I : Daq → Prop} (hI : ∀ d d', I d → DaqOp cfg d d' → I d') {h : List (Env × Op)}
    {s s' : St} (hr : run cfg s h = .ok s') (h0 : I s.daq) : I s'.daq :=
  run_induction (I := fun s => I s.daq) (fun env op _ s1 hs h1 => (step_daqOps env op s1 h1).inv hI hs) h0 hr

theorem daqFree_state (d : Daq) : (daqFree d).allocState = .afterFree := by
  unfold daqFree
  cases h : d.allocState <;> simp [allocOk]

theorem daqInit_state (d : Daq) : (daqInit d).allocState = .afterFree := daqFree_state _

/-- The slave is never before its first FREE. -/
theorem not_idle_op {cfg : Cfg} (d d' : Daq) (h : d.allocState ≠ .idle) (ho : DaqOp cfg d d') : d'.allocState ≠ .idle := by
  cases ho with
  | init => rw [daqInit_state]; decide
  | req r _ a hh =>
    obtain ⟨h1, h2, h3⟩ := applyReq_code h hh
    by_cases hl : r.legal (phase d.allocState)
    · by_cases hf : r = .free ∨ d.entityCount + (cutReq r).size ≤ cfg.maxEnt
      · exact (h3 hl hf).2.2.1
      · rw [(h2 hl (by omega) (by simp_all)).2]; exact h
    · rw [(h1 hl).2]
      split
      · rw [daqInit_state]; decide
      · exact h
  | ptr => exact h
  | write _ _ _ _ hh => rw [(write_same hh).2.2.2.2.1]; exact h
  | event l ev _ _ hh =>
    unfold addEventChannel at hh
    split at hh
    · cases hh; exact h
    · cases hh
  | mode => exact h
  | running => exact h
  | queue => exact h

theorem init_not_idle (cfg : Cfg) (mem : Mem) : (St.init cfg mem).daq.allocState ≠ .idle := by
  show (daqInit _).allocState ≠ _
  rw [daqInit_state]; decide

theorem alloc_queue {cfg : Cfg} {d d' : Daq} {r : AllocReq} {a : UInt8} (h : applyReq cfg d r = .ok (d', a)) :
    d'.queue = d.queue ∨ d'.queue = queueInit := by
  have hreset : (if cfg.resetOnSeqErr then daqInit d else d).queue = d.queue ∨
      (if cfg.resetOnSeqErr then daqInit d else d).queue = queueInit := by
    split
    · right; rfl
    · left; rfl
  cases r with
  | free =>
    cases h
    left
    unfold daqFree
    cases d.allocState <;> rfl
  | daq n =>
    simp only [applyReq, allocDaq] at h
    split at h
    · cases h; exact hreset
    · split at h
      · cases h; left; rfl
      · cases h; left; rfl
  | odt l n =>
    simp only [applyReq, allocOdt] at h
    split at h
    · cases h; exact hreset
    · split at h
      · simp only [Daq.ent] at h
        split at h
        · cases h; left; rfl
        · cases h
      · cases h; left; rfl
  | entry l o n =>
    simp only [applyReq, allocOdtEntry] at h
    split at h
    · cases h; exact hreset
    · split at h
      · simp only [Daq.ent] at h
        split at h
        · simp only [ok_bind] at h
          split at h
          · cases h; left; rfl
          · cases h
        · cases h
      · cases h; left; rfl

/-- The queue is empty between operations. -/
theorem qe_op {cfg : Cfg} (d d' : Daq) (h : QE d.queue) (ho : DaqOp cfg d d') : QE d'.queue := by
  cases ho with
  | init => exact qe_init
  | req _ _ _ hr =>
    rcases alloc_queue hr with e | e
    · rw [e]; exact h
    · rw [e]; exact qe_init
  | ptr => exact h
  | write _ _ _ _ hw => rw [(write_same hw).2.2.2.2.2.2.2]; exact h
  | event _ _ _ _ he =>
    unfold addEventChannel at he
    split at he
    · cases he; exact h
    · cases he
  | mode => exact h
  | running => exact h
  | queue q hq => exact hq h

theorem run_qe {cfg : Cfg} {mem : Mem} {h : List (Env × Op)} {s : St} (hr : run cfg (St.init cfg mem) h = .ok s) :
    QE s.daq.queue := by
  refine daq_invariant (I := fun d => QE d.queue) qe_op hr ?_
  exact qe_init

end Xcp
