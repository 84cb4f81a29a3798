import Verif.Proofs.Tx
/-
The transmit invariant holds along every history.
-/
set_option autoImplicit false
namespace Xcp
open Spec

theorem apiDisconnect_tx {cfg : Cfg} {s : St} (h : TxOk cfg s) : TxOk cfg (apiDisconnect cfg s) := by
  unfold apiDisconnect defaultResourceProtection
  repeat' split
  all_goals exact h

/-- Close goals about sending from a state whose transmit fields are known to be fine. -/
macro "txsend" hc:term:max h:term:max : tactic => `(tactic|
  (repeat' (with_reducible first
      | exact $h
      | refine TxOk.send8 $hc ?_ ?_ ?_
      | refine TxOk.sendRaw $hc ?_ ?_ ?_
      | refine apiDisconnect_tx ?_)) <;>
    first
      | assumption
      | (simp [leBytes_length]; done)
      | (split <;> simp; done))

theorem handler_tx {cfg : Cfg} (hc : cfg.Ok) (env : Env) {s : St} (p : Pdu) (c : Cmd)
    (h : TxOk cfg s) : Post (handler cfg env s p c) (TxOk cfg) := by
  cases c
  all_goals unfold_handlers
  all_goals post
  all_goals txsend hc h

theorem checksumFinish_tx {cfg : Cfg} (hc : cfg.Ok) {s : St} (c : Nat) (h : TxOk cfg s) :
    TxOk cfg (checksumFinish cfg s c) :=
  TxOk.send8 (s := { s with busy := false }) hc h (by simp) (by simp [leBytes_length])

theorem checksumChunk_tx {cfg : Cfg} {s : St} (st : CkState) (c : Nat) (h : TxOk cfg s) :
    TxOk cfg (checksumChunk cfg s st c) := h

theorem checksumMain_tx {cfg : Cfg} (hc : cfg.Ok) {s : St} (h : TxOk cfg s) :
    TxOk cfg (checksumMain cfg s) := by
  unfold checksumMain
  split
  · exact h
  · exact checksumChunk_tx _ _ h
  · exact checksumChunk_tx _ _ h
  · exact checksumFinish_tx hc _ h

theorem uploadSingleBlock_tx {cfg : Cfg} (hc : cfg.Ok) (env : Env) {s : St} (h : TxOk cfg s) :
    Post (uploadSingleBlock cfg env s) (TxOk cfg) := by
  unfold uploadSingleBlock
  post
  all_goals txsend hc h

theorem transmit_tx {cfg : Cfg} (hc : cfg.Ok) (n : Nat) {s : St} (h : TxOk cfg s) :
    Post (transmit cfg n s) (TxOk cfg) := by
  induction n generalizing s with
  | zero => exact Post.ok h
  | succ n ih =>
    unfold transmit
    apply Post.ite
    · intro _; exact Post.ok h
    · intro _
      apply Post.bindAny
      rintro ⟨q, data⟩ hq
      apply ih
      apply TxOk.emit hc.ctr_le (s := { s with daq := { s.daq with queue := q } }) h
      · intro hk; cases hk
      · intro _
        have : Post (s.daq.queue.dequeue cfg) (fun r => r.2.length ≤ cfg.maxDto) := by
          unfold Queue.dequeue
          post
          simp only [List.length_take]; omega
        exact this _ hq

theorem trigger_tx {cfg : Cfg} (hc : cfg.Ok) (env : Env) (ev : Nat) {s : St} (h : TxOk cfg s) :
    Post (triggerEvent cfg env s ev) (TxOk cfg) := by
  unfold triggerEvent
  post
  · exact h
  · exact h
  · exact h
  · exact transmit_tx hc _ (by exact h)

theorem step_tx {cfg : Cfg} (hc : cfg.Ok) (env : Env) (op : Op) {s : St} (h : TxOk cfg s) :
    Post (step cfg env s op) (TxOk cfg) := by
  have hr : TxOk cfg (bumpReceived cfg s) := by unfold bumpReceived; split <;> exact h
  cases op with
  | cmd p =>
    apply Post.dispatch
    · intro _ _
      refine TxOk.send8 hc ?_ (by simp) (by simp)
      split <;> exact h
    · intro b c _ _ _ _
      apply Post.tableEntry
      · intro _; exact handler_tx hc env p c hr
      · intro _; exact TxOk.send8 hc hr (by simp) (by simp)
    · intro _ _; exact handler_tx hc env p .connect hr
    · intro _ _ _ _; exact hr
  | main =>
    unfold step
    refine Post.mainFunction (Q := TxOk cfg) ?_ ?_ ?_ ?_
    · intro _; exact uploadSingleBlock_tx hc env h
    · intro _; exact h
    · intro s1 h1 _ _; exact checksumMain_tx hc h1
    · intro s1 h1; exact h1
  | trigger ev =>
    unfold step
    apply Post.ite
    · intro _; exact trigger_tx hc env _ h
    · intro _; exact Post.ok h
  | eventPkt code data => unfold step sendSpecial; post; txsend hc h
  | servPkt code data => unfold step sendSpecial; post; txsend hc h
  | appWrite a b => exact Post.ok h
  | apiDisconnect => exact Post.ok (apiDisconnect_tx h)

theorem init_tx (cfg : Cfg) (mem : Mem) : TxOk cfg (St.init cfg mem) := by
  constructor
  · simp [St.init]
  · intro _; rfl
  · intro i f hf; simp [St.init] at hf

theorem run_tx {cfg : Cfg} (hc : cfg.Ok) {mem : Mem} {h : List (Env × Op)} {s : St}
    (hr : run cfg (St.init cfg mem) h = .ok s) : TxOk cfg s :=
  run_induction (I := TxOk cfg) (fun env op _ s' hs h' => step_tx hc env op hs s' h')
    (init_tx cfg mem) hr

end Xcp
