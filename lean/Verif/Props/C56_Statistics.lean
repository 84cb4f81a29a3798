import Verif.Proofs.TxHandlers
import Verif.Proofs.Refuse
import Verif.Model.Example
/-
C56: Statistics count what happened.
-/
set_option autoImplicit false
namespace Xcp
open Spec

/-- How many operations of a history were of a certain kind, judged by the operation and the
state it met. -/
def Spec.occurrences (P : St → Op → Bool) (cfg : Cfg) : St → List (Env × Op) → Nat
  | _, [] => 0
  | s, (env, op) :: rest =>
    (if P s op then 1 else 0) +
      (match step cfg env s op with
       | .ok s1 => occurrences P cfg s1 rest
       | .error _ => 0)

/-- A packet that meets a connected, busy slave. -/
def Spec.rejectedBusy (s : St) : Op → Bool
  | .cmd _ => s.connected && s.busy
  | _ => false

/-- A packet that is not rejected as busy. -/
def Spec.notRejected (s : St) : Op → Bool
  | .cmd _ => !(s.connected && s.busy)
  | _ => false

/-- A command the slave acts on: anything but a busy rejection while connected, and
CONNECT while disconnected. -/
def Spec.accepted (s : St) : Op → Bool
  | .cmd p => if s.connected then !s.busy else code p == some 0xFF
  | _ => false

/-- The counters for `n` packets not rejected, `b` rejected. -/
def StatI (n b : Nat) (tx : List Frame) (st : Stats) : Prop :=
  st = ⟨n % 2 ^ 32, tx.length % 2 ^ 32, b % 2 ^ 32⟩

abbrev StatOk (n b : Nat) (s : St) : Prop := StatI n b s.tx s.stats

theorem StatOk.emit {cfg : Cfg} (hst : cfg.statistics = true) {n b : Nat} {s : St} {k : Kind} {pl : List UInt8}
    (h : StatOk n b s) : StatOk n b (emit cfg s k pl) := by
  unfold StatOk StatI at h ⊢
  simp only [Xcp.emit, bumpSend, hst, if_true, h, List.length_append, List.length_singleton]
  simp only [Nat.mod_add_mod]

theorem StatOk.send8 {cfg : Cfg} (hst : cfg.statistics = true) {n b : Nat} {s : St} {bs : List UInt8}
    (h : StatOk n b s) : StatOk n b (send8 cfg s bs) := by
  unfold Xcp.send8
  exact StatOk.emit hst h

theorem StatOk.sendRaw {cfg : Cfg} (hst : cfg.statistics = true) {n b : Nat} {s : St} {bs : List UInt8}
    (h : StatOk n b s) : StatOk n b (sendRaw cfg s bs) := by
  unfold Xcp.sendRaw
  exact StatOk.emit hst h

theorem StatOk.apiDisconnect {cfg : Cfg} {n b : Nat} {s : St} (h : StatOk n b s) :
    StatOk n b (apiDisconnect cfg s) := by
  unfold Xcp.apiDisconnect defaultResourceProtection
  repeat' split
  all_goals exact h

macro "stsend" hst:term:max h:term:max : tactic => `(tactic|
  (repeat' (with_reducible first
      | exact $h
      | refine StatOk.send8 $hst ?_
      | refine StatOk.sendRaw $hst ?_
      | refine StatOk.apiDisconnect ?_)))

theorem handler_stat {cfg : Cfg} (hst : cfg.statistics = true) (env : Env) {n b : Nat} {s : St} (p : Pdu) (c : Cmd)
    (h : StatOk n b s) : Post (handler cfg env s p c) (StatOk n b) := by
  cases c
  all_goals unfold_handlers
  all_goals post
  all_goals stsend hst h

theorem transmit_stat {cfg : Cfg} (hst : cfg.statistics = true) (k : Nat) {n b : Nat} {s : St} (h : StatOk n b s) :
    Post (transmit cfg k s) (StatOk n b) := by
  induction k generalizing s with
  | zero => exact Post.ok h
  | succ k ih =>
    unfold transmit
    apply Post.ite
    · intro _; exact Post.ok h
    · intro _
      apply Post.bindAny
      rintro ⟨q, data⟩ hq
      apply ih
      exact StatOk.emit hst (s := { s with daq := { s.daq with queue := q } }) h

theorem bumpReceived_stat {cfg : Cfg} (hst : cfg.statistics = true) {n b : Nat} {s : St} (h : StatOk n b s) :
    StatOk (n + 1) b (bumpReceived cfg s) := by
  unfold bumpReceived
  rw [if_pos hst]
  unfold StatOk StatI at h ⊢
  simp only [h, Nat.mod_add_mod]

theorem busyResponse_stat {cfg : Cfg} (hst : cfg.statistics = true) {n b : Nat} {s : St} (h : StatOk n b s) :
    StatOk n (b + 1) (busyResponse cfg s) := by
  unfold busyResponse errorResp
  refine StatOk.send8 hst ?_
  rw [if_pos hst]
  unfold StatOk StatI at h ⊢
  simp only [h, Nat.mod_add_mod]

theorem checksumFinish_stat {cfg : Cfg} (hst : cfg.statistics = true) {n b : Nat} {s : St} (c : Nat)
    (h : StatOk n b s) : StatOk n b (checksumFinish cfg s c) := by
  unfold checksumFinish checksumResponse
  exact StatOk.send8 (s := { s with busy := false }) hst h

theorem checksumChunk_stat {cfg : Cfg} {n b : Nat} {s : St} (st : CkState) (c : Nat) (h : StatOk n b s) :
    StatOk n b (checksumChunk cfg s st c) := h

theorem checksumMain_stat {cfg : Cfg} (hst : cfg.statistics = true) {n b : Nat} {s : St} (h : StatOk n b s) :
    StatOk n b (checksumMain cfg s) := by
  unfold checksumMain
  split
  · exact h
  · exact checksumChunk_stat _ _ h
  · exact checksumChunk_stat _ _ h
  · exact checksumFinish_stat hst _ h

theorem main_stat {cfg : Cfg} (hst : cfg.statistics = true) (env : Env) {n b : Nat} {s : St} (h : StatOk n b s) :
    Post (step cfg env s .main) (StatOk n b) := by
  unfold step
  refine Post.mainFunction (Q := StatOk n b) ?_ ?_ ?_ ?_
  · intro _
    unfold uploadSingleBlock
    post
    all_goals stsend hst h
  · intro _; exact h
  · intro s1 h1 _ _
    exact checksumMain_stat hst h1
  · intro s1 h1; exact h1

theorem trigger_stat {cfg : Cfg} (hst : cfg.statistics = true) (env : Env) (ev : UInt8) {n b : Nat} {s : St}
    (h : StatOk n b s) : Post (step cfg env s (.trigger ev)) (StatOk n b) := by
  unfold step
  apply Post.ite
  · intro _
    unfold triggerEvent
    post
    · exact h
    · exact h
    · exact h
    · exact transmit_stat hst _ (by exact h)
  · intro _; exact Post.ok h

theorem special_stat {cfg : Cfg} (hst : cfg.statistics = true) {n b : Nat} {s : St} (ty code : UInt8)
    (data : List UInt8) (h : StatOk n b s) : Post (sendSpecial cfg s ty code data) (StatOk n b) := by
  unfold sendSpecial; post; stsend hst h

theorem accepted_stat {cfg : Cfg} (hst : cfg.statistics = true) (env : Env) (p : Pdu) {n b : Nat} {s : St}
    (h : StatOk n b s) (hb : (s.connected && s.busy) = false) :
    Post (step cfg env s (.cmd p)) (StatOk (n + 1) b) := by
  have hr : StatOk (n + 1) b (bumpReceived cfg s) := bumpReceived_stat hst h
  apply Post.dispatch
  · intro h1 h2; rw [h1, h2] at hb; cases hb
  · intro _ c _ _ h1 h2
    apply Post.tableEntry
    · intro _; exact handler_stat hst env p c hr
    · intro _; exact StatOk.send8 hst hr
  · intro h1 _; exact handler_stat hst env p .connect hr
  · intro _ _ _ _; exact hr

theorem rejected_stat {cfg : Cfg} (hst : cfg.statistics = true) (env : Env) (p : Pdu) {n b : Nat} {s : St}
    (h : StatOk n b s) (hb : (s.connected && s.busy) = true) :
    Post (step cfg env s (.cmd p)) (StatOk n (b + 1)) := by
  apply Post.dispatch
  · intro h1 h2; exact busyResponse_stat hst h
  · intro _ c _ _ h1 h2; rw [h1, h2] at hb; cases hb
  · intro h1 _; rw [h1] at hb; cases hb
  · intro _ h1 _ _; rw [h1] at hb; cases hb

/-- One operation. -/
theorem step_stat {cfg : Cfg} (hst : cfg.statistics = true) (env : Env) (op : Op) {n b : Nat} {s : St}
    (h : StatOk n b s) :
    Post (step cfg env s op)
      (StatOk ((if notRejected s op then 1 else 0) + n) ((if rejectedBusy s op then 1 else 0) + b)) := by
  have e0 : (if (false : Bool) = true then 1 else 0) = 0 := rfl
  have e1 : (if (true : Bool) = true then 1 else 0) = 1 := rfl
  cases op with
  | cmd p =>
    cases hb : (s.connected && s.busy) with
    | true =>
      rw [show notRejected s (.cmd p) = false from by simp [notRejected, hb],
        show rejectedBusy s (.cmd p) = true from hb, e0, e1, Nat.zero_add, Nat.add_comm]
      exact rejected_stat hst env p h hb
    | false =>
      rw [show notRejected s (.cmd p) = true from by simp [notRejected, hb],
        show rejectedBusy s (.cmd p) = false from hb, e0, e1, Nat.zero_add, Nat.add_comm]
      exact accepted_stat hst env p h hb
  | main => simp only [notRejected, rejectedBusy, Bool.false_eq_true, if_false, Nat.zero_add]; exact main_stat hst env h
  | trigger ev => simp only [notRejected, rejectedBusy, Bool.false_eq_true, if_false, Nat.zero_add]; exact trigger_stat hst env ev h
  | eventPkt code data =>
    simp only [notRejected, rejectedBusy, Bool.false_eq_true, if_false, Nat.zero_add]; exact special_stat hst _ _ _ h
  | servPkt code data =>
    simp only [notRejected, rejectedBusy, Bool.false_eq_true, if_false, Nat.zero_add]; exact special_stat hst _ _ _ h
  | appWrite a x => simp only [notRejected, rejectedBusy, Bool.false_eq_true, if_false, Nat.zero_add]; exact Post.ok h
  | apiDisconnect =>
    simp only [notRejected, rejectedBusy, Bool.false_eq_true, if_false, Nat.zero_add]; exact Post.ok (StatOk.apiDisconnect h)

theorem run_stat {cfg : Cfg} (hst : cfg.statistics = true) {n b : Nat} {s s' : St} {h : List (Env × Op)}
    (hs : StatOk n b s) (hr : run cfg s h = .ok s') :
    StatOk (occurrences notRejected cfg s h + n) (occurrences rejectedBusy cfg s h + b) s' := by
  induction h generalizing s n b with
  | nil => cases hr; simpa [occurrences] using hs
  | cons x rest ih =>
    obtain ⟨s1, h1, h2⟩ := run_cons_ok hr
    have := ih (step_stat hst x.1 x.2 hs s1 h1) h2
    simp only [occurrences, h1]
    have e1 : ∀ a b c : Nat, a + b + c = b + (a + c) := by omega
    rw [e1, e1 (if rejectedBusy s x.2 then 1 else 0)]
    exact this

/-- C56, what the counters count, in every history: frames sent, packets not rejected as
busy (whether or not the slave acts on them), and packets rejected as busy. -/
theorem C56_statistics_partial {cfg : Cfg} (hst : cfg.statistics = true) {mem : Mem} {h : List (Env × Op)} {s : St}
    (hr : run cfg (St.init cfg mem) h = .ok s) :
    s.stats.crosSend = s.tx.length % 2 ^ 32 ∧
    s.stats.crosBusy = occurrences rejectedBusy cfg (St.init cfg mem) h % 2 ^ 32 ∧
    s.stats.ctosReceived = occurrences notRejected cfg (St.init cfg mem) h % 2 ^ 32 := by
  have h0 : StatOk 0 0 (St.init cfg mem) := by simp [StatOk, StatI, St.init]
  have := run_stat hst h0 hr
  unfold StatOk StatI at this
  rw [this]
  simp

/-- Packets met while disconnected are CONNECT requests, along a history. -/
def Spec.OnlyConnectWhileDisconnected (cfg : Cfg) (s : St) (h : List (Env × Op)) : Prop :=
  occurrences (fun s op => notRejected s op && !accepted s op) cfg s h = 0

theorem occurrences_accepted {cfg : Cfg} {s : St} {h : List (Env × Op)} :
    occurrences notRejected cfg s h =
      occurrences accepted cfg s h + occurrences (fun s op => notRejected s op && !accepted s op) cfg s h := by
  induction h generalizing s with
  | nil => rfl
  | cons x rest ih =>
    have hi : accepted s x.2 = true → notRejected s x.2 = true := by
      cases x.2 <;> simp [accepted, notRejected]
      split <;> simp_all
    obtain ⟨env, op⟩ := x
    have hk : (if notRejected s op = true then 1 else 0) =
        (if accepted s op = true then 1 else 0) + (if (notRejected s op && !accepted s op) = true then 1 else 0) := by
      rcases Bool.eq_false_or_eq_true (accepted s op) with h1 | h1
      · have h2 : notRejected s op = true := hi h1
        simp [h1, h2]
      · simp [h1]
    simp only [occurrences, hk]
    cases hst : step cfg env s op with
    | error e => rfl
    | ok s1 => simp only [ih (s := s1)]; omega

/-- C56, the received counter, when no packet is ignored: it is the number of commands acted on
(`occurrences_accepted` gives the general sum).
-/
theorem C56_received {cfg : Cfg} (hst : cfg.statistics = true) {mem : Mem} {h : List (Env × Op)} {s : St}
    (hr : run cfg (St.init cfg mem) h = .ok s) (honly : OnlyConnectWhileDisconnected cfg (St.init cfg mem) h) :
    s.stats.ctosReceived = occurrences accepted cfg (St.init cfg mem) h % 2 ^ 32 := by
  rw [(C56_statistics_partial hst hr).2.2, occurrences_accepted, honly]
  simp

/-- C56 in full: every counter is what the property says. -/
def Spec.StatisticsExact (cfg : Cfg) : Prop :=
  ∀ (mem : Mem) (h : List (Env × Op)) (s : St), run cfg (St.init cfg mem) h = .ok s →
    s.stats.crosSend = s.tx.length % 2 ^ 32 ∧
    s.stats.crosBusy = occurrences rejectedBusy cfg (St.init cfg mem) h % 2 ^ 32 ∧
    s.stats.ctosReceived = occurrences accepted cfg (St.init cfg mem) h % 2 ^ 32

/-- C56 is false: a packet that a disconnected slave ignores counts as received. -/
theorem C56_fails_witness :
    ((run Ex.sim (St.init Ex.sim Ex.mem) [Ex.c [0xFD]]).toOption.map fun s =>
      (s.stats.ctosReceived, s.tx.length)) = some (1, 0) ∧
    occurrences accepted Ex.sim (St.init Ex.sim Ex.mem) [Ex.c [0xFD]] = 0 := by decide +kernel

theorem C56_fails : ¬ StatisticsExact Ex.sim := by
  intro h
  obtain ⟨h1, h2⟩ := C56_fails_witness
  cases hr : run Ex.sim (St.init Ex.sim Ex.mem) [Ex.c [0xFD]] with
  | error e => rw [hr] at h1; cases h1
  | ok s =>
    rw [hr] at h1
    have := (h _ _ _ hr).2.2
    rw [h2] at this
    simp [Except.toOption] at h1
    omega

/-- A session with a checksum running in the background: CONNECT, SET_MTA, BUILD_CHECKSUM of 200
bytes, a command while busy, main functions until the checksum is there. -/
example : ((run Ex.sim (St.init Ex.sim Ex.mem) [Ex.c [0xFF], Ex.c [0xF6, 0, 0, 0, 0, 1, 0, 0],
      Ex.c [0xF3, 0, 0, 0, 200, 0, 0, 0], Ex.c [0xFD], (Ex.env, .main), (Ex.env, .main), (Ex.env, .main),
      (Ex.env, .main), (Ex.env, .main), Ex.c [0xFD]]).toOption.map fun s => s.stats) = some ⟨4, 5, 1⟩ := by
  decide +kernel

end Xcp
