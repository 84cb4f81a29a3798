import Verif.Proofs.Tx
import Verif.Spec.Session
import Verif.Proofs.Bits
/-
Sending functions in terms of `Spec.Answers`.
-/
set_option autoImplicit false
namespace Xcp
open Spec

@[simp] theorem ok_bind {α β : Type} (a : α) (f : α → Except Fault β) : (Except.ok a >>= f) = f a := rfl
@[simp] theorem error_bind {α β : Type} (e : Fault) (f : α → Except Fault β) :
    ((Except.error e : Except Fault α) >>= f) = .error e := rfl
@[simp] theorem pure_eq_ok {α : Type} (a : α) : (pure a : Except Fault α) = .ok a := rfl

theorem leBytes_zero (v : Nat) : leBytes 0 v = [] := rfl
theorem leBytes_two (v : Nat) : leBytes 2 v = [UInt8.ofNat v, UInt8.ofNat (v / 256)] := by
  simp [leBytes_succ, leBytes_zero]
theorem leBytes_four (v : Nat) : leBytes 4 v =
    [UInt8.ofNat v, UInt8.ofNat (v / 256), UInt8.ofNat (v / 65536), UInt8.ofNat (v / 16777216)] := by
  simp [leBytes_succ, leBytes_zero, Nat.div_div_eq_div_mul]

theorem payload_emit (cfg : Cfg) (k : Kind) (n c : Nat) (bs : List UInt8) :
    payload cfg ⟨k, header cfg n c ++ bs⟩ = bs := by
  have : (header cfg n c).length = cfg.lenSize + cfg.ctrSize := by
    simp [header, leBytes_length]
  simp [payload, ← this]

theorem emit_tx (cfg : Cfg) (s : St) (k : Kind) (bs : List UInt8) :
    (emit cfg s k bs).tx = s.tx ++ [⟨k, header cfg bs.length s.counter ++ bs⟩] := rfl

theorem send8_answers {cfg : Cfg} (hs : ShortOk cfg) {s s0 : St} {bs : List UInt8}
    (h8 : bs.length ≤ 8) (h0 : s.tx = s0.tx) : Answers cfg s0 (send8 cfg s bs) bs := by
  unfold send8
  refine ⟨_, by rw [emit_tx, ← h0], rfl, ?_⟩
  rw [payload_emit]
  rcases hs with hs | hs
  · simp [hs, h8, overlay]
  · by_cases hd : cfg.maxDlc
    · simp [hd, hs, overlay, List.take_append, h8]
      rw [List.take_of_length_le h8, List.take_of_length_le h8]
    · simp [hd, h8, overlay]

theorem sendRaw_answers {cfg : Cfg} {s s0 : St} {bs : List UInt8} (hl : bs.length ≤ cfg.maxCto)
    (ho : s.ctoOut.length = cfg.maxCto) (h0 : s.tx = s0.tx) :
    Answers cfg s0 (sendRaw cfg s bs) bs := by
  unfold sendRaw
  refine ⟨_, by rw [emit_tx, ← h0], rfl, ?_⟩
  rw [payload_emit]
  by_cases hd : cfg.maxDlc
  · simp [hd, overlay, List.take_append, hl, ho]
    exact List.take_of_length_le hl
  · simp [hd, overlay]

theorem send8_tx_ne (cfg : Cfg) (s : St) (bs : List UInt8) :
    OnePacket s (send8 cfg s bs) := ⟨_, rfl, rfl⟩

theorem sendRaw_tx_ne (cfg : Cfg) (s : St) (bs : List UInt8) :
    OnePacket s (sendRaw cfg s bs) := ⟨_, rfl, rfl⟩

theorem Spec.SameCore.refl (s : St) : SameCore s s := by constructor <;> rfl
theorem Spec.SameCore.trans {a b c : St} (h : SameCore a b) (h' : SameCore b c) : SameCore a c := by
  obtain ⟨h1, h2, h3, h4, h5, h6, h7, h8, h9, h10, h11⟩ := h
  obtain ⟨g1, g2, g3, g4, g5, g6, g7, g8, g9, g10, g11⟩ := h'
  constructor <;> simp_all

theorem send8_same (cfg : Cfg) (s : St) (bs : List UInt8) : SameCore s (send8 cfg s bs) := by
  constructor <;> rfl
theorem sendRaw_same (cfg : Cfg) (s : St) (bs : List UInt8) : SameCore s (sendRaw cfg s bs) := by
  constructor <;> rfl

theorem bumpReceived_same (cfg : Cfg) (s : St) : SameCore s (bumpReceived cfg s) := by
  unfold bumpReceived; split <;> constructor <;> rfl
@[simp] theorem bumpReceived_tx (cfg : Cfg) (s : St) : (bumpReceived cfg s).tx = s.tx := by
  unfold bumpReceived; split <;> rfl
@[simp] theorem bumpReceived_ctoOut (cfg : Cfg) (s : St) : (bumpReceived cfg s).ctoOut = s.ctoOut := by
  unfold bumpReceived; split <;> rfl
@[simp] theorem bumpReceived_connected (cfg : Cfg) (s : St) : (bumpReceived cfg s).connected = s.connected := (bumpReceived_same cfg s).connected
@[simp] theorem bumpReceived_busy (cfg : Cfg) (s : St) : (bumpReceived cfg s).busy = s.busy := (bumpReceived_same cfg s).busy
@[simp] theorem bumpReceived_daq (cfg : Cfg) (s : St) : (bumpReceived cfg s).daq = s.daq := (bumpReceived_same cfg s).daq
@[simp] theorem bumpReceived_pgm (cfg : Cfg) (s : St) : (bumpReceived cfg s).pgm = s.pgm := (bumpReceived_same cfg s).pgm
@[simp] theorem bumpReceived_resProt (cfg : Cfg) (s : St) : (bumpReceived cfg s).resProt = s.resProt := (bumpReceived_same cfg s).resProt
@[simp] theorem bumpReceived_seedReq (cfg : Cfg) (s : St) : (bumpReceived cfg s).seedReq = s.seedReq := (bumpReceived_same cfg s).seedReq
@[simp] theorem bumpReceived_mta (cfg : Cfg) (s : St) : (bumpReceived cfg s).mta = s.mta := (bumpReceived_same cfg s).mta
@[simp] theorem bumpReceived_slaveBlk (cfg : Cfg) (s : St) : (bumpReceived cfg s).slaveBlk = s.slaveBlk := (bumpReceived_same cfg s).slaveBlk
@[simp] theorem bumpReceived_masterBlk (cfg : Cfg) (s : St) : (bumpReceived cfg s).masterBlk = s.masterBlk := (bumpReceived_same cfg s).masterBlk
@[simp] theorem bumpReceived_ck (cfg : Cfg) (s : St) : (bumpReceived cfg s).ck = s.ck := (bumpReceived_same cfg s).ck
@[simp] theorem bumpReceived_mem (cfg : Cfg) (s : St) : (bumpReceived cfg s).mem = s.mem := (bumpReceived_same cfg s).mem

theorem busyState_same (cfg : Cfg) (s : St) : SameCore s (busyResponse cfg s) := by
  unfold busyResponse; split <;> constructor <;> rfl

theorem byte_of_code {p : Pdu} {b : UInt8} (h : code p = some b) : p.byte 0 = .ok b := by
  unfold code at h; simp [Pdu.byte, h]

/-- A command of a connected, idle slave goes to its table entry. -/
theorem step_cmd {cfg : Cfg} (env : Env) {s : St} {p : Pdu} {b : UInt8} {c : Cmd}
    (hc : s.connected = true) (hb : s.busy = false) (hp : code p = some b)
    (ht : cmdTable[0xFF - b.toNat]? = some c) :
    step cfg env s (.cmd p) = tableEntry cfg env (bumpReceived cfg s) p c := by
  simp [step, dispatch, byte_of_code hp, hc, hb, ht]

/-- A supported command of a connected, idle slave goes to its handler. -/
theorem step_handler {cfg : Cfg} (env : Env) {s : St} {p : Pdu} {b : UInt8} {c : Cmd}
    (hc : s.connected = true) (hb : s.busy = false) (hp : code p = some b)
    (ht : cmdTable[0xFF - b.toNat]? = some c) (hs : cfg.supports c = true) :
    step cfg env s (.cmd p) = handler cfg env (bumpReceived cfg s) p c := by
  rw [step_cmd env hc hb hp ht, tableEntry, if_pos hs]

theorem byte_eq {p : Pdu} {i : Nat} {b : UInt8} (h : p.buf[i]? = some b) : p.byte i = .ok b := by
  simp [Pdu.byte, h]

theorem Spec.Ready.bump {cfg : Cfg} {s : St} (h : Ready s) : Ready (bumpReceived cfg s) :=
  ⟨by simpa using h.conn, by simpa using h.idle⟩

/-- `step_handler` for a ready slave. -/
theorem Spec.Ready.step {cfg : Cfg} (env : Env) {s : St} (h : Ready s) {p : Pdu} {b : UInt8} {c : Cmd}
    (hp : code p = some b) (ht : cmdTable[0xFF - b.toNat]? = some c) (hs : cfg.supports c = true) :
    step cfg env s (.cmd p) = handler cfg env (bumpReceived cfg s) p c :=
  step_handler env h.conn h.idle hp ht hs

theorem run_append {cfg : Cfg} {s : St} {h1 h2 : List (Env × Op)} :
    run cfg s (h1 ++ h2) = (run cfg s h1 >>= fun s1 => run cfg s1 h2) := by
  induction h1 generalizing s with
  | nil => rfl
  | cons x rest ih =>
    obtain ⟨env, op⟩ := x
    simp only [List.cons_append, run]
    cases step cfg env s op with
    | error e => rfl
    | ok s1 => exact ih

theorem run_append_ok {cfg : Cfg} {s s' : St} {h1 h2 : List (Env × Op)}
    (h : run cfg s (h1 ++ h2) = .ok s') : ∃ s1, run cfg s h1 = .ok s1 ∧ run cfg s1 h2 = .ok s' := by
  rw [run_append] at h
  cases h1 : run cfg s h1 with
  | error e => rw [h1] at h; cases h
  | ok s1 => rw [h1] at h; exact ⟨s1, rfl, h⟩

theorem run_cons_ok {cfg : Cfg} {s s' : St} {x : Env × Op} {h : List (Env × Op)}
    (hr : run cfg s (x :: h) = .ok s') :
    ∃ s1, step cfg x.1 s x.2 = .ok s1 ∧ run cfg s1 h = .ok s' := by
  obtain ⟨env, op⟩ := x
  simp only [run] at hr
  cases h1 : step cfg env s op with
  | error e => rw [h1] at hr; cases hr
  | ok s1 => rw [h1] at hr; exact ⟨s1, rfl, hr⟩

end Xcp
