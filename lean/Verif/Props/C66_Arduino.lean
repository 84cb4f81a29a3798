import Verif.Spec.Can
import Verif.Model.Example
import Verif.Proofs.Eth
import Verif.Proofs.Answer
/-
C66: the Arduino receiver hands every message to the slave, once and in order.

True if the main function is called between any two messages.  Otherwise messages are lost
(`C66_lost_fails`); a remote request is a fault, or repeats the last command (`C66_remote_fails`,
`C66_repeat_fails`).
-/
set_option autoImplicit false
namespace Xcp
open Spec

/-- Every message is followed by a call of the main function; more calls may come in between. -/
def Spec.Polled : List InoOp → Prop
  | [] => True
  | .main _ :: os => Polled os
  | .receive _ :: .main env :: os => Polled (.main env :: os)
  | .receive _ :: _ => False

/-- The messages, each with the environment of the call of the main function after it. -/
def Spec.polledMsgs : List InoOp → List (Env × CanMsg)
  | [] => []
  | .main _ :: os => polledMsgs os
  | .receive m :: .main env :: os => (env, m) :: polledMsgs (.main env :: os)
  | .receive _ :: os => polledMsgs os

theorem main_idle {cfg : Cfg} {x : Ino} (h : x.flag = false) (env : Env) : x.main cfg env = .ok x := by
  unfold Ino.main; rw [if_neg (by simp [h])]

/-- A call of the main function after a data message. -/
theorem receive_main {cfg : Cfg} {x : Ino} {m : CanMsg} (env : Env) (h : m.rtr = false ∧ m.data ≠ [] ∧ m.data.length < 256 ∧
      m.data.length ≤ x.ctoIn.length ∧ m.data.length ≤ x.buf.length) :
    (x.receive m >>= Ino.main cfg env) = (step cfg env x.s (.cmd ⟨x.ctoLen, m.data ++ x.ctoIn.drop m.data.length⟩) >>= fun s =>
      .ok { x with s, ctoIn := m.data ++ x.ctoIn.drop m.data.length, buf := storeAt x.buf 0 m.data, dlc := m.data.length, flag := false }) := by
  obtain ⟨h1, h2, h3, h4, h5⟩ := h
  unfold Ino.receive
  rw [if_neg (by simp [h1]), if_neg (by omega), ok_bind, Nat.mod_eq_of_lt h3]
  unfold Ino.main
  have hd : ¬ (m.data.length = 0) := by simpa using h2
  simp only [if_true]
  rw [if_neg (by simp [h2]), if_neg (by omega)]
  have e : storeAt x.ctoIn 0 ((storeAt x.buf 0 m.data).take m.data.length) = m.data ++ x.ctoIn.drop m.data.length := by
    simp [storeAt]
  rw [e]
  rfl

/-- C66, partial: if the main function is called after each message, the slave executes exactly the data
messages, in order.  Each packet consists of the data and the rest of what was in the buffer.  (No remote
requests, no empty messages, and no message longer than the buffers.) -/
theorem C66_polled_partial {cfg : Cfg} : ∀ (os : List InoOp) (x : Ino), x.flag = false → Polled os →
    (∀ m ∈ polledMsgs os, m.2.rtr = false ∧ m.2.data ≠ [] ∧ m.2.data.length < 256 ∧ m.2.data.length ≤ x.ctoIn.length ∧
      m.2.data.length ≤ x.buf.length) →
    ∃ old : List (List UInt8), old.length = (polledMsgs os).length ∧
      (Ino.run cfg x os).map Ino.s =
        run cfg x.s (List.zipWith (fun m r => (m.1, .cmd ⟨x.ctoLen, m.2.data ++ r⟩)) (polledMsgs os) old)
  | [], x, _, _, _ => ⟨[], rfl, rfl⟩
  | .main env :: os, x, hx, hpl, hm => by
    obtain ⟨old, h1, h2⟩ := C66_polled_partial os x hx hpl hm
    refine ⟨old, h1, ?_⟩
    rw [Ino.run, Ino.step, main_idle hx, ok_bind]
    exact h2
  | .receive m :: .main env :: os, x, hx, hpl, hm => by
    have hm0 : m.rtr = false ∧ m.data ≠ [] ∧ m.data.length < 256 ∧ m.data.length ≤ x.ctoIn.length ∧
        m.data.length ≤ x.buf.length := hm (env, m) List.mem_cons_self
    have e := receive_main (cfg := cfg) env hm0
    have hrun : Ino.run cfg x (.receive m :: .main env :: os) = ((x.receive m >>= Ino.main cfg env) >>= fun y => y.run cfg os) := by
      rw [Ino.run, Ino.step]
      cases x.receive m with
      | error f => rfl
      | ok y => rfl
    rw [hrun, e]
    cases hs : step cfg env x.s (.cmd ⟨x.ctoLen, m.data ++ x.ctoIn.drop m.data.length⟩) with
    | error f =>
      refine ⟨x.ctoIn.drop m.data.length :: List.replicate (polledMsgs os).length [], by simp [polledMsgs], ?_⟩
      simp only [polledMsgs, List.zipWith, run, hs, error_bind]
      rfl
    | ok s' =>
      have hl1 : (m.data ++ x.ctoIn.drop m.data.length).length = x.ctoIn.length := by simp; omega
      have hl2 : (storeAt x.buf 0 m.data).length = x.buf.length := storeAt_length (by omega)
      obtain ⟨old, h1, h2⟩ := C66_polled_partial os
        { x with s := s', ctoIn := m.data ++ x.ctoIn.drop m.data.length, buf := storeAt x.buf 0 m.data, dlc := m.data.length, flag := false }
        rfl hpl (by
          intro k hk
          simp only [hl1, hl2]
          exact hm k (List.mem_cons_of_mem _ hk))
      refine ⟨x.ctoIn.drop m.data.length :: old, by simp [polledMsgs, h1], ?_⟩
      simp only [polledMsgs, List.zipWith, run, hs, ok_bind]
      exact h2
  | [.receive m], _, _, hpl, _ => hpl.elim
  | .receive _ :: .receive _ :: _, _, _, hpl, _ => hpl.elim

/-- A message that arrives before the main function was called replaces the one before it. -/
theorem C66_lost_fails {cfg : Cfg} {x : Ino} {m m' : CanMsg} (h : m.rtr = false) (h' : m'.rtr = false)
    (hl : m.data.length ≤ m'.data.length) (hb : m'.data.length ≤ x.buf.length) (os : List InoOp) :
    x.run cfg (.receive m :: .receive m' :: os) = x.run cfg (.receive m' :: os) := by
  simp only [Ino.run, Ino.step, Ino.receive, h, h']
  have e : (storeAt x.buf 0 m.data).length = x.buf.length := storeAt_length (by omega)
  simp only [Bool.false_eq_true, if_false]
  rw [if_neg (by omega), if_neg (by omega)]
  simp only [ok_bind]
  rw [if_neg (by omega)]
  simp only [ok_bind]
  congr 2
  simp only [storeAt, List.take_zero, List.nil_append, Nat.zero_add, List.drop_append]
  rw [List.drop_of_length_le hl, List.drop_drop, List.nil_append]
  congr 2
  omega

/-- A remote request ends the program: `XcpUtl_MemCopy` is called with length 0. -/
theorem C66_remote_fails {cfg : Cfg} (ha : cfg.asserts = true) (env : Env) (x : Ino) {m : CanMsg} (h : m.rtr = true) :
    x.run cfg [.receive m, .main env] = .error .assertFail := by
  simp [Ino.run, Ino.step, Ino.receive, h, Ino.main, ha]

/-- Without assertions a remote request repeats the last command. -/
theorem C66_repeat_fails {cfg : Cfg} (ha : cfg.asserts = false) (env : Env) (x : Ino) {m : CanMsg} (h : m.rtr = true) :
    (x.run cfg [.receive m, .main env]).map Ino.s = step cfg env x.s (.cmd ⟨x.ctoLen, x.ctoIn⟩) := by
  simp only [Ino.run, Ino.step, Ino.receive, h, Ino.main, ha]
  simp [storeAt]
  cases step cfg env x.s (.cmd ⟨x.ctoLen, x.ctoIn⟩) <;> rfl

/-- How long a message may be: the command buffer has the size of the longest command.  A longer message, which a CAN FD
controller may deliver, is copied beyond its end; a shorter one is not. -/
theorem C66_long_fails {cfg : Cfg} (env : Env) (mem : Mem) {m : CanMsg} (h : m.rtr = false) (h0 : m.data ≠ []) (h64 : m.data.length ≤ 64) :
    ((Ino.init cfg mem).run cfg [.receive m, .main env] = .error .bufOob ↔
      cfg.maxCto + cfg.lenSize + cfg.ctrSize < m.data.length ∨
      ∃ b, step cfg env (St.init cfg mem) (.cmd ⟨0, m.data ++ List.replicate b 0⟩) = .error .bufOob ∧
        m.data.length + b = cfg.maxCto + cfg.lenSize + cfg.ctrSize) := by
  by_cases hl : cfg.maxCto + cfg.lenSize + cfg.ctrSize < m.data.length
  · refine ⟨fun _ => .inl hl, fun _ => ?_⟩
    simp only [Ino.run, Ino.step, Ino.receive, h, Bool.false_eq_true, if_false]
    rw [if_neg (by simp [Ino.init]; omega), ok_bind]
    unfold Ino.main
    have : ¬ m.data.length = 0 := by simpa using h0
    simp only [if_true, Nat.mod_eq_of_lt (show m.data.length < 256 by omega)]
    rw [if_neg (by simp [h0]), if_pos (by simpa [Ino.init] using hl)]
    rfl
  · have e : (Ino.init cfg mem).run cfg [.receive m, .main env] =
        ((Ino.init cfg mem).receive m >>= Ino.main cfg env) := by
      simp only [Ino.run, Ino.step]
      cases (Ino.init cfg mem).receive m with
      | error f => rfl
      | ok y =>
        simp only [ok_bind]
        cases y.main cfg env <;> rfl
    rw [e, receive_main env ⟨h, h0, by omega, by simp [Ino.init]; omega, by simpa [Ino.init] using h64⟩]
    have e2 : m.data ++ (Ino.init cfg mem).ctoIn.drop m.data.length =
        m.data ++ List.replicate (cfg.maxCto + cfg.lenSize + cfg.ctrSize - m.data.length) 0 := by simp [Ino.init]
    rw [e2]
    constructor
    · intro h1
      refine .inr ⟨cfg.maxCto + cfg.lenSize + cfg.ctrSize - m.data.length, ?_, by omega⟩
      have h2 : (step cfg env (St.init cfg mem) (.cmd ⟨0, m.data ++ List.replicate (cfg.maxCto + cfg.lenSize + cfg.ctrSize - m.data.length) 0⟩)
          >>= fun s => (.ok { Ino.init cfg mem with s, ctoIn := m.data ++ List.replicate (cfg.maxCto + cfg.lenSize + cfg.ctrSize - m.data.length) 0, buf := storeAt (Ino.init cfg mem).buf 0 m.data, dlc := m.data.length, flag := false } : Except Fault Ino)) =
          .error .bufOob := h1
      revert h2
      cases step cfg env (St.init cfg mem) (.cmd ⟨0, m.data ++ List.replicate (cfg.maxCto + cfg.lenSize + cfg.ctrSize - m.data.length) 0⟩) with
      | error f => intro h2; simpa [error_bind] using h2
      | ok s => intro h2; cases h2
    · rintro (h1 | ⟨b, h1, h2⟩)
      · exact absurd h1 hl
      · have hb : b = cfg.maxCto + cfg.lenSize + cfg.ctrSize - m.data.length := by omega
        subst hb
        show (step cfg env (St.init cfg mem) (.cmd ⟨0, _⟩) >>= _) = _
        rw [h1]
        rfl

example : ((Ino.init Ex.can Ex.mem).run Ex.can [.receive ⟨0x300, false, false, List.replicate 9 0xFF⟩, .main Ex.env]).toOption.isNone = true ∧
    ((Ino.init Ex.can Ex.mem).run Ex.can [.receive ⟨0x300, false, false, List.replicate 8 0xFF⟩, .main Ex.env]).toOption.isSome = true := by
  decide +kernel

/-- CONNECT and SYNCH, with the main function called after each: two answers.  Without the call in between: one
command is lost, and SYNCH alone is not answered. -/
example : ((Ino.init Ex.can Ex.mem).run Ex.can [.receive ⟨0x300, false, false, [0xFF, 0]⟩, .main Ex.env,
      .receive ⟨0x300, false, false, [0xFC]⟩, .main Ex.env]).toOption.map (fun x => x.s.tx.map Frame.bytes) =
      some [[0xFF, 0x15, 0xC0, 8, 8, 0, 1, 1], [0xFE, 0]] ∧
    ((Ino.init Ex.can Ex.mem).run Ex.can [.receive ⟨0x300, false, false, [0xFF, 0]⟩,
      .receive ⟨0x300, false, false, [0xFC]⟩, .main Ex.env]).toOption.map (fun x => x.s.tx.map Frame.bytes) = some [] := by
  refine ⟨?_, ?_⟩ <;> decide +kernel

end Xcp
