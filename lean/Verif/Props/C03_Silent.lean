import Verif.Proofs.Answer
import Verif.Model.Example
/-
C03: before the first CONNECT the slave is silent and leaves memory alone.
-/
set_option autoImplicit false
namespace Xcp
open Spec

namespace Spec
/-- An operation that is neither a CONNECT packet nor an application request to send a
packet, and whose receive buffer is not empty. -/
def NoConnect : Op → Prop
  | .cmd p => ∃ b, code p = some b ∧ b ≠ 0xFF
  | .eventPkt .. | .servPkt .. => False
  | _ => True

/-- Memory after the application's own writes. -/
def appMem : Mem → List (Env × Op) → Mem
  | m, [] => m
  | m, (_, .appWrite a b) :: h => appMem (fun x => if x = a then b else m x) h
  | m, _ :: h => appMem m h
end Spec

/-- Nothing is in progress. -/
structure Asleep (s : St) : Prop where
  connected : s.connected = false
  up : s.slaveBlk.active = false
  ck : s.ck.state = .idle
  daq : s.daq.running = false
  tx : s.tx = []

theorem Asleep.apiDisconnect {cfg : Cfg} {s : St} (h : Asleep s) : Asleep (apiDisconnect cfg s) := by
  obtain ⟨h1, h2, h3, h4, h5⟩ := h
  unfold Xcp.apiDisconnect defaultResourceProtection
  repeat' split
  all_goals constructor <;> first | assumption | rfl

theorem write_one (m : Mem) (a : UInt32) (b : UInt8) :
    m.write a [b] = fun x => if x = a then b else m x := by
  funext x
  unfold Mem.write
  by_cases h : x = a
  · subst h; simp
  · have : (x - a).toNat ≠ 0 := by
      intro h0
      apply h
      have h1 : x - a = 0 := UInt32.toNat_inj.mp (by simpa using h0)
      have h2 : x - a + a = x := by simp
      rw [h1] at h2; simpa using h2.symm
    obtain ⟨n, hn⟩ := Nat.exists_eq_succ_of_ne_zero this
    simp [h, hn]

/-- C03. -/
theorem C03_silent_before_connect {cfg : Cfg} {mem : Mem} {h : List (Env × Op)}
    (hh : ∀ x ∈ h, NoConnect x.2) :
    ∃ s, run cfg (St.init cfg mem) h = .ok s ∧ s.tx = [] ∧ s.connected = false ∧
      s.mem = appMem mem h := by
  suffices H : ∀ s0 : St, Asleep s0 → ∃ s, run cfg s0 h = .ok s ∧ Asleep s ∧ s.mem = appMem s0.mem h by
    obtain ⟨s, h1, h2, h3⟩ := H (St.init cfg mem) (by constructor <;> rfl)
    exact ⟨s, h1, h2.tx, h2.connected, h3⟩
  induction h with
  | nil => intro s0 h0; exact ⟨s0, rfl, h0, rfl⟩
  | cons x rest ih =>
    intro s0 h0
    have ih := ih (fun y hy => hh y (List.mem_cons_of_mem _ hy))
    obtain ⟨env, op⟩ := x
    have hx := hh (env, op) List.mem_cons_self
    have key : ∃ s1, step cfg env s0 op = .ok s1 ∧ Asleep s1 ∧
        appMem s1.mem rest = appMem s0.mem ((env, op) :: rest) := by
      cases op with
      | cmd p =>
        obtain ⟨b, hb, hne⟩ := hx
        refine ⟨bumpReceived cfg s0, ?_, ?_, ?_⟩
        · simp [step, dispatch, byte_of_code hb, h0.connected, hne]
        · obtain ⟨h1, h2, h3, h4, h5⟩ := h0
          constructor <;> simp [*]
        · simp [appMem]
      | main =>
        refine ⟨s0, ?_, h0, rfl⟩
        simp [step, mainFunction, mainUpload, uploadSingleBlock, h0.up, mainChecksum, checksumMain, h0.ck]
      | trigger ev =>
        refine ⟨s0, ?_, h0, rfl⟩
        simp [step, triggerEvent, h0.daq]
      | eventPkt => exact hx.elim
      | servPkt => exact hx.elim
      | appWrite a b =>
        refine ⟨_, rfl, ?_, ?_⟩
        · obtain ⟨h1, h2, h3, h4, h5⟩ := h0
          constructor <;> assumption
        · simp [appMem, write_one]
      | apiDisconnect =>
        refine ⟨_, rfl, h0.apiDisconnect, ?_⟩
        simp only [appMem]
        congr 1
        unfold Xcp.apiDisconnect defaultResourceProtection
        repeat' split
        all_goals rfl
    obtain ⟨s1, hs1, ha, hm⟩ := key
    obtain ⟨s, h1, h2, h3⟩ := ih s1 ha
    refine ⟨s, ?_, h2, ?_⟩
    · rw [run, hs1]; exact h1
    · rw [h3, hm]

/-- A DOWNLOAD, an UPLOAD, a main-function call and an event without CONNECT. -/
example : Ex.frames Ex.sim [Ex.c [0xF0, 1, 7], Ex.c [0xF5, 1], (Ex.env, .main), (Ex.env, .trigger 0)] =
    some [] := by decide +kernel

/-- The same packets after CONNECT are answered. -/
example : (Ex.frames Ex.sim [Ex.c [0xFF], Ex.c [0xF6, 0, 0, 0, 0, 16], Ex.c [0xF0, 1, 7]]).map List.length
    = some 3 := by decide +kernel

end Xcp
