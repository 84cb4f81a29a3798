import Verif.Proofs.Answer
import Verif.Spec.Commands
/-
The jump table serves the standard's command codes.
-/
set_option autoImplicit false
namespace Xcp
open Spec

theorem table_code (c : Cmd) : cmdTable[0xFF - (cmdCode c).toNat]? = some c := by cases c <;> rfl

/-- Codes from 0xC7 up are in the table, the others are not. -/
theorem table_hi {b : UInt8} (h : 0xC7 ≤ b.toNat) : ∃ c, cmdTable[0xFF - b.toNat]? = some c ∧ b = cmdCode c := by
  revert h
  revert b
  apply forall_u8
  intro n hn
  have : ∀ n : Fin 256, 0xC7 ≤ (UInt8.ofFin n).toNat →
      ∃ c, cmdTable[0xFF - (UInt8.ofFin n).toNat]? = some c ∧ (UInt8.ofFin n) = cmdCode c := by
    intro n hn
    cases hc : cmdTable[0xFF - (UInt8.ofFin n).toNat]? with
    | none =>
      have := List.getElem?_eq_none_iff.mp hc
      simp [cmdTable] at this hn; omega
    | some c =>
      refine ⟨c, rfl, ?_⟩
      have hall : ∀ n : Fin 256, ∀ c, cmdTable[0xFF - (UInt8.ofFin n).toNat]? = some c →
          (UInt8.ofFin n) = cmdCode c := by
        have hd : ∀ n : Fin 256, (match cmdTable[0xFF - (UInt8.ofFin n).toNat]? with
          | some c => decide ((UInt8.ofFin n) = cmdCode c) | none => true) = true := by decide +kernel
        intro n c h
        have := hd n
        rw [h] at this
        simpa using this
      exact hall n c hc
  exact this n hn

theorem table_lo {b : UInt8} (h : b.toNat < 0xC7) : cmdTable[0xFF - b.toNat]? = none := by
  apply List.getElem?_eq_none_iff.mpr
  show 57 ≤ _
  omega

/-- `Ready.step` with the standard's code. -/
theorem Spec.Ready.stepc {cfg : Cfg} (env : Env) {s : St} (h : Ready s) {p : Pdu} (c : Cmd)
    (hp : code p = some (cmdCode c)) (hs : cfg.supports c = true) :
    Xcp.step cfg env s (.cmd p) = handler cfg env (bumpReceived cfg s) p c :=
  h.step env hp (table_code c) hs

end Xcp
