import Verif.Proofs.TxHandlers
import Verif.Proofs.Answer
import Verif.Proofs.Effects
import Verif.Proofs.Memory
import Verif.Model.Example
/-
C54: Event and service request packets carry the code and the (truncated) data.
-/
set_option autoImplicit false
namespace Xcp
open Spec

theorem special_answers {cfg : Cfg} (h2 : 2 ≤ cfg.maxCto) {s : St} (ho : s.ctoOut.length = cfg.maxCto)
    (ty code : UInt8) (data : List UInt8) :
    ∃ s', sendSpecial cfg s ty code data = .ok s' ∧
      Answers cfg s s' (ty :: code :: data.take (cfg.maxCto - 2)) ∧ SameCore s s' := by
  have ht : data.take (min (cfg.maxCto - 2) data.length) = data.take (cfg.maxCto - 2) := by
    apply List.ext_getElem?
    intro i
    simp only [List.getElem?_take]
    by_cases h : i < data.length
    · simp [Nat.lt_min, h]
    · simp [Nat.lt_min, h]
  have hl : (ty :: code :: data.take (cfg.maxCto - 2)).length ≤ cfg.maxCto := by
    simp only [List.length_cons, List.length_take]; omega
  refine ⟨sendRaw cfg s (ty :: code :: data.take (cfg.maxCto - 2)), ?_, sendRaw_answers hl ho rfl, sendRaw_same ..⟩
  unfold sendSpecial
  rw [ht, sendBytes_ok hl]

/-- C54, event packets: in every reachable state one packet is sent, with PID 0xFD, the
code and the data bytes that fit; nothing else in the slave changes. -/
theorem C54_event {cfg : Cfg} (hc : cfg.Ok) {mem : Mem} {h : List (Env × Op)} {s : St}
    (hr : run cfg (St.init cfg mem) h = .ok s) (env : Env) (code : UInt8) (data : List UInt8) :
    ∃ s', step cfg env s (.eventPkt code data) = .ok s' ∧
      Answers cfg s s' (0xFD :: code :: data.take (cfg.maxCto - 2)) ∧ SameCore s s' := by
  have := hc.cto_lo
  exact special_answers (by omega) ((run_tx hc hr).out_len) 0xFD code data

/-- C54, service request packets: the same with PID 0xFC. -/
theorem C54_service {cfg : Cfg} (hc : cfg.Ok) {mem : Mem} {h : List (Env × Op)} {s : St}
    (hr : run cfg (St.init cfg mem) h = .ok s) (env : Env) (code : UInt8) (data : List UInt8) :
    ∃ s', step cfg env s (.servPkt code data) = .ok s' ∧
      Answers cfg s s' (0xFC :: code :: data.take (cfg.maxCto - 2)) ∧ SameCore s s' := by
  have := hc.cto_lo
  exact special_answers (by omega) ((run_tx hc hr).out_len) 0xFC code data

/-- On CAN eight data bytes are cut to six; two fit with room to spare.  The slave need not be
connected. -/
example : Ex.frames Ex.can [(Ex.env, .eventPkt 7 [1, 2, 3, 4, 5, 6, 7, 8]), (Ex.env, .servPkt 1 [9, 10])] =
    some [[0xFD, 7, 1, 2, 3, 4, 5, 6], [0xFC, 1, 9, 10]] := by decide +kernel

end Xcp
