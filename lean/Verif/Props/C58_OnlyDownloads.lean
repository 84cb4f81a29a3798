import Verif.Proofs.Effects
import Verif.Model.Example
/-
C58: only download commands write memory.
-/
set_option autoImplicit false
namespace Xcp
open Spec

/-- The packet is a DOWNLOAD, DOWNLOAD_NEXT, DOWNLOAD_MAX, SHORT_DOWNLOAD or MODIFY_BITS. -/
def Spec.isDownload (p : Pdu) : Prop :=
  code p = some 0xF0 ∨ code p = some 0xEF ∨ code p = some 0xEE ∨ code p = some 0xED ∨ code p = some 0xEC

/-- Operations that are neither a download command nor a write by the application itself. -/
def Spec.noWrite : Op → Prop
  | .cmd p => ¬ isDownload p
  | .appWrite _ _ => False
  | _ => True

theorem not_writesMem {p : Pdu} {c : Cmd} (hp : ¬ isDownload p) (hc : code p = some (cmdCode c)) :
    writesMem c = false := by
  cases c <;> first | rfl | (exfalso; apply hp; unfold isDownload; rw [hc]; decide)

/-- C58, one operation. -/
theorem C58_step {cfg : Cfg} (env : Env) {s s' : St} {op : Op} (hop : noWrite op)
    (h : step cfg env s op = .ok s') : s'.mem = s.mem := by
  revert s'
  change Post _ (fun t : St => t.mem = s.mem)
  cases op with
  | cmd p =>
    apply Post.cmd
    · intro s' h1 _; exact h1.mem
    · intro _ s' _ h1 _; exact h1.mem
    · intro c hc
      refine (handler_mem env p c (not_writesMem hop hc.2.2.1)).mono ?_
      intro a ha
      simpa using ha
  | main => exact (main_eff env).mono (fun _ h => h.mem)
  | trigger ev =>
    unfold step
    apply Post.ite
    · intro _; exact (trigger_eff env _).mono (fun _ h => h.mem)
    · intro _; exact Post.ok rfl
  | eventPkt code data => exact special_eff.mono (fun _ h => h.same.mem)
  | servPkt code data => exact special_eff.mono (fun _ h => h.same.mem)
  | appWrite a b => exact hop.elim
  | apiDisconnect => exact Post.ok (by simp)

/-- C58: over any history without download commands and application writes, memory is
unchanged. -/
theorem C58_only_downloads {cfg : Cfg} {s s' : St} {h : List (Env × Op)} (hh : ∀ x ∈ h, noWrite x.2)
    (hr : run cfg s h = .ok s') : s'.mem = s.mem := by
  induction h generalizing s with
  | nil => cases hr; rfl
  | cons x rest ih =>
    obtain ⟨s1, h1, h2⟩ := run_cons_ok hr
    rw [ih (fun y hy => hh y (List.mem_cons_of_mem _ hy)) h2]
    exact C58_step x.1 (hh x List.mem_cons_self) h1

/-- A history with programming, upload, checksum, allocation and an event that satisfies the
hypothesis and runs through. -/
example : (∀ x ∈ [Ex.c [0xFF], Ex.c [0xF6, 0, 0, 0, 0, 0x10, 0, 0], Ex.c [0xF5, 4], Ex.c [0xF3, 0, 0, 0, 9, 0, 0, 0],
      Ex.c [0xD6], Ex.c [0xD5, 0, 2, 0], (Ex.env, .trigger 1), (Ex.env, .main), Ex.c [0xD2], Ex.c [0xD0, 2, 7, 7]],
      noWrite x.2) ∧
    Ex.obs Ex.sim [Ex.c [0xFF], Ex.c [0xF6, 0, 0, 0, 0, 0x10, 0, 0], Ex.c [0xF5, 4], Ex.c [0xF3, 0, 0, 0, 9, 0, 0, 0],
      Ex.c [0xD6], Ex.c [0xD5, 0, 2, 0], (Ex.env, .trigger 1), (Ex.env, .main), Ex.c [0xD2], Ex.c [0xD0, 2, 7, 7]]
      (fun s => s.tx.length) = some 8 := by
  constructor
  · intro x hx
    simp only [List.mem_cons, List.not_mem_nil, or_false] at hx
    rcases hx with h | h | h | h | h | h | h | h | h | h <;> subst h <;>
      simp [noWrite, isDownload, Ex.c, Ex.pkt, code]
  · decide +kernel

end Xcp
