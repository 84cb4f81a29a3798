import Verif.Props.C12_Download
import Verif.Proofs.Refuse
/-
C17: locked calibration cannot be used.

False: no calibration command looks at the protection mask.  The refutation holds for every
configuration and state (`C17_fails_locked`), and the behaviour of every calibration command
is independent of the mask (`C17_mask_irrelevant`).
-/
set_option autoImplicit false
namespace Xcp
open Spec

/-- C17 fails: with the CAL/PAG resource protected, DOWNLOAD is answered positively and
stores its data. -/
theorem C17_fails_locked {cfg : Cfg} (hc : cfg.Ok) (hs : ShortOk cfg) (hcal : cfg.cal = true)
    (hbs : cfg.masterBlock = true → cfg.maxCto - 2 ≤ cfg.maxBs * (cfg.maxCto - 2) % 65536)
    (env : Env) {s : St} (_locked : Locked cfg s RES_CAL_PAG) (hr : Ready s) (hpg : s.pgm ≠ .active)
    {p : Pdu} {data : List UInt8} (hp : DownloadOk cfg env s.mta p data) :
    ∃ s', step cfg env s (.cmd p) = .ok s' ∧ Answers cfg s s' [0xFF] ∧
      StoredAt s.mem s'.mem (if cfg.mapper then env.mapAddr s.mta else s.mta.addr) data := by
  obtain ⟨s', h1, h2, h3, -⟩ := C12_download hc hs hcal hbs env hr hpg hp
  exact ⟨s', h1, h2, h3⟩

/-- The same states with another protection mask. -/
def withProt (m : UInt8) (r : R) : R := r.map (fun s => { s with resProt := m })

theorem withProt_bind {α : Type} (m : UInt8) (x : Except Fault α) (f : α → R) :
    withProt m (x >>= f) = x >>= fun a => withProt m (f a) := by cases x <;> rfl
theorem withProt_ite (m : UInt8) (c : Prop) [Decidable c] (a b : R) :
    withProt m (if c then a else b) = if c then withProt m a else withProt m b := by split <;> rfl
theorem withProt_ok (m : UInt8) (s : St) : withProt m (.ok s) = .ok { s with resProt := m } := rfl
theorem withProt_error (m : UInt8) (e : Fault) : withProt m (.error e) = .error e := rfl

theorem Except.bind_assoc {α β γ : Type} (x : Except Fault α) (f : α → Except Fault β) (g : β → Except Fault γ) :
    (x >>= f) >>= g = x >>= fun a => f a >>= g := by cases x <;> rfl
theorem ite_bind {α β : Type} (c : Prop) [Decidable c] (a b : Except Fault α) (f : α → Except Fault β) :
    (if c then a else b) >>= f = if c then a >>= f else b >>= f := by split <;> rfl

/-- Calibration commands do not depend on the protection mask at all. -/
theorem C17_mask_irrelevant {cfg : Cfg} (env : Env) (s : St) (p : Pdu) (m : UInt8) (c : Cmd) (hc : c.group = .cal) :
    handler cfg env { s with resProt := m } p c = withProt m (handler cfg env s p c) := by
  cases c <;> first | (simp [Cmd.group] at hc; done) | skip
  all_goals
    simp only [handler, downloadRes, downloadNextRes, downloadMaxRes, shortDownloadRes, modifyBitsRes,
      assertPgmIdle, checkMem, downloadCopy, copyIn, withProt_bind, withProt_ite, withProt_ok,
      withProt_error, Except.bind_assoc, ite_bind, ok_bind, error_bind, pure_eq_ok, sendResult_eq]
    rfl

/-- Unlocked and locked slaves answer alike: here DOWNLOAD writes although GET_STATUS has
just reported the CAL/PAG resource as protected (bit 0 of the third byte). -/
theorem C17_fails_witness :
    Ex.obs Ex.sec [Ex.c [0xFF], Ex.c [0xFD], Ex.c [0xF6, 0, 0, 0, 0, 0x10, 0, 0], Ex.c [0xF0, 1, 77]]
      (fun s => ((s.tx.map Frame.bytes).drop 1, s.mem 0x1000)) =
    some ([[6, 0, 1, 0, 0xFF, 0, 0x1D, 0, 0, 0], [1, 0, 2, 0, 0xFF], [1, 0, 3, 0, 0xFF]], 77) := by decide +kernel

end Xcp
