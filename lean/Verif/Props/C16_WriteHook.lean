import Verif.Props.C58_OnlyDownloads
import Verif.Proofs.Memory
/-
C16: memory the access hook refuses to write is never written.

True for all commands except DOWNLOAD_NEXT and DOWNLOAD_MAX, which do not ask the hook, and
MODIFY_BITS, which asks about two bytes and writes four (`C16_write_hook_partial`,
`C16_history_partial`).  The three exceptions are counterexamples (`C16_fails_*`).
-/
set_option autoImplicit false
namespace Xcp
open Spec

/-- `x` is one of the `n` addresses from `a` on. -/
def Spec.InRange (a : UInt32) (n : Nat) (x : UInt32) : Prop := ∃ i, i < n ∧ x = a + UInt32.ofNat i

/-- The hook permits to write a range that contains `x`. -/
def Spec.Writable (env : Env) (x : UInt32) : Prop :=
  ∃ (m : Mta) (n : Nat), env.memCheck m n .write false = true ∧ InRange m.addr n x

/-- The packet is a DOWNLOAD_NEXT, DOWNLOAD_MAX or MODIFY_BITS. -/
def Spec.uncheckedWrite (p : Pdu) : Prop := code p = some 0xEF ∨ code p = some 0xEE ∨ code p = some 0xEC

theorem write_changes {m : Mem} {a x : UInt32} {data : List UInt8} (h : m.write a data x ≠ m x) :
    InRange a data.length x := by
  refine ⟨(x - a).toNat, ?_, addr_of_sub⟩
  apply Nat.lt_of_not_le
  intro hle
  apply h
  simp [Mem.write, List.getD, List.getElem?_eq_none hle]

theorem slice_length {p : Pdu} {off n : Nat} {data : List UInt8} (h : p.slice off n = .ok data) : data.length = n := by
  unfold Pdu.slice at h
  split at h
  · cases h; simp; omega
  · cases h

theorem InRange.mono {a x : UInt32} {n k : Nat} (h : InRange a n x) (hk : n ≤ k) : InRange a k x := by
  obtain ⟨i, h1, h2⟩ := h
  exact ⟨i, by omega, h2⟩

/-- Every byte that differs between the memories may be written. -/
def WriteOk (env : Env) (m m' : Mem) : Prop := ∀ x, m' x ≠ m x → Writable env x

theorem WriteOk.refl (env : Env) (m : Mem) : WriteOk env m m := fun _ h => absurd rfl h

theorem WriteOk.write {cfg : Cfg} (hmc : cfg.memCheck = true) (hmap : cfg.mapper = false) {env : Env} {m : Mem}
    {p : Pdu} {off n k : Nat} {a : Mta} {data : List UInt8}
    (hm : cfg.memCheck = true → env.memCheck a k .write false = true) (hd : p.slice off n = .ok data) (hk : n ≤ k) :
    WriteOk env m (m.write (mapped cfg env a) data) := by
  intro x hx
  simp only [mapped, hmap] at hx
  exact ⟨_, _, hm hmc, InRange.mono (write_changes hx) (by rw [slice_length hd]; exact hk)⟩

theorem handler_write {cfg : Cfg} (hmc : cfg.memCheck = true) (hmap : cfg.mapper = false) (env : Env) {s : St}
    (p : Pdu) (c : Cmd) (hc : c ≠ .downloadNext) (hc1 : c ≠ .downloadMax) (hc2 : c ≠ .modifyBits) :
    Post (handler cfg env s p c) (fun s' => WriteOk env s.mem s'.mem) := by
  by_cases hw : writesMem c
  · cases c <;> first | (simp [writesMem] at hw; done) | contradiction | skip
    all_goals unfold_handlers
    all_goals post
    all_goals simp only [send8_mem]
    all_goals first
      | exact WriteOk.refl _ _
      | exact WriteOk.write hmc hmap (by assumption) (by assumption) (by omega)
  · refine (handler_mem env p c (by simpa using hw)).mono ?_
    intro s' h
    rw [h]
    exact WriteOk.refl _ _

/-- C16 for one operation that is not a DOWNLOAD_NEXT, DOWNLOAD_MAX, MODIFY_BITS or a write of
the application itself: every byte that changes lies in a range the hook permits. -/
theorem C16_write_hook_partial {cfg : Cfg} (hmc : cfg.memCheck = true) (hmap : cfg.mapper = false) (env : Env)
    {s s' : St} {op : Op} (hop : ∀ p, op = .cmd p → ¬ uncheckedWrite p) (happ : ∀ a b, op ≠ .appWrite a b)
    (h : step cfg env s op = .ok s') (x : UInt32) (hx : s'.mem x ≠ s.mem x) : Writable env x := by
  cases op with
  | cmd p =>
    have key : Post (step cfg env s (.cmd p)) (fun t => WriteOk env s.mem t.mem) := by
      apply Post.cmd
      · intro t h1 _; rw [h1.mem]; exact WriteOk.refl _ _
      · intro _ t _ h1 _; rw [h1.mem]; exact WriteOk.refl _ _
      · intro c hc
        have hu := hop p rfl
        have hcode := hc.2.2.1
        unfold uncheckedWrite at hu
        rw [hcode] at hu
        refine (handler_write hmc hmap env p c ?_ ?_ ?_).mono ?_
        · rintro rfl; exact hu (by decide)
        · rintro rfl; exact hu (by decide)
        · rintro rfl; exact hu (by decide)
        · intro t ht; simpa using ht
    exact key s' h x hx
  | appWrite a b => exact absurd rfl (happ a b)
  | main => exact absurd (congrFun (C58_step env (op := .main) trivial h) x) hx
  | trigger ev => exact absurd (congrFun (C58_step env (op := .trigger ev) trivial h) x) hx
  | eventPkt code data => exact absurd (congrFun (C58_step env (op := .eventPkt code data) trivial h) x) hx
  | servPkt code data => exact absurd (congrFun (C58_step env (op := .servPkt code data) trivial h) x) hx
  | apiDisconnect => exact absurd (congrFun (C58_step env (op := .apiDisconnect) trivial h) x) hx

/-- C16 over histories without the three commands: a byte the hook never permits to write
keeps its value. -/
theorem C16_history_partial {cfg : Cfg} (hmc : cfg.memCheck = true) (hmap : cfg.mapper = false)
    {h : List (Env × Op)} (hop : ∀ y ∈ h, ∀ p, y.2 = .cmd p → ¬ uncheckedWrite p)
    (happ : ∀ y ∈ h, ∀ a b, y.2 ≠ .appWrite a b) (x : UInt32) (hx : ∀ y ∈ h, ¬ Writable y.1 x)
    {s s' : St} (hr : run cfg s h = .ok s') : s'.mem x = s.mem x := by
  induction h generalizing s with
  | nil => cases hr; rfl
  | cons y rest ih =>
    obtain ⟨s1, h1, h2⟩ := run_cons_ok hr
    rw [ih (fun z hz => hop z (List.mem_cons_of_mem _ hz)) (fun z hz => happ z (List.mem_cons_of_mem _ hz))
      (fun z hz => hx z (List.mem_cons_of_mem _ hz)) h2]
    apply Decidable.byContradiction
    intro hne
    exact hx y List.mem_cons_self
      (C16_write_hook_partial hmc hmap y.1 (hop y List.mem_cons_self) (happ y List.mem_cons_self) h1 x hne)

/-- A hook that permits writing only ranges inside 0x1000..0x100F. -/
def guardEnv : Env :=
  { Ex.env with memCheck := fun m n _ _ => decide (0x1000 ≤ m.addr.toNat ∧ m.addr.toNat + n ≤ 0x1010) }

/-- The hook is obeyed by DOWNLOAD: in range it writes, out of range it is refused. -/
example : Ex.obs Ex.sec [Ex.c [0xFF], Ex.c [0xF6, 0, 0, 0, 0x0E, 0x10, 0, 0], (guardEnv, .cmd (Ex.pkt [0xF0, 2, 77, 78])),
      (guardEnv, .cmd (Ex.pkt [0xF0, 2, 79, 80]))]
      (fun s => (s.mem.read 0x100E 4, (s.tx.map Frame.bytes).drop 2)) =
    some ([77, 78, 0x10, 0x11], [[1, 0, 2, 0, 0xFF], [2, 0, 3, 0, 0xFE, 0x24]]) := by decide +kernel

theorem guard_not_writable : ¬ Writable guardEnv 0x1010 := by
  rintro ⟨m, n, h1, i, hi, h2⟩
  simp only [guardEnv, decide_eq_true_eq] at h1
  have := congrArg UInt32.toNat h2
  rw [UInt32.toNat_add] at this
  simp at this
  omega

/-- C16 fails for DOWNLOAD_MAX: it writes 63 bytes from the MTA 0x1010 on although the hook
refuses every range there. -/
theorem C16_fails_download_max :
    Ex.obs Ex.sec [(guardEnv, .cmd (Ex.pkt [0xFF])), (guardEnv, .cmd (Ex.pkt [0xF6, 0, 0, 0, 0x10, 0x10, 0, 0])),
      (guardEnv, .cmd (Ex.pkt [0xEE, 77]))]
      (fun s => s.mem 0x1010) = some 77 := by decide +kernel

/-- C16 fails for DOWNLOAD_NEXT: after a block download that the hook permits (here 80 bytes
at 0x2000 with a hook that permits exactly that), SET_MTA and DOWNLOAD_NEXT write anywhere. -/
theorem C16_fails_download_next :
    Ex.obs Ex.sec [Ex.c [0xFF], Ex.c [0xF6, 0, 0, 0, 0, 0x20, 0, 0],
      ({ Ex.env with memCheck := fun m n _ _ => decide (m.addr = 0x2000 ∧ n ≤ 80) }, .cmd (Ex.pkt [0xF0, 80])),
      (guardEnv, .cmd (Ex.pkt [0xF6, 0, 0, 0, 0x10, 0x10, 0, 0])),
      (guardEnv, .cmd (Ex.pkt [0xEF, 18, 77]))]
      (fun s => s.mem 0x1010) = some 77 := by decide +kernel

/-- C16 fails for MODIFY_BITS: at MTA 0x100E, where only two more bytes may be written, it
changes the byte at 0x1010. -/
theorem C16_fails_modify_bits :
    Ex.obs Ex.sec [(guardEnv, .cmd (Ex.pkt [0xFF])), (guardEnv, .cmd (Ex.pkt [0xF6, 0, 0, 0, 0x0E, 0x10, 0, 0])),
      (guardEnv, .cmd (Ex.pkt [0xEC, 8, 0, 0, 0, 0]))]
      (fun s => (s.mem.read 0x100E 4, (s.tx.map Frame.bytes).drop 2)) =
    some ([0x0E, 0, 0, 0x11], [[1, 0, 2, 0, 0xFF]]) := by decide +kernel

end Xcp
