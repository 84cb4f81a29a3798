import Verif.Spec.Daq
import Verif.Proofs.Params
import Verif.Proofs.Refuse
/-
The allocation commands and the configuration in the pool.
-/
set_option autoImplicit false
namespace Xcp
open Spec

/-- The code's effect of a request: list numbers and list counts are cut to 8 bits. -/
def applyReq (cfg : Cfg) (d : Daq) : AllocReq → Except Fault (Daq × UInt8)
  | .free => .ok (daqFree d, daqFreeResult d)
  | .daq n => .ok (allocDaq cfg d (n % 256))
  | .odt l n => allocOdt cfg d (l % 256) n
  | .entry l o n => allocOdtEntry cfg d (l % 256) o n

/-- The command of a request. -/
def reqCmd : AllocReq → Cmd
  | .free => .freeDaq
  | .daq _ => .allocDaq
  | .odt _ _ => .allocOdt
  | .entry _ _ _ => .allocOdtEntry

/-- The slave executes DAQ commands. -/
structure Spec.DaqReady (cfg : Cfg) (s : St) : Prop where
  ready : Ready s
  pgm : s.pgm ≠ .active
  unlocked : ¬ Locked cfg s RES_DAQ

theorem req_code {m : Bool} {p : Pdu} {r : AllocReq} (h : IsReq m p r) : code p = some (cmdCode (reqCmd r)) := by
  cases r <;> first | exact h | exact h.1

theorem Spec.DaqReady.notProtected {cfg : Cfg} {s : St} (h : DaqReady cfg s) : ¬ isProtected cfg s RES_DAQ = true := by
  have := h.unlocked
  simpa [Locked, isProtected] using this

theorem Spec.DaqReady.bump {cfg : Cfg} {s : St} (h : DaqReady cfg s) : DaqReady cfg (bumpReceived cfg s) :=
  ⟨h.ready.bump, by simpa using h.pgm, by simpa [Locked] using h.unlocked⟩

theorem u8n {n : Nat} (h : n < 256) : (UInt8.ofNat n).toNat = n := by
  simp; omega

/-- An allocation command is `applyReq` followed by the response. -/
theorem alloc_step {cfg : Cfg} (env : Env) {s : St} (hd : DaqReady cfg s) {p : Pdu} {r : AllocReq}
    (hsup : cfg.supports (reqCmd r) = true) (hp : IsReq cfg.motorola p r) :
    step cfg env s (.cmd p) = (applyReq cfg s.daq r).bind (fun x =>
      .ok (sendResult cfg { bumpReceived cfg s with daq := x.1 } x.2)) := by
  rw [hd.ready.stepc env _ (req_code hp) hsup]
  have hb := hd.bump
  have hdq : (bumpReceived cfg s).daq = s.daq := by simp
  generalize bumpReceived cfg s = b at *
  rw [← hdq]
  cases r with
  | free =>
    simp only [reqCmd, handler, freeDaqRes, assertUnlocked, assertPgmIdle, applyReq]
    rw [if_neg hb.notProtected, if_neg hb.pgm]
    rfl
  | daq n =>
    simp only [reqCmd, handler, allocDaqRes, assertUnlocked, assertPgmIdle, applyReq]
    rw [if_neg hb.pgm, if_neg hb.notProtected, hp.2.word]
    rfl
  | odt l n =>
    obtain ⟨-, h1, h2, h3⟩ := hp
    simp only [reqCmd, handler, allocOdtRes, assertUnlocked, assertPgmIdle, applyReq]
    rw [if_neg hb.pgm, if_neg hb.notProtected, h1.word]
    simp only [ok_bind, byte_eq h3, u8n h2]
    rfl
  | entry l o n =>
    obtain ⟨-, h1, h2, h3, h4, h5⟩ := hp
    simp only [reqCmd, handler, allocOdtEntryRes, assertUnlocked, assertPgmIdle, applyReq]
    rw [if_neg hb.pgm, if_neg hb.notProtected, h1.word]
    simp only [ok_bind, byte_eq h3, byte_eq h5, u8n h2, u8n h4]
    rfl

/-- The place in the prescribed order the slave is in. -/
def phase : AllocState → Nat
  | .idle => 0
  | .afterFree => 0
  | .afterAllocDaq => 1
  | .afterAllocOdt => 2
  | .afterAllocOdtEntry => 3

/-! ### Lists of numbers -/

theorem sum_set {l : List Nat} {i x y : Nat} (h : l[i]? = some x) : (l.set i y).sum + x = l.sum + y := by
  induction l generalizing i with
  | nil => simp at h
  | cons a l ih =>
    cases i with
    | zero => simp at h; subst h; simp; omega
    | succ i => simp at h; have := ih h; simp; omega

theorem modify_eq {α : Type} {l : List α} {i : Nat} {x : α} (f : α → α) (h : l[i]? = some x) : l.modify i f = l.set i (f x) := by
  induction l generalizing i with
  | nil => simp at h
  | cons a l ih =>
    cases i with
    | zero => simp at h; subst h; simp
    | succ i => simp at h; simp [ih h]

theorem sum_replicate (n x : Nat) : (List.replicate n x).sum = n * x := by
  induction n with
  | zero => simp
  | succ n ih => rw [List.replicate_succ, List.sum_cons, ih, Nat.succ_mul]; omega

theorem Conf.size_daq (c : Conf) (n : Nat) : Conf.size (c ++ List.replicate n []) = c.size + n := by
  simp [Conf.size]; omega

theorem Conf.odts_daq (c : Conf) (n : Nat) : Conf.odts (c ++ List.replicate n []) = c.odts := by
  simp [Conf.odts]

theorem map_get {α β : Type} {l : List α} {i : Nat} {x : α} (f : α → β) (h : l[i]? = some x) : (l.map f)[i]? = some (f x) := by
  rw [List.getElem?_map, h]; rfl

theorem Conf.size_odt {c : Conf} {l n : Nat} (h : c[l]? = some []) : Conf.size (c.set l (List.replicate n 0)) = c.size + n := by
  unfold Conf.size
  have := sum_set (y := n) (map_get (fun odts : List Nat => odts.length + odts.sum) h)
  simp only [List.map_set, List.length_set, List.length_replicate, sum_replicate] at *
  simp at this
  simp
  omega

theorem Conf.odts_odt {c : Conf} {l n : Nat} (h : c[l]? = some []) : Conf.odts (c.set l (List.replicate n 0)) = c.odts + n := by
  unfold Conf.odts
  have := sum_set (y := n) (map_get List.length h)
  simp only [List.map_set, List.length_replicate] at *
  simp at this
  omega

theorem Conf.size_entry {c : Conf} {l o n : Nat} {odts : List Nat} (h : c[l]? = some odts) (ho : odts[o]? = some 0) :
    Conf.size (c.modify l (fun x => x.set o n)) = c.size + n := by
  rw [modify_eq _ h]
  unfold Conf.size
  have h1 := sum_set (y := (odts.set o n).length + (odts.set o n).sum) (map_get (fun odts : List Nat => odts.length + odts.sum) h)
  have h2 := sum_set (y := n) ho
  simp only [List.map_set, List.length_set] at *
  omega

theorem Conf.odts_entry {c : Conf} {l o n : Nat} {odts : List Nat} (h : c[l]? = some odts) :
    Conf.odts (c.modify l (fun x => x.set o n)) = c.odts := by
  rw [modify_eq _ h]
  unfold Conf.odts
  have h1 := sum_set (y := (odts.set o n).length) (map_get List.length h)
  simp only [List.map_set, List.length_set] at *
  omega

/-! ### Elements of the pool -/

theorem Entity.num_setFirst (e : Entity) (n : Nat) : (e.setFirst n).num = e.num := by
  simp only [Entity.num, Entity.setFirst]; omega
theorem Entity.num_setNum (e : Entity) (n : Nat) : (e.setNum n).num = n % 256 := by
  simp only [Entity.num, Entity.setNum]; omega
theorem Entity.first_setFirst (e : Entity) (n : Nat) : (e.setFirst n).first = n % 65536 := by
  simp only [Entity.first, Entity.setFirst]; omega
theorem Entity.first_setNum (e : Entity) (n : Nat) : (e.setNum n).first = e.first := by
  simp only [Entity.first, Entity.setNum]; omega

end Xcp
