import Verif.Proofs.Params
import Verif.Proofs.DaqOps
/-
Proof tools: computations that do not fault.
-/
set_option autoImplicit false
namespace Xcp
open Spec

/-- The computation has a result. -/
def Fine {α : Type} (r : Except Fault α) : Prop := ∃ a, r = .ok a

namespace Fine
variable {α β : Type}

theorem ok {a : α} : Fine (.ok a) := ⟨a, rfl⟩
theorem pure {a : α} : Fine (Pure.pure a) := ⟨a, rfl⟩
theorem bind {x : Except Fault β} {f : β → Except Fault α} (hx : Fine x) (hf : ∀ b, x = .ok b → Fine (f b)) :
    Fine (x >>= f) := by
  obtain ⟨b, rfl⟩ := hx
  exact hf b rfl
theorem ite {c : Prop} [Decidable c] {t e : Except Fault α} (ht : c → Fine t) (he : ¬ c → Fine e) :
    Fine (if c then t else e) := by
  split
  · exact ht ‹_›
  · exact he ‹_›

variable {cfg : Cfg} {env : Env} {s : St} {k : R}

theorem assertPgmIdle (h : Fine k) : Fine (assertPgmIdle cfg s k) := ite (fun _ => ok) (fun _ => h)
theorem assertPgmActive (h : Fine k) : Fine (assertPgmActive cfg s k) := ite (fun _ => ok) (fun _ => h)
theorem assertDaqStopped (h : Fine k) : Fine (assertDaqStopped cfg s k) := ite (fun _ => ok) (fun _ => h)
theorem assertUnlocked {r : UInt8} (h : Fine k) : Fine (assertUnlocked cfg s r k) := ite (fun _ => ok) (fun _ => h)
theorem checkMem {m : Mta} {n : Nat} {a : Access} {b : Bool} (h : Fine k) : Fine (checkMem cfg env s m n a b k) :=
  ite (fun _ => ok) (fun _ => h)
theorem copyGuard {n : Nat} (hn : ¬ (cfg.asserts = true ∧ n = 0)) (h : Fine k) : Fine (copyGuard cfg n k) := by
  refine ite (fun hx => ?_) (fun _ => h)
  simp at hx
  exact absurd hx hn
theorem sendBytes {data : List UInt8} (h : data.length ≤ cfg.maxCto) : Fine (sendBytes cfg s data) :=
  ite (fun hx => by omega) (fun _ => ok)
theorem copyIn {m : Mta} {data : List UInt8} (h : ¬ (cfg.asserts = true ∧ (mapped cfg env m = 0 ∨ data.length = 0))) :
    Fine (copyIn cfg env s m data) := by
  refine ite (fun hx => ?_) (fun _ => ok)
  simp only [Bool.and_eq_true, Bool.or_eq_true, beq_iff_eq] at hx
  exact absurd hx h
theorem slice {p : Pdu} {off n : Nat} (h : off + n ≤ p.buf.length) : Fine (p.slice off n) :=
  ite (fun _ => ok) (fun hx => absurd h hx)
theorem slice_length {p : Pdu} {off n : Nat} {d : List UInt8} (h : p.slice off n = .ok d) : d.length = n := by
  unfold Pdu.slice at h
  split at h
  · cases h; simp; omega
  · cases h
theorem downloadCopy {p : Pdu} {off n : Nat} (hl : off + n ≤ p.buf.length)
    (h : ¬ (cfg.asserts = true ∧ (mapped cfg env s.mta = 0 ∨ n = 0))) : Fine (downloadCopy cfg env s p off n) := by
  unfold Xcp.downloadCopy
  refine bind (slice hl) fun d hd => ?_
  refine bind (copyIn ?_) fun _ _ => pure
  rwa [slice_length hd]
theorem byte {p : Pdu} {i : Nat} (h : i < p.buf.length) : Fine (p.byte i) := by
  unfold Pdu.byte
  rw [List.getElem?_eq_getElem h]
  exact ok
theorem word {m : Bool} {p : Pdu} {i : Nat} (h : i + 1 < p.buf.length) : Fine (p.word m i) :=
  bind (byte (by omega)) fun _ _ => bind (byte h) fun _ _ => pure

theorem uploadFrame {n : Nat} (hn : ¬ (cfg.asserts = true ∧ n = 0)) (hc : n + 1 ≤ cfg.maxCto) :
    Fine (uploadFrame cfg env s n) := by
  unfold Xcp.uploadFrame
  refine copyGuard hn (bind (sendBytes ?_) fun _ _ => ite (fun _ => pure) (fun _ => pure))
  simpa [Mem.read] using hc

theorem uploadSingleBlock (hc : 2 ≤ cfg.maxCto)
    (hn : ¬ (cfg.asserts = true ∧ s.slaveBlk.active = true ∧ s.slaveBlk.remaining = 0)) :
    Fine (uploadSingleBlock cfg env s) := by
  unfold Xcp.uploadSingleBlock
  refine ite (fun _ => ok) fun ha => ite (fun hr => ?_) fun _ => ?_
  · refine uploadFrame (fun h => hn ⟨h.1, by simpa using ha, h.2⟩) (by omega)
  · exact uploadFrame (fun h => by omega) (by omega)

theorem upload {n : Nat} (hc : 2 ≤ cfg.maxCto) (hn : ¬ (cfg.asserts = true ∧ n = 0))
    (h : cfg.slaveBlock = false → n + 1 ≤ cfg.maxCto) : Fine (upload cfg env s n) := by
  unfold Xcp.upload
  refine ite (fun _ => uploadSingleBlock hc fun hx => hn ⟨hx.1, hx.2.2⟩) fun hb => ?_
  refine copyGuard hn (sendBytes ?_)
  simpa [Mem.read] using h (by simpa using hb)

theorem ent {d : Daq} {i : Nat} (h : i < cfg.maxEnt) : Fine (d.ent cfg i) := ite (fun _ => ok) (fun hx => absurd h hx)

theorem foldlM {f : β → α → Except Fault β} (I : β → Prop) (l : List α)
    (hf : ∀ b a, a ∈ l → I b → ∃ b', f b a = .ok b' ∧ I b') {b : β} (hb : I b) : Fine (l.foldlM f b) := by
  induction l generalizing b with
  | nil => exact ok
  | cons a l ih =>
    rw [foldlM_cons]
    obtain ⟨b', h1, h2⟩ := hf b a List.mem_cons_self hb
    rw [h1]
    exact ih (fun b a ha => hf b a (List.mem_cons_of_mem _ ha)) h2

theorem foldlM_idx {f : β → Nat → Except Fault β} (I : Nat → β → Prop) (n : Nat)
    (hf : ∀ b i, i < n → I i b → ∃ b', f b i = .ok b' ∧ I (i + 1) b') {b : β} (hb : I 0 b) :
    ∃ b', (List.range n).foldlM f b = .ok b' ∧ I n b' := by
  induction n with
  | zero => exact ⟨b, rfl, hb⟩
  | succ n ih =>
    obtain ⟨b', h1, h2⟩ := ih fun b i hi => hf b i (by omega)
    obtain ⟨b'', h3, h4⟩ := hf b' n (by omega) h2
    refine ⟨b'', ?_, h4⟩
    rw [List.range_succ, List.foldlM_append, h1]
    simp [h3]

theorem getFirstPid {d : Daq} {list : Nat} (h : d.listCount ≤ cfg.maxEnt) : Fine (getFirstPid cfg d list) := by
  refine ite (fun _ => ok) fun hl => bind (foldlM (fun _ => True) _ (fun b i hi _ => ?_) trivial) fun _ _ => pure
  have hi : i < list := by simpa using hi
  obtain ⟨e, he⟩ := ent (cfg := cfg) (d := d) (i := i) (by omega)
  rw [he]
  exact ⟨_, rfl, trivial⟩

end Fine

theorem take_four {l : List UInt8} {i : Nat} (h : i + 3 < l.length) :
    (l.drop i).take 4 = [l[i], l[i + 1], l[i + 2], l[i + 3]] := by
  apply List.ext_getElem?
  intro j
  rw [List.getElem?_take, List.getElem?_drop]
  match j with
  | 0 => simp
  | 1 => simp
  | 2 => simp
  | 3 => simp
  | j + 4 => simp; omega

/-- Any four bytes are some number. -/
theorem param_four {m : Bool} {p : Pdu} {i : Nat} (h : i + 3 < p.buf.length) : ∃ v, Param m p i 4 v := by
  have ha := (p.buf[i]).toNat_lt
  have hb := (p.buf[i + 1]).toNat_lt
  have hc := (p.buf[i + 2]).toNat_lt
  have hd := (p.buf[i + 3]).toNat_lt
  unfold Param
  rw [take_four h]
  generalize p.buf[i] = a at *
  generalize p.buf[i + 1] = b at *
  generalize p.buf[i + 2] = c at *
  generalize p.buf[i + 3] = d at *
  cases m
  · refine ⟨a.toNat + b.toNat * 256 + c.toNat * 65536 + d.toNat * 16777216, by omega, ?_⟩
    rw [enc_four]
    simp only [Bool.false_eq_true, if_false, List.cons.injEq, and_true, ← UInt8.toNat_inj, UInt8.toNat_ofNat']
    omega
  · refine ⟨d.toNat + c.toNat * 256 + b.toNat * 65536 + a.toNat * 16777216, by omega, ?_⟩
    rw [enc_four]
    simp only [if_true, List.cons.injEq, and_true, ← UInt8.toNat_inj, UInt8.toNat_ofNat']
    omega

theorem word_bounds {m : Bool} {p : Pdu} {i n : Nat} (h : p.word m i = .ok n) : i + 1 < p.buf.length := by
  unfold Pdu.word at h
  cases ha : p.byte i with
  | error e => rw [ha] at h; cases h
  | ok a =>
    cases hb : p.byte (i + 1) with
    | error e => rw [ha, hb] at h; cases h
    | ok b =>
      have := byte_ok hb
      exact (List.getElem?_eq_some_iff.mp this).1

/-- The number the slave reads is the one the packet contains. -/
theorem param_of_dword {m w : Bool} {p : Pdu} {i : Nat} {a : UInt32} (h : p.dword m w i = .ok a) :
    ∃ v, Param m p i 4 v ∧ a = UInt32.ofNat v := by
  have hl : i + 3 < p.buf.length := by
    unfold Pdu.dword at h
    cases h1 : p.word m i with
    | error e => rw [h1] at h; cases h
    | ok x =>
      cases h2 : p.word m (i + 2) with
      | error e => rw [h1, h2] at h; cases h
      | ok y => exact word_bounds h2
  obtain ⟨v, hv⟩ := param_four (m := m) hl
  refine ⟨v, hv, ?_⟩
  by_cases hw : w = true ∨ v < 2 ^ 31
  · rw [hv.dword hw] at h
    cases h; rfl
  · simp only [not_or] at hw
    have hwf : w = false := by simpa using hw.1
    subst hwf
    rw [hv.dword_overflow (by omega)] at h
    cases h

end Xcp
