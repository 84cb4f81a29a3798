import Verif.Proofs.Table
import Verif.Proofs.Busy
import Verif.Spec.Transfer
/-
Memory, uploads and downloads.
-/
set_option autoImplicit false
namespace Xcp
open Spec

theorem read_eq (m : Mem) (a : UInt32) (n : Nat) : m.read a n = bytesAt m a n := rfl

theorem bytesAt_length (m : Mem) (a : UInt32) (n : Nat) : (bytesAt m a n).length = n := by
  simp [bytesAt]

theorem bytesAt_add (m : Mem) (a : UInt32) (n k : Nat) :
    bytesAt m a (n + k) = bytesAt m a n ++ bytesAt m (a + UInt32.ofNat n) k := by
  unfold bytesAt
  rw [List.range_add, List.map_append, List.map_map]
  congr 1
  apply List.map_congr_left
  intro i _
  simp [UInt32.ofNat_add, UInt32.add_assoc]

theorem sub_toNat_add {a : UInt32} {i : Nat} (hi : i < 2 ^ 32) : (a + UInt32.ofNat i - a).toNat = i := by
  have : a + UInt32.ofNat i - a = UInt32.ofNat i := by
    rw [UInt32.add_comm, UInt32.add_sub_cancel]
  rw [this]
  simp; omega

theorem addr_of_sub {a x : UInt32} : x = a + UInt32.ofNat (x - a).toNat := by
  have h : UInt32.ofNat (x - a).toNat = x - a := by simp
  rw [h, UInt32.add_comm, UInt32.sub_add_cancel]

theorem write_stored (m : Mem) (a : UInt32) {data : List UInt8} (hl : data.length ≤ 2 ^ 32) :
    StoredAt m (m.write a data) a data := by
  constructor
  · intro i b hb
    have hi := (List.getElem?_eq_some_iff.mp hb).1
    unfold Mem.write
    rw [sub_toNat_add (by omega)]
    simp [hb]
  · intro x hx
    unfold Mem.write
    have : ¬ (x - a).toNat < data.length := by
      intro h
      exact hx _ h addr_of_sub
    simp [List.getD, List.getElem?_eq_none (by omega : data.length ≤ (x - a).toNat)]

theorem StoredAt_bytes {m m' : Mem} {a : UInt32} {data : List UInt8} (h : StoredAt m m' a data) :
    bytesAt m' a data.length = data := by
  apply List.ext_getElem
  · simp [bytesAt]
  · intro i h1 h2
    simp only [bytesAt, List.getElem_map, List.getElem_range]
    exact h.stored i _ (List.getElem?_eq_getElem h2)

theorem write_append (m : Mem) (a : UInt32) {d1 d2 : List UInt8} (hl : d1.length + d2.length < 2 ^ 32) :
    (m.write a d1).write (a + UInt32.ofNat d1.length) d2 = m.write a (d1 ++ d2) := by
  funext x
  unfold Mem.write
  have key : ∀ n : Nat, n = (x - a).toNat →
      d2.getD (x - (a + UInt32.ofNat d1.length)).toNat (d1.getD n (m x)) = (d1 ++ d2).getD n (m x) := by
    intro n hn
    have hsub : (x - (a + UInt32.ofNat d1.length)).toNat = (n + 2 ^ 32 - d1.length) % 2 ^ 32 := by
      have : x - (a + UInt32.ofNat d1.length) = (x - a) - UInt32.ofNat d1.length := by
        apply UInt32.toBitVec_inj.mp
        simp only [UInt32.toBitVec_sub, UInt32.toBitVec_add]
        generalize (UInt32.ofNat d1.length).toBitVec = z
        bv_omega
      rw [this, UInt32.toNat_sub, ← hn]
      have : (UInt32.ofNat d1.length).toNat = d1.length := by simp; omega
      rw [this]
      congr 1
      have := (x - a).toNat_lt
      omega
    have hlt : n < 2 ^ 32 := by rw [hn]; exact (x - a).toNat_lt
    rw [hsub]
    by_cases h : n < d1.length
    · have : (n + 2 ^ 32 - d1.length) % 2 ^ 32 = n + 2 ^ 32 - d1.length := Nat.mod_eq_of_lt (by omega)
      rw [this]
      simp only [List.getD_eq_getElem?_getD, List.getElem?_append, h, if_true]
      rw [List.getElem?_eq_none (by omega : d2.length ≤ n + 2 ^ 32 - d1.length)]
      simp
    · have : (n + 2 ^ 32 - d1.length) % 2 ^ 32 = n - d1.length := by omega
      rw [this]
      simp only [List.getD_eq_getElem?_getD, List.getElem?_append, h, if_false]
      rw [List.getElem?_eq_none (by omega : d1.length ≤ n)]
      simp
  exact key _ rfl

theorem copyGuard_pos {cfg : Cfg} {n : Nat} (hn : n ≠ 0) (k : R) : copyGuard cfg n k = k := by
  unfold copyGuard
  have : (n == 0) = false := by simpa using hn
  simp [this]

theorem sendBytes_ok {cfg : Cfg} {s : St} {d : List UInt8} (h : d.length ≤ cfg.maxCto) :
    sendBytes cfg s d = .ok (sendRaw cfg s d) := by
  unfold sendBytes
  rw [if_neg (by omega)]

theorem checkMem_pass {cfg : Cfg} {env : Env} {s : St} {m : Mta} {n : Nat} {a : Access} {b : Bool} {k : R}
    (h : cfg.memCheck = true → env.memCheck m n a b = true) : checkMem cfg env s m n a b k = k := by
  unfold checkMem
  by_cases hm : cfg.memCheck
  · simp [h hm]
  · simp [hm]

theorem assertPgmIdle_pass {cfg : Cfg} {s : St} {k : R} (h : s.pgm ≠ .active) : assertPgmIdle cfg s k = k := by
  simp [assertPgmIdle, h]

theorem CarriesAll.append {cfg : Cfg} {fs gs : List Frame} {cs ds : List (List UInt8)}
    (h1 : CarriesAll cfg fs cs) (h2 : CarriesAll cfg gs ds) : CarriesAll cfg (fs ++ gs) (cs ++ ds) := by
  induction fs generalizing cs with
  | nil =>
    cases cs with
    | nil => exact h2
    | cons _ _ => exact h1.elim
  | cons f fs ih =>
    cases cs with
    | nil => exact h1.elim
    | cons c cs => exact ⟨h1.1, ih h1.2⟩

theorem CarriesAll_length {cfg : Cfg} {fs : List Frame} {cs : List (List UInt8)}
    (h : CarriesAll cfg fs cs) : fs.length = cs.length := by
  induction fs generalizing cs with
  | nil => cases cs with
    | nil => rfl
    | cons _ _ => exact h.elim
  | cons f fs ih => cases cs with
    | nil => exact h.elim
    | cons c cs => simp [ih h.2]

theorem sendRaw_ctoOut_length {cfg : Cfg} {s : St} {d : List UInt8} (h : d.length ≤ cfg.maxCto)
    (ho : s.ctoOut.length = cfg.maxCto) : (sendRaw cfg s d).ctoOut.length = cfg.maxCto :=
  overlay_length ho h

end Xcp
