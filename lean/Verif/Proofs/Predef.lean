import Verif.Model.Predef
import Verif.Proofs.Alloc
import Verif.Proofs.Queue
import Verif.Proofs.Effects
/-
The slave with predefined lists: vocabulary and basic facts.
-/
set_option autoImplicit false
namespace Xcp
open Spec

/-- The tables are consistent: there are lists, fewer than 256; every list has its ODTs and every ODT its
entries inside the tables, and the tables have at most 256 elements. -/
structure Spec.Consistent (cfg : PCfg) : Prop where
  pos : 0 < cfg.lists.length
  lists : cfg.lists.length < 256
  odts : cfg.odts.length ≤ 256
  entries : cfg.entries.length ≤ 256
  inOdts : ∀ l ∈ cfg.lists, l.firstOdt.toNat + l.numOdts.toNat ≤ cfg.odts.length
  inEntries : ∀ o ∈ cfg.odts, o.firstEntry.toNat + o.numEntries.toNat ≤ cfg.entries.length

/-- Connected, idle, not programming, data acquisition not protected; one mode for each list. -/
structure Spec.PReady (cfg : PCfg) (s : PSt) : Prop where
  daq : DaqReady cfg.base s.st
  modes : s.modes.length = cfg.lists.length

/-- Number of ODTs of the lists before list `l`: its first PID. -/
def Spec.firstPidOf (cfg : PCfg) (l : Nat) : Nat := ((cfg.lists.take l).map fun x => x.numOdts.toNat).sum

theorem Spec.Consistent.count {cfg : PCfg} (h : Consistent cfg) : cfg.count = cfg.lists.length :=
  Nat.mod_eq_of_lt h.lists

theorem Spec.Ready.pstep {cfg : PCfg} (env : Env) {s : PSt} (h : Ready s.st) {p : Pdu} (c : Cmd)
    (hp : code p = some (cmdCode c)) (hs : cfg.base.supports c = true) :
    pStep cfg env s (.cmd p) = pHandler cfg env { s with st := bumpReceived cfg.base s.st } p c := by
  show pDispatch cfg env s p = _
  unfold pDispatch
  rw [byte_of_code hp]
  simp only [ok_bind, h.conn, h.idle, if_true, Bool.false_eq_true, if_false, table_code c, hs]

theorem tableAt_ok {α : Type} {l : List α} {i : Nat} {a : α} (h : l[i]? = some a) : tableAt l i = .ok a := by
  unfold tableAt; rw [h]

theorem tableAt_oob {α : Type} {l : List α} {i : Nat} (h : l.length ≤ i) : tableAt l i = .error .tableOob := by
  unfold tableAt; rw [List.getElem?_eq_none_iff.mpr h]

theorem setModeAt_ok {m : List UInt8} {i : Nat} {x : UInt8} (f : UInt8 → UInt8) (h : m[i]? = some x) :
    setModeAt m i f = .ok (m.set i (f x)) := by
  unfold setModeAt; rw [tableAt_ok h]; rfl

theorem setModeAt_oob {m : List UInt8} {i : Nat} (f : UInt8 → UInt8) (h : m.length ≤ i) :
    setModeAt m i f = .error .tableOob := by
  unfold setModeAt; rw [tableAt_oob h]; rfl

theorem setModes (f : UInt8 → UInt8) (m : List UInt8) : ∀ n, n ≤ m.length →
    (List.range n).foldlM (fun m i => setModeAt m i f) m = .ok ((m.take n).map f ++ m.drop n) := by
  intro n
  induction n with
  | zero => intro _; simp
  | succ n ih =>
    intro hn
    rw [foldlM_range_succ, ih (by omega)]
    show setModeAt _ n f = _
    have hl : ((m.take n).map f).length = n := by simp; omega
    have hx : ((m.take n).map f ++ m.drop n)[n]? = some m[n] := by
      rw [List.getElem?_append_right (by omega), hl, Nat.sub_self, List.getElem?_drop]
      simp
    rw [setModeAt_ok f hx, List.set_append_right _ _ (by omega), hl, Nat.sub_self,
      List.take_succ_eq_append_getElem (by omega : n < m.length), List.drop_eq_getElem_cons (by omega : n < m.length),
      List.set_cons_zero, List.map_append, List.append_assoc]
    rfl

theorem setModes_all (f : UInt8 → UInt8) {m : List UInt8} {n : Nat} (h : m.length = n) :
    (List.range n).foldlM (fun m i => setModeAt m i f) m = .ok (m.map f) := by
  rw [setModes f m n (by omega), List.take_of_length_le (by omega), List.drop_of_length_le (by omega), List.append_nil]

theorem pStartStop_ok {cfg : PCfg} (hc : Consistent cfg) {m : List UInt8} (h : m.length = cfg.lists.length) (b : Bool) :
    pStartStopLists cfg b m = .ok (m.map (startStopBody b)) := by
  unfold pStartStopLists
  rw [hc.count]
  exact setModes_all _ h

theorem pDaqInit_ok {cfg : PCfg} (hc : Consistent cfg) {s : PSt} (h : s.modes.length = cfg.lists.length) :
    pDaqInit cfg s = .ok ⟨{ s.st with daq := { s.st.daq with running := false, ptr := ⟨0, 0, 0⟩, queue := queueInit } },
      List.replicate cfg.lists.length 0⟩ := by
  unfold pDaqInit
  rw [pStartStop_ok hc h]
  simp only [ok_bind]
  rw [hc.count, setModes_all _ (by simpa using h)]
  simp only [ok_bind, List.map_map, pure_eq_ok]
  congr 2
  rw [show ((fun _ => (0 : UInt8)) ∘ startStopBody false) = fun _ => 0 from rfl, List.map_const', h]

theorem foldPid {cfg : PCfg} : ∀ n, n ≤ cfg.lists.length →
    (List.range n).foldlM (fun acc i => do
      let l ← tableAt cfg.lists i
      return (acc + l.numOdts.toNat) % 256) 0 = (.ok (firstPidOf cfg n % 256) : Except Fault Nat) := by
  intro n
  induction n with
  | zero => intro _; rfl
  | succ n ih =>
    intro hn
    rw [foldlM_range_succ, ih (by omega)]
    show (tableAt cfg.lists n >>= _) = _
    rw [tableAt_ok (List.getElem?_eq_getElem (by omega : n < cfg.lists.length))]
    simp only [ok_bind, pure_eq_ok]
    unfold firstPidOf
    rw [List.take_succ_eq_append_getElem (by omega : n < cfg.lists.length), List.map_append, List.sum_append]
    simp only [List.map_cons, List.map_nil, List.sum_cons, List.sum_nil]
    congr 1
    omega

theorem pFirstPid {cfg : PCfg} (hc : Consistent cfg) {l : Nat} (hl : l < cfg.lists.length) :
    pGetFirstPid cfg l = .ok (true, firstPidOf cfg l % 256) := by
  unfold pGetFirstPid
  rw [if_neg (by rw [hc.count]; omega), foldPid l (by omega)]
  rfl

theorem pFirstPid_none {cfg : PCfg} (hc : Consistent cfg) {l : Nat} (hl : cfg.lists.length ≤ l) :
    pGetFirstPid cfg l = .ok (false, 0) := by
  unfold pGetFirstPid
  rw [if_pos (by rw [hc.count]; omega)]

theorem pOdt {cfg : PCfg} (hc : Consistent cfg) {l j : Nat} {pl : PList} (hl : cfg.lists[l]? = some pl) (hj : j < pl.numOdts.toNat) :
    ∃ o, cfg.odts[pl.firstOdt.toNat + j]? = some o ∧ pGetOdt cfg l j = .ok o := by
  have h1 := hc.inOdts pl (List.mem_of_getElem? hl)
  have h2 := hc.odts
  have h3 : pl.firstOdt.toNat + j < cfg.odts.length := by omega
  refine ⟨cfg.odts[pl.firstOdt.toNat + j], List.getElem?_eq_getElem h3, ?_⟩
  unfold pGetOdt
  rw [tableAt_ok hl]
  simp only [ok_bind]
  rw [show (pl.firstOdt.toNat % 256 + j) % 256 = pl.firstOdt.toNat + j by omega]
  exact tableAt_ok (List.getElem?_eq_getElem h3)

theorem pEntry {cfg : PCfg} (hc : Consistent cfg) {l j k : Nat} {o : POdt} (hl : pGetOdt cfg l j = .ok o) (ho : o ∈ cfg.odts)
    (hk : k < o.numEntries.toNat) :
    ∃ e, cfg.entries[o.firstEntry.toNat + k]? = some e ∧ pGetOdtEntry cfg l j k = .ok e := by
  have h1 := hc.inEntries o ho
  have h2 := hc.entries
  have h3 : o.firstEntry.toNat + k < cfg.entries.length := by omega
  refine ⟨cfg.entries[o.firstEntry.toNat + k], List.getElem?_eq_getElem h3, ?_⟩
  unfold pGetOdtEntry
  rw [hl]
  simp only [ok_bind]
  rw [Nat.mod_eq_of_lt (by omega)]
  exact tableAt_ok (List.getElem?_eq_getElem h3)

theorem pGuards {cfg : PCfg} {s : PSt} (h : DaqReady cfg.base s.st) (k : PR) :
    pPgmIdle cfg s (pUnlocked cfg s k) = k := by
  unfold pPgmIdle pUnlocked
  rw [if_neg h.pgm, if_neg h.notProtected]

end Xcp
