import Verif.Proofs.AllocTrace
/-
Where the lookups of the slave lead when the pool holds a configuration.
-/
set_option autoImplicit false
namespace Xcp
open Spec

theorem Spec.SameCore.withDaq {s b : St} (h : SameCore s b) (d : Daq) : SameCore { s with daq := d } { b with daq := d } :=
  ⟨h.connected, h.busy, rfl, h.pgm, h.resProt, h.seedReq, h.mta, h.slaveBlk, h.masterBlk, h.ck, h.mem⟩

theorem getElem?_lt {α : Type} {l : List α} {i : Nat} {x : α} (h : l[i]? = some x) : i < l.length := by
  apply Decidable.byContradiction; intro hn
  rw [List.getElem?_eq_none (by omega)] at h; cases h

theorem Spec.Rep.count_le {cfg : Cfg} {d : Daq} {c : Conf} (h : Rep cfg d c) : d.entityCount ≤ cfg.maxEnt := by
  rw [h.used]; exact h.fits

theorem Spec.Rep.ent_list {cfg : Cfg} {d : Daq} {c : Conf} (h : Rep cfg d c) {i : Nat} (hi : i < c.length) :
    d.ent cfg i = .ok (d.entities i) := by
  have : i < d.entityCount := h.inside (.list i) hi
  have := h.count_le
  unfold Daq.ent; rw [if_pos (by omega)]

/-- `XcpDaq_GetOdt` finds the slot of the ODT. -/
theorem Spec.Rep.getOdt {cfg : Cfg} (hc : cfg.Ok) {d : Daq} {c : Conf} (h : Rep cfg d c) {i j : Nat} (hj : c.has (.odt i j)) :
    getOdt cfg d i j = .ok (d.entities (slot d (.odt i j))) := by
  have hlt := hc.ent_lt
  have hs := h.inside _ hj
  obtain ⟨odts, h1, h2⟩ := hj
  have := h.count_le
  have e : slot d (.odt i j) = (d.entities i).first + j := rfl
  unfold Xcp.getOdt
  rw [h.ent_list (getElem?_lt h1)]
  simp only [ok_bind]
  rw [Nat.mod_eq_of_lt (a := (d.entities i).first) (by omega), Nat.mod_eq_of_lt (by omega), e]
  unfold Daq.ent; rw [if_pos (by omega)]

/-- `XcpDaq_GetOdtEntry` finds the slot of the entry. -/
theorem Spec.Rep.getEntry {cfg : Cfg} (hc : cfg.Ok) {d : Daq} {c : Conf} (h : Rep cfg d c) {i j k : Nat}
    (hk : c.has (.entry i j k)) : getOdtEntryIdx cfg d i j k = .ok (slot d (.entry i j k)) := by
  have hlt := hc.ent_lt
  have hs := h.inside _ hk
  obtain ⟨odts, m, h1, h2, h3⟩ := hk
  have := h.count_le
  have e : slot d (.entry i j k) = (d.entities (slot d (.odt i j))).first + k := rfl
  unfold getOdtEntryIdx
  rw [h.getOdt hc ⟨odts, h1, getElem?_lt h2⟩]
  simp only [ok_bind]
  rw [Nat.mod_eq_of_lt (by omega), e]
  rfl

/-- `XcpDaq_ValidateOdtEntry` decides whether the entry exists. -/
theorem Spec.Rep.validate {cfg : Cfg} (hc : cfg.Ok) {d : Daq} {c : Conf} (h : Rep cfg d c) (i j k : Nat) :
    ∃ b, validateOdtEntry cfg d i j k = .ok b ∧ (b = true ↔ c.has (.entry i j k)) := by
  unfold validateOdtEntry
  split
  · rename_i hl
    refine ⟨false, rfl, ?_⟩
    rw [h.lists] at hl
    refine ⟨fun h => (by cases h), fun ⟨odts, m, h1, _⟩ => ?_⟩
    have := getElem?_lt h1
    omega
  · rename_i hl
    rw [h.lists] at hl
    have hi : i < c.length := by omega
    obtain ⟨odts, ho⟩ : ∃ odts, c[i]? = some odts := ⟨c[i], List.getElem?_eq_getElem hi⟩
    rw [h.ent_list hi]
    simp only [ok_bind]
    rw [h.listNum i odts ho]
    split
    · rename_i hj
      refine ⟨false, rfl, ?_⟩
      refine ⟨fun h => (by cases h), fun ⟨odts', m, h1, h2, _⟩ => ?_⟩
      rw [ho] at h1; cases h1
      have := getElem?_lt h2
      omega
    · rename_i hj
      have hj : j < odts.length := by omega
      obtain ⟨m, hm⟩ : ∃ m, odts[j]? = some m := ⟨odts[j], List.getElem?_eq_getElem hj⟩
      rw [h.getOdt hc ⟨odts, ho, hj⟩]
      simp only [ok_bind]
      rw [h.odtNum i j odts m ho hm]
      refine ⟨_, rfl, ?_⟩
      rw [decide_eq_true_iff]
      refine ⟨fun h => ⟨odts, m, ho, hm, h⟩, fun ⟨odts', m', h1, h2, h3⟩ => ?_⟩
      rw [ho] at h1; cases h1
      rw [hm] at h2; cases h2
      exact h3

theorem firstPid_le (c : Conf) (l : Nat) : c.firstPid l ≤ c.odts := by
  unfold Conf.firstPid Conf.odts
  induction c generalizing l with
  | nil => simp
  | cons a c ih =>
    cases l with
    | zero => simp
    | succ l =>
      rw [List.take_succ_cons, List.map_cons, List.map_cons, List.sum_cons, List.sum_cons]
      have := ih l
      omega

theorem firstPid_succ {c : Conf} {l : Nat} {odts : List Nat} (h : c[l]? = some odts) :
    c.firstPid (l + 1) = c.firstPid l + odts.length := by
  unfold Conf.firstPid
  induction c generalizing l with
  | nil => simp at h
  | cons a c ih =>
    cases l with
    | zero => simp at h; subst h; simp
    | succ l =>
      have := ih (l := l) (by simpa using h)
      rw [List.take_succ_cons, List.take_succ_cons, List.map_cons, List.map_cons, List.sum_cons, List.sum_cons, this]
      omega

theorem Spec.Rep.odts_lt {cfg : Cfg} (hc : cfg.Ok) {d : Daq} {c : Conf} (h : Rep cfg d c) : c.odts < 256 := by
  have h1 := h.fits
  have h2 := hc.ent_lt
  have h3 := odts_le c
  unfold Conf.size at h1
  unfold Conf.odts
  omega

theorem foldlM_range_succ {β : Type} (f : β → Nat → Except Fault β) (b : β) (n : Nat) :
    (List.range (n + 1)).foldlM f b = ((List.range n).foldlM f b).bind (fun x => f x n) := by
  rw [List.range_succ, List.foldlM_append]
  change Except.bind _ _ = _
  congr 1
  funext x
  simp only [List.foldlM]
  cases f x n <;> rfl

/-- `XcpDaq_GetFirstPid` counts the ODTs of the lists before. -/
theorem Spec.Rep.firstPid {cfg : Cfg} (hc : cfg.Ok) {d : Daq} {c : Conf} (h : Rep cfg d c) {l : Nat} (hl : l < c.length) :
    getFirstPid cfg d l = .ok (true, c.firstPid l) := by
  have key : ∀ n, n ≤ c.length → (List.range n).foldlM (fun acc i => do
      let l ← d.ent cfg i
      return (acc + l.num) % 256) 0 = (Except.ok (c.firstPid n) : Except Fault Nat) := by
    intro n
    induction n with
    | zero => intro _; rfl
    | succ n ih =>
      intro hn
      rw [foldlM_range_succ, ih (by omega)]
      obtain ⟨odts, ho⟩ : ∃ odts, c[n]? = some odts := ⟨c[n], List.getElem?_eq_getElem (by omega)⟩
      have h1 := firstPid_succ ho
      have h2 := firstPid_le c (n + 1)
      have h3 := h.odts_lt hc
      show (d.ent cfg n).bind _ = _
      rw [h.ent_list (by omega)]
      show Except.ok _ = _
      rw [h.listNum n odts ho, h1, Nat.mod_eq_of_lt (by omega)]
  unfold getFirstPid
  rw [h.lists, if_neg (by omega), key l (by omega)]
  rfl

end Xcp
