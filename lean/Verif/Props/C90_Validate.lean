import Verif.Proofs.Layout
import Verif.Model.Validate
import Verif.Model.Example
/-
C90: the library's checks of a DAQ configuration.

`XcpDaq_ValidateList` is right.  `XcpDaq_ValidateConfiguration` is not: it accepts configurations without any
ODT entry (`C90_fails_configuration`).
-/
set_option autoImplicit false
namespace Xcp
open Spec

/-- The list exists and has something to measure. -/
def Spec.Conf.useful (c : Conf) (l : Nat) : Prop := ∃ j k, c.has (.entry l j k)

theorem any_entries {cfg : Cfg} (hc : cfg.Ok) {d : Daq} {c : Conf} (h : Rep cfg d c) {l : Nat} {odts : List Nat} (hl : c[l]? = some odts) :
    ∀ (k i : Nat), i + k = odts.length →
      ∃ b, anyEntries cfg d l i k = .ok b ∧ (b = true ↔ ∃ j m, i ≤ j ∧ odts[j]? = some m ∧ 0 < m)
  | 0, i, hi => by
    refine ⟨false, rfl, fun h => (nomatch h), fun ⟨j, m, h1, h2, _⟩ => ?_⟩
    have := getElem?_lt h2
    omega
  | k + 1, i, hi => by
    have hlt : i < odts.length := by omega
    have hm : odts[i]? = some odts[i] := List.getElem?_eq_getElem hlt
    unfold anyEntries
    rw [h.getOdt hc ⟨odts, hl, hlt⟩, ok_bind, h.odtNum l i odts _ hl hm]
    by_cases hz : odts[i] = 0
    · rw [if_neg (by simpa using hz)]
      obtain ⟨b, h1, h2⟩ := any_entries hc h hl k (i + 1) (by omega)
      refine ⟨b, h1, h2.trans ⟨fun ⟨j, m, g1, g2, g3⟩ => ⟨j, m, by omega, g2, g3⟩, fun ⟨j, m, g1, g2, g3⟩ => ⟨j, m, ?_, g2, g3⟩⟩⟩
      have : j ≠ i := by rintro rfl; rw [hm] at g2; cases g2; omega
      omega
    · rw [if_pos (by simpa using hz)]
      exact ⟨true, rfl, fun _ => ⟨i, _, Nat.le_refl _, hm, Nat.pos_of_ne_zero hz⟩, fun _ => rfl⟩

/-- C90: `XcpDaq_ValidateList` accepts exactly the lists that have something to measure, and reads nothing outside
the pool, for every number. -/
theorem C90_list {cfg : Cfg} (hc : cfg.Ok) {d : Daq} {c : Conf} (h : Rep cfg d c) (l : Nat) :
    ∃ b, validateList cfg d l = .ok b ∧ (b = true ↔ c.useful l) := by
  unfold validateList
  split
  · rename_i hl
    rw [h.lists] at hl
    refine ⟨false, rfl, fun h => (nomatch h), fun ⟨j, k, odts, m, h1, _⟩ => ?_⟩
    have := getElem?_lt h1
    omega
  · rename_i hl
    rw [h.lists] at hl
    have hi : l < c.length := by omega
    have ho : c[l]? = some c[l] := List.getElem?_eq_getElem hi
    rw [h.ent_list hi, ok_bind, h.listNum l _ ho]
    obtain ⟨b, h1, h2⟩ := any_entries hc h ho c[l].length 0 (by omega)
    have key : (∃ j m, 0 ≤ j ∧ c[l][j]? = some m ∧ 0 < m) ↔ c.useful l := by
      refine ⟨fun ⟨j, m, _, g2, g3⟩ => ⟨j, 0, _, m, ho, g2, g3⟩, fun ⟨j, k, odts, m, g1, g2, g3⟩ => ?_⟩
      rw [ho] at g1; cases g1
      exact ⟨j, m, Nat.zero_le _, g2, by omega⟩
    split
    · rename_i hz
      refine ⟨false, rfl, fun h => (nomatch h), fun hu => ?_⟩
      obtain ⟨j, m, _, g2, _⟩ := key.mpr hu
      have := getElem?_lt g2
      omega
    · exact ⟨b, h1, h2.trans key⟩

theorem odts_pos {c : Conf} : 0 < c.odts ↔ ∃ l j, c.has (.odt l j) := by
  unfold Conf.odts
  constructor
  · intro h
    induction c with
    | nil => simp at h
    | cons a c ih =>
      rw [List.map_cons, List.sum_cons] at h
      by_cases ha : a.length = 0
      · obtain ⟨l, j, odts, h1, h2⟩ := ih (by omega)
        exact ⟨l + 1, j, odts, h1, h2⟩
      · exact ⟨0, 0, a, rfl, by omega⟩
  · rintro ⟨l, j, odts, h1, h2⟩
    induction c generalizing l with
    | nil => simp at h1
    | cons a c ih =>
      rw [List.map_cons, List.sum_cons]
      cases l with
      | zero => simp at h1; subst h1; omega
      | succ l => have := ih l (by simpa using h1); omega

/-- What `XcpDaq_ValidateConfiguration` decides: whether there is any ODT. -/
theorem C90_configuration_partial {cfg : Cfg} {d : Daq} {c : Conf} (h : Rep cfg d c) :
    (validateConfiguration d = true ↔ ∃ l j, c.has (.odt l j)) ∧ ∀ l, c.useful l → validateConfiguration d = true := by
  have key : validateConfiguration d = true ↔ ∃ l j, c.has (.odt l j) := by
    unfold validateConfiguration
    rw [Bool.and_eq_true, Bool.and_eq_true, decide_eq_true_iff, decide_eq_true_iff, decide_eq_true_iff, h.odtCount, odts_pos]
    refine ⟨fun h => h.2, fun hx => ⟨⟨?_, ?_⟩, hx⟩⟩
    · obtain ⟨l, j, hx⟩ := hx
      have := h.inside _ hx
      omega
    · obtain ⟨l, j, odts, h1, _⟩ := hx
      have := getElem?_lt h1
      rw [h.lists]; omega
  refine ⟨key, fun l ⟨j, k, odts, m, h1, h2, _⟩ => key.mpr ⟨l, j, odts, h1, getElem?_lt h2⟩⟩

/-- C90 is false for `XcpDaq_ValidateConfiguration`: one list with one ODT without entries is accepted. -/
theorem C90_fails_configuration :
    let h := [Ex.c [0xFF], Ex.c [0xD6], Ex.c [0xD5, 0, 1, 0], Ex.c [0xD4, 0, 0, 0, 1]]
    Ex.obs Ex.sim h (fun s => (validateConfiguration s.daq, (validateList Ex.sim s.daq 0).toOption, (validateList Ex.sim s.daq 1).toOption)) =
      some (true, some false, some false) := by decide +kernel

/-- Two lists, of which the second has an ODT with an entry. -/
example :
    let h := [Ex.c [0xFF], Ex.c [0xD6], Ex.c [0xD5, 0, 2, 0], Ex.c [0xD4, 0, 0, 0, 1], Ex.c [0xD4, 0, 1, 0, 2], Ex.c [0xD3, 0, 1, 0, 1, 3]]
    Ex.obs Ex.sim h (fun s => (validateConfiguration s.daq, (List.range 3).map fun l => (validateList Ex.sim s.daq l).toOption)) =
      some (true, [some false, some true, some false]) := by decide +kernel

end Xcp
