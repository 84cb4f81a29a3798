import Verif.Proofs.Alloc
/-
Accepted allocation requests keep the pool and the configuration in step.
-/
set_option autoImplicit false
namespace Xcp
open Spec

/-- What is still empty in each phase. -/
structure Flat (ph : Nat) (c : Conf) : Prop where
  none : ph = 0 → c = []
  noOdts : ph ≤ 1 → ∀ (i : Nat) (odts : List Nat), c[i]? = some odts → odts = []
  noEntries : ph ≤ 2 → ∀ (i : Nat) (odts : List Nat) (j m : Nat), c[i]? = some odts → odts[j]? = some m → m = 0

theorem rep_free (cfg : Cfg) (d : Daq) (h1 : d.listCount = 0) (h2 : d.odtCount = 0)
    (h3 : d.entityCount = 0) (h4 : ∀ i, d.entities i = Entity.zero) : Rep cfg d [] := by
  refine ⟨h1, h2, h3, by simp [Conf.size], by simp, by simp, ?_, ?_, ?_⟩
  · intro o ho; cases o <;> simp [Conf.has] at ho
  · intro o _ ho; cases o <;> simp [Conf.has] at ho
  · intro i _; rw [h4]; rfl

theorem flat_nil (ph : Nat) : Flat ph [] := ⟨fun _ => rfl, by simp, by simp⟩

theorem conf_get_daq {c : Conf} {n i : Nat} {odts : List Nat} (h : (c ++ List.replicate n [])[i]? = some odts) :
    c[i]? = some odts ∨ (c.length ≤ i ∧ i < c.length + n ∧ odts = []) := by
  rw [List.getElem?_append] at h
  split at h
  · exact Or.inl h
  · rw [List.getElem?_replicate] at h
    split at h
    · right; cases h; exact ⟨by omega, by omega, rfl⟩
    · cases h

theorem rep_daq {cfg : Cfg} (hc : cfg.Ok) {d : Daq} {c : Conf} {n : Nat} (hr : Rep cfg d c) (hf : Flat 1 c)
    (hfit : d.entityCount + n ≤ cfg.maxEnt) :
    Rep cfg { (d.mapRange d.entityCount n (fun e => { e with kind := 1 }.setNum 0)) with
        allocState := .afterAllocDaq
        listCount := (d.listCount + n) % 256
        entityCount := (d.entityCount + n) % 256 } (c ++ List.replicate n []) ∧
    Flat 1 (c ++ List.replicate n []) := by
  have hlt := hc.ent_lt
  have hsz : c.size = c.length := by
    unfold Conf.size
    have : (c.map fun odts => odts.length + odts.sum).sum = 0 := by
      have : c.map (fun odts => odts.length + odts.sum) = List.replicate c.length 0 := by
        apply List.ext_getElem? ; intro i
        rw [List.getElem?_map, List.getElem?_replicate]
        cases h : c[i]? with
        | none => simp at h; simp; omega
        | some odts =>
          have := hf.noOdts (by omega) i odts h
          subst this
          have : i < c.length := by
            apply Decidable.byContradiction; intro hn
            rw [List.getElem?_eq_none (by omega)] at h; cases h
          simp [this]
      rw [this, sum_replicate]; simp
    omega
  have hec : d.entityCount = c.length := hr.used.trans hsz
  have hflat : Flat 1 (c ++ List.replicate n []) := by
    refine ⟨by omega, ?_, ?_⟩
    · intro _ i odts h
      rcases conf_get_daq h with h | ⟨-, -, h⟩
      · exact hf.noOdts (by omega) i odts h
      · exact h
    · intro _ i odts j m h hm
      rcases conf_get_daq h with h | ⟨-, -, h⟩
      · exact hf.noEntries (by omega) i odts j m h hm
      · subst h; simp at hm
  refine ⟨⟨?_, ?_, ?_, ?_, ?_, ?_, ?_, ?_, ?_⟩, hflat⟩
  · simp only [List.length_append, List.length_replicate]
    rw [hr.lists]; apply Nat.mod_eq_of_lt; omega
  · exact hr.odtCount.trans (Conf.odts_daq c n).symm
  · rw [Conf.size_daq]; show (d.entityCount + n) % 256 = _
    rw [hr.used]; apply Nat.mod_eq_of_lt; rw [← hr.used]; omega
  · rw [Conf.size_daq, ← hr.used]; exact hfit
  · intro i odts h
    simp only [Daq.mapRange]
    rcases conf_get_daq h with h | ⟨h1, h2, h3⟩
    · have : i < c.length := by
        apply Decidable.byContradiction; intro hn
        rw [List.getElem?_eq_none (by omega)] at h; cases h
      rw [if_neg (by omega)]
      exact hr.listNum i odts h
    · subst h3
      rw [if_pos (by omega), Entity.num_setNum]; rfl
  · intro i j odts m h hm
    have := hflat.noOdts (by omega) i odts h
    subst this; simp at hm
  · intro o ho
    cases o with
    | list i =>
      simp only [Conf.has, List.length_append, List.length_replicate] at ho
      show i < (d.entityCount + n) % 256
      rw [Nat.mod_eq_of_lt (by omega)]; omega
    | odt i j =>
      obtain ⟨odts, h1, h2⟩ := ho
      have := hflat.noOdts (by omega) i odts h1
      subst this; simp at h2
    | entry i j k =>
      obtain ⟨odts, m, h1, h2, -⟩ := ho
      have := hflat.noOdts (by omega) i odts h1
      subst this; simp at h2
  · intro o o' ho ho' he
    cases o with
    | odt i j =>
      obtain ⟨odts, h1, h2⟩ := ho
      have := hflat.noOdts (by omega) i odts h1
      subst this; simp at h2
    | entry i j k =>
      obtain ⟨odts, m, h1, h2, -⟩ := ho
      have := hflat.noOdts (by omega) i odts h1
      subst this; simp at h2
    | list i =>
      cases o' with
      | odt i j =>
        obtain ⟨odts, h1, h2⟩ := ho'
        have := hflat.noOdts (by omega) i odts h1
        subst this; simp at h2
      | entry i j k =>
        obtain ⟨odts, m, h1, h2, -⟩ := ho'
        have := hflat.noOdts (by omega) i odts h1
        subst this; simp at h2
      | list i' => exact congrArg _ he
  · intro i hi
    have hi : (d.entityCount + n) % 256 ≤ i := hi
    rw [Nat.mod_eq_of_lt (by omega)] at hi
    simp only [Daq.mapRange]
    rw [if_neg (by omega)]
    exact hr.fresh i (by omega)

theorem conf_get_set {c : Conf} {l i : Nat} {x odts : List Nat} (h : (c.set l x)[i]? = some odts) :
    (i = l ∧ odts = x ∧ l < c.length) ∨ (i ≠ l ∧ c[i]? = some odts) := by
  rw [List.getElem?_set] at h
  split at h
  · rename_i e
    subst e
    split at h
    · cases h; exact Or.inl ⟨rfl, rfl, ‹_›⟩
    · cases h
  · rename_i e
    exact Or.inr ⟨fun h => e h.symm, h⟩

theorem odts_le (c : List (List Nat)) :
    (c.map List.length).sum ≤ (c.map fun odts => odts.length + odts.sum).sum := by
  induction c with
  | nil => simp
  | cons a c ih => simp; omega

theorem rep_odt {cfg : Cfg} (hc : cfg.Ok) {d : Daq} {c : Conf} {l n : Nat} (hr : Rep cfg d c) (hf : Flat 2 c)
    (hl : c[l]? = some []) (hfit : d.entityCount + n ≤ cfg.maxEnt) {d1 d2 : Daq}
    (h1 : d1 = d.mapRange d.entityCount n (fun e => { e with kind := 2 }))
    (h2 : d2 = d1.setEnt l (((d1.entities l).setNum ((d1.entities l).num + n)).setFirst d.entityCount)) :
    Rep cfg { d2 with
        allocState := .afterAllocOdt
        odtCount := (d.odtCount + n) % 256
        entityCount := (d.entityCount + n) % 256 } (c.set l (List.replicate n 0)) ∧
    Flat 2 (c.set l (List.replicate n 0)) := by
  have hlt := hc.ent_lt
  have hll : l < c.length := by
    apply Decidable.byContradiction; intro hn
    rw [List.getElem?_eq_none (by omega)] at hl; cases hl
  have hlslot : l < d.entityCount := hr.inside (.list l) hll
  have hw1 : ∀ i, (d1.entities i).w = (d.entities i).w := by
    intro i; subst h1; simp only [Daq.mapRange]; split <;> rfl
  have hnum1 : ∀ i, (d1.entities i).num = (d.entities i).num := by intro i; unfold Entity.num; rw [hw1]
  have hfirst1 : ∀ i, (d1.entities i).first = (d.entities i).first := by intro i; unfold Entity.first; rw [hw1]
  have hother : ∀ i, i ≠ l → d2.entities i = d1.entities i := by
    intro i hi; subst h2; simp only [Daq.setEnt]; rw [if_neg hi]
  have hln : (d2.entities l).num = n := by
    subst h2; simp only [Daq.setEnt]; rw [if_pos trivial, Entity.num_setFirst, Entity.num_setNum, hnum1, hr.listNum l [] hl]
    simp; omega
  have hlf : (d2.entities l).first = d.entityCount := by
    subst h2; simp only [Daq.setEnt]; rw [if_pos trivial, Entity.first_setFirst]; omega
  have hcount : (d.entityCount + n) % 256 = d.entityCount + n := Nat.mod_eq_of_lt (by omega)
  have hflat : Flat 2 (c.set l (List.replicate n 0)) := by
    refine ⟨by omega, by omega, ?_⟩
    intro _ i odts j m h hm
    rcases conf_get_set h with ⟨-, h, -⟩ | ⟨-, h⟩
    · subst h; rw [List.getElem?_replicate] at hm; split at hm
      · cases hm; rfl
      · cases hm
    · exact hf.noEntries (by omega) i odts j m h hm
  -- slots of ODTs
  have hs_new : ∀ j, slot d2 (.odt l j) = d.entityCount + j := by
    intro j; show (d2.entities l).first + j = _; rw [hlf]
  have hs_old : ∀ i j, i ≠ l → slot d2 (.odt i j) = slot d (.odt i j) := by
    intro i j hi; show (d2.entities i).first + j = (d.entities i).first + j; rw [hother i hi, hfirst1]
  have hodt : ∀ i j odts, (c.set l (List.replicate n 0))[i]? = some odts → j < odts.length →
      (i = l ∧ j < n) ∨ (i ≠ l ∧ c.has (.odt i j)) := by
    intro i j odts h hj
    rcases conf_get_set h with ⟨h1, h, -⟩ | ⟨h1, h⟩
    · subst h; rw [List.length_replicate] at hj; exact Or.inl ⟨h1, hj⟩
    · exact Or.inr ⟨h1, odts, h, hj⟩
  have hnoent : ∀ i j k, ¬ Conf.has (c.set l (List.replicate n 0)) (.entry i j k) := by
    rintro i j k ⟨odts, m, h1, h2, h3⟩
    have := hflat.noEntries (by omega) i odts j m h1 h2
    omega
  have hin : ∀ o, Conf.has (c.set l (List.replicate n 0)) o →
      (∃ i, o = .list i ∧ slot d2 o < d.entityCount ∧ c.has o ∧ slot d2 o = slot d o) ∨
      (∃ j, o = .odt l j ∧ slot d2 o = d.entityCount + j ∧ j < n) ∨
      (∃ i j, o = .odt i j ∧ i ≠ l ∧ c.has o ∧ slot d2 o = slot d o) := by
    intro o ho
    cases o with
    | list i =>
      have hi : i < c.length := by simpa [Conf.has] using ho
      exact Or.inl ⟨i, rfl, hr.inside (.list i) hi, hi, rfl⟩
    | odt i j =>
      obtain ⟨odts, g1, g2⟩ := ho
      rcases hodt i j odts g1 g2 with ⟨rfl, g3⟩ | ⟨g3, g4⟩
      · exact Or.inr (Or.inl ⟨j, rfl, hs_new j, g3⟩)
      · exact Or.inr (Or.inr ⟨i, j, rfl, g3, g4, hs_old i j g3⟩)
    | entry i j k => exact absurd ho (hnoent i j k)
  refine ⟨⟨?_, ?_, ?_, ?_, ?_, ?_, ?_, ?_, ?_⟩, hflat⟩
  · show d2.listCount = _
    rw [List.length_set]
    subst h2 h1; exact hr.lists
  · show (d.odtCount + n) % 256 = _
    rw [Conf.odts_odt hl, hr.odtCount]
    have : c.odts ≤ c.size := by
      unfold Conf.odts Conf.size
      have := odts_le c
      omega
    apply Nat.mod_eq_of_lt
    have := hr.used
    omega
  · show (d.entityCount + n) % 256 = _
    rw [Conf.size_odt hl, hcount, hr.used]
  · rw [Conf.size_odt hl, ← hr.used]; exact hfit
  · intro i odts h
    show (d2.entities i).num = _
    rcases conf_get_set h with ⟨g1, g2, -⟩ | ⟨g1, g2⟩
    · subst g1 g2; rw [hln, List.length_replicate]
    · rw [hother i g1, hnum1]; exact hr.listNum i odts g2
  · intro i j odts m h hm
    have hm0 : m = 0 := hflat.noEntries (by omega) i odts j m h hm
    have hj : j < odts.length := by
      apply Decidable.byContradiction; intro hn
      rw [List.getElem?_eq_none (by omega)] at hm; cases hm
    subst hm0
    show (d2.entities (slot d2 (.odt i j))).num = 0
    rcases hodt i j odts h hj with ⟨rfl, g3⟩ | ⟨g3, g4⟩
    · rw [hs_new, hother _ (by omega), hnum1]
      unfold Entity.num
      rw [hr.fresh _ (by omega)]
    · have hne : slot d (.odt i j) ≠ l := by
        intro he
        have := hr.disjoint (.odt i j) (.list l) g4 hll he
        cases this
      rw [hs_old i j g3, hother _ hne, hnum1]
      obtain ⟨odts', g5, g6⟩ := g4
      obtain ⟨m', g7⟩ : ∃ m', odts'[j]? = some m' := ⟨odts'[j], List.getElem?_eq_getElem g6⟩
      rw [hr.odtNum i j odts' m' g5 g7]
      exact hf.noEntries (by omega) i odts' j m' g5 g7
  · intro o ho
    show slot d2 o < (d.entityCount + n) % 256
    rw [hcount]
    rcases hin o ho with ⟨i, rfl, g1, -⟩ | ⟨j, rfl, g1, g2⟩ | ⟨i, j, rfl, -, g1, g2⟩
    · omega
    · omega
    · have := hr.inside _ g1; omega
  · intro o o' ho ho' he
    have he : slot d2 o = slot d2 o' := he
    rcases hin o ho with ⟨i, e1, g1, g2, g3⟩ | ⟨j, e1, g1, g2⟩ | ⟨i, j, e1, -, g1, g2⟩ <;>
    rcases hin o' ho' with ⟨i', e1', g1', g2', g3'⟩ | ⟨j', e1', g1', g2'⟩ | ⟨i', j', e1', -, g1', g2'⟩
    · exact hr.disjoint o o' g2 g2' (by omega)
    · omega
    · exact hr.disjoint o o' g2 g1' (by omega)
    · omega
    · have : j = j' := by omega
      subst this; rw [e1, e1']
    · have := hr.inside _ g1'; omega
    · exact hr.disjoint o o' g1 g2' (by omega)
    · have := hr.inside _ g1; omega
    · exact hr.disjoint o o' g1 g1' (by omega)
  · intro i hi
    have hi : (d.entityCount + n) % 256 ≤ i := hi
    rw [hcount] at hi
    show (d2.entities i).w = 0
    rw [hother i (by omega), hw1]
    exact hr.fresh i (by omega)

theorem rep_entry {cfg : Cfg} (hc : cfg.Ok) {d : Daq} {c : Conf} {l o n : Nat} (hr : Rep cfg d c)
    {os : List Nat} (hl : c[l]? = some os) (ho : os[o]? = some 0) (hn : d.entityCount + n ≤ cfg.maxEnt) {d1 d2 : Daq}
    (h1 : d1 = d.mapRange d.entityCount n (fun e => { e with kind := 3 }))
    (h2 : d2 = d1.setEnt (slot d (.odt l o)) (((d1.entities (slot d (.odt l o))).setFirst d.entityCount).setNum n)) :
    Rep cfg { d2 with
        allocState := .afterAllocOdtEntry
        entityCount := (d.entityCount + n) % 256 } (c.modify l (fun x => x.set o n)) ∧
    Flat 3 (c.modify l (fun x => x.set o n)) := by
  have hlt := hc.ent_lt
  refine ⟨?_, ⟨by omega, by omega, by omega⟩⟩
  have hsz := Conf.size_entry (n := n) hl ho
  have hod := Conf.odts_entry (o := o) (n := n) hl
  rw [modify_eq _ hl] at hsz hod ⊢
  have hoo : o < os.length := by
    apply Decidable.byContradiction; intro hn
    rw [List.getElem?_eq_none (by omega)] at ho; cases ho
  have hll : l < c.length := by
    apply Decidable.byContradiction; intro hn
    rw [List.getElem?_eq_none (by omega)] at hl; cases hl
  have hlo : c.has (.odt l o) := ⟨os, hl, hoo⟩
  have hsl := hr.inside _ hlo
  have hw1 : ∀ i, (d1.entities i).w = (d.entities i).w := by
    intro i; subst h1; simp only [Daq.mapRange]; split <;> rfl
  have hnum1 : ∀ i, (d1.entities i).num = (d.entities i).num := by intro i; unfold Entity.num; rw [hw1]
  have hfirst1 : ∀ i, (d1.entities i).first = (d.entities i).first := by intro i; unfold Entity.first; rw [hw1]
  generalize hk : slot d (.odt l o) = k at *
  have hother : ∀ i, i ≠ k → d2.entities i = d1.entities i := by
    intro i hi; subst h2; simp only [Daq.setEnt]; rw [if_neg hi]
  have hkn : (d2.entities k).num = n := by
    subst h2; simp only [Daq.setEnt]; rw [if_pos trivial, Entity.num_setNum]; omega
  have hkf : (d2.entities k).first = d.entityCount := by
    subst h2; simp only [Daq.setEnt]; rw [if_pos trivial, Entity.first_setNum, Entity.first_setFirst]; omega
  have hcount : (d.entityCount + n) % 256 = d.entityCount + n := Nat.mod_eq_of_lt (by omega)
  have hlist : ∀ i, i < c.length → i ≠ k := by
    intro i hi he
    have := hr.disjoint (.list i) (.odt l o) hi hlo (by rw [hk]; exact he)
    cases this
  have hsodt : ∀ i j, i < c.length → slot d2 (.odt i j) = slot d (.odt i j) := by
    intro i j hi
    show (d2.entities i).first + j = (d.entities i).first + j
    rw [hother i (hlist i hi), hfirst1]
  have hget : ∀ i odts, (c.set l (os.set o n))[i]? = some odts →
      ∃ odts', c[i]? = some odts' ∧ odts.length = odts'.length ∧
        ∀ j m, odts[j]? = some m → (i = l ∧ j = o ∧ m = n) ∨ (¬ (i = l ∧ j = o) ∧ odts'[j]? = some m) := by
    intro i odts h
    rcases conf_get_set h with ⟨rfl, rfl, -⟩ | ⟨g1, g2⟩
    · refine ⟨os, hl, by simp, ?_⟩
      intro j m hm
      rw [List.getElem?_set] at hm
      split at hm
      · rename_i e; subst e
        cases hm; exact Or.inl ⟨rfl, rfl, rfl⟩
      · rename_i e
        exact Or.inr ⟨fun h => e h.2.symm, hm⟩
    · exact ⟨odts, g2, rfl, fun j m hm => Or.inr ⟨fun h => g1 h.1, hm⟩⟩
  have hlt_of : ∀ i odts, c[i]? = some odts → i < c.length := by
    intro i odts h
    apply Decidable.byContradiction; intro hn
    rw [List.getElem?_eq_none (by omega)] at h; cases h
  have hjlt : ∀ (odts : List Nat) (j m : Nat), odts[j]? = some m → j < odts.length := by
    intro odts j m h
    apply Decidable.byContradiction; intro hn
    rw [List.getElem?_eq_none (by omega)] at h; cases h
  have hodtne : ∀ i j odts, c[i]? = some odts → j < odts.length → ¬ (i = l ∧ j = o) → slot d (.odt i j) ≠ k := by
    intro i j odts h hj hne he
    have := hr.disjoint (.odt i j) (.odt l o) ⟨odts, h, hj⟩ hlo (he.trans hk.symm)
    cases this; exact hne ⟨rfl, rfl⟩
  -- where everything is now
  have hin : ∀ x, Conf.has (c.set l (os.set o n)) x →
      (c.has x ∧ slot d2 x = slot d x) ∨ (∃ e, x = .entry l o e ∧ slot d2 x = d.entityCount + e ∧ e < n) := by
    intro x hx
    cases x with
    | list i => exact Or.inl ⟨by simpa [Conf.has] using hx, rfl⟩
    | odt i j =>
      obtain ⟨odts, g1, g2⟩ := hx
      obtain ⟨odts', g3, g4, -⟩ := hget i odts g1
      exact Or.inl ⟨⟨odts', g3, by omega⟩, hsodt i j (hlt_of _ _ g3)⟩
    | entry i j e =>
      obtain ⟨odts, m, g1, g2, g3⟩ := hx
      obtain ⟨odts', g4, g5, g6⟩ := hget i odts g1
      have hi := hlt_of _ _ g4
      have hs := hsodt i j hi
      rcases g6 j m g2 with ⟨rfl, rfl, rfl⟩ | ⟨g7, g8⟩
      · refine Or.inr ⟨e, rfl, ?_, g3⟩
        show (d2.entities (slot d2 (.odt i j))).first + e = _
        rw [hs, hk, hkf]
      · refine Or.inl ⟨⟨odts', m, g4, g8, g3⟩, ?_⟩
        show (d2.entities (slot d2 (.odt i j))).first + e = (d.entities (slot d (.odt i j))).first + e
        rw [hs, hother _ (hodtne i j odts' g4 (hjlt _ _ _ g8) g7), hfirst1]
  refine ⟨?_, ?_, ?_, ?_, ?_, ?_, ?_, ?_, ?_⟩
  · show d2.listCount = _
    rw [List.length_set]
    subst h2 h1; exact hr.lists
  · show d2.odtCount = _
    rw [hod]
    subst h2 h1; exact hr.odtCount
  · show (d.entityCount + n) % 256 = _
    rw [hsz, hcount, hr.used]
  · rw [hsz, ← hr.used]; exact hn
  · intro i odts h
    obtain ⟨odts', g3, g4, -⟩ := hget i odts h
    show (d2.entities i).num = _
    rw [hother i (hlist i (hlt_of _ _ g3)), hnum1, hr.listNum i odts' g3, g4]
  · intro i j odts m h hm
    obtain ⟨odts', g4, g5, g6⟩ := hget i odts h
    have hs := hsodt i j (hlt_of _ _ g4)
    show (d2.entities (slot d2 (.odt i j))).num = m
    rw [hs]
    rcases g6 j m hm with ⟨rfl, rfl, rfl⟩ | ⟨g7, g8⟩
    · rw [hk, hkn]
    · rw [hother _ (hodtne i j odts' g4 (hjlt _ _ _ g8) g7), hnum1]
      exact hr.odtNum i j odts' m g4 g8
  · intro x hx
    show slot d2 x < (d.entityCount + n) % 256
    rw [hcount]
    rcases hin x hx with ⟨g1, g2⟩ | ⟨e, -, g1, g2⟩
    · have := hr.inside x g1; omega
    · omega
  · intro x y hx hy he
    have he : slot d2 x = slot d2 y := he
    rcases hin x hx with ⟨g1, g2⟩ | ⟨e, e1, g1, g2⟩ <;> rcases hin y hy with ⟨g1', g2'⟩ | ⟨e', e1', g1', g2'⟩
    · exact hr.disjoint x y g1 g1' (by omega)
    · have := hr.inside x g1; omega
    · have := hr.inside y g1'; omega
    · have : e = e' := by omega
      subst this; rw [e1, e1']
  · intro i hi
    have hi : (d.entityCount + n) % 256 ≤ i := hi
    rw [hcount] at hi
    show (d2.entities i).w = 0
    rw [hother i (by omega), hw1]
    exact hr.fresh i (by omega)

/-- The pool holds the configuration, and the allocation commands can go on. -/
structure Held (cfg : Cfg) (d : Daq) (c : Conf) : Prop where
  rep : Rep cfg d c
  flat : Flat (phase d.allocState) c
  init : d.allocState ≠ .idle

theorem allocOk_rank (a : AllocState) (ha : a ≠ .idle) :
    (allocOk a .free = true) ∧
    (allocOk a .allocDaq = true ↔ phase a = 0 ∨ phase a = 1) ∧
    (allocOk a .allocOdt = true ↔ phase a = 1 ∨ phase a = 2) ∧
    (allocOk a .allocOdtEntry = true ↔ phase a = 2 ∨ phase a = 3) := by
  cases a <;> simp [allocOk, phase] at *

/-- What the slave takes the request for: ALLOC_DAQ's count is cut to 8 bits. -/
def cutReq : AllocReq → AllocReq
  | .daq n => .daq (n % 256)
  | .odt l n => .odt (l % 256) n
  | .entry l o n => .entry (l % 256) o n
  | .free => .free

/-- The answer to an allocation request. -/
theorem applyReq_code {cfg : Cfg} {d d' : Daq} {r : AllocReq} {a : UInt8} (hi : d.allocState ≠ .idle)
    (h : applyReq cfg d r = .ok (d', a)) :
    (¬ r.legal (phase d.allocState) → a = ERR_SEQUENCE ∧ d' = if cfg.resetOnSeqErr then daqInit d else d) ∧
    (r.legal (phase d.allocState) → cfg.maxEnt < d.entityCount + (cutReq r).size → r ≠ .free →
      a = ERR_MEMORY_OVERFLOW ∧ d' = d) ∧
    (r.legal (phase d.allocState) → r = .free ∨ d.entityCount + (cutReq r).size ≤ cfg.maxEnt →
      a = ERR_SUCCESS ∧ phase d'.allocState = r.rank ∧ d'.allocState ≠ .idle ∧
      d'.entityCount = if r = .free then 0 else (d.entityCount + (cutReq r).size) % 256) := by
  obtain ⟨f1, f2, f3, f4⟩ := allocOk_rank d.allocState hi
  cases r with
  | free =>
    simp only [applyReq, daqFreeResult, daqFree, f1, if_true, Except.ok.injEq, Prod.mk.injEq] at h
    obtain ⟨rfl, rfl⟩ := h
    simp [AllocReq.legal, AllocReq.rank, phase]
  | daq n =>
    simp only [applyReq, allocDaq, f2, Except.ok.injEq] at h
    have hl : (AllocReq.daq n).legal (phase d.allocState) ↔ phase d.allocState = 0 ∨ phase d.allocState = 1 := by
      simp only [AllocReq.legal, AllocReq.rank]; omega
    rw [hl]
    by_cases g : phase d.allocState = 0 ∨ phase d.allocState = 1
    · rw [if_neg (fun h => h g)] at h
      simp only [cutReq, AllocReq.size, AllocReq.rank]
      split at h <;> cases h
      · refine ⟨fun x => absurd g x, fun _ h => by omega, fun _ _ => ⟨rfl, rfl, by simp, by simp⟩⟩
      · refine ⟨fun x => absurd g x, fun _ _ _ => ⟨rfl, rfl⟩, fun _ h => ?_⟩
        rcases h with h | h
        · cases h
        · omega
    · rw [if_pos g] at h
      cases h
      exact ⟨fun _ => ⟨rfl, rfl⟩, fun x => absurd x g, fun x => absurd x g⟩
  | odt l n =>
    simp only [applyReq, allocOdt, f3] at h
    have hl : (AllocReq.odt l n).legal (phase d.allocState) ↔ phase d.allocState = 1 ∨ phase d.allocState = 2 := by
      simp only [AllocReq.legal, AllocReq.rank]; omega
    rw [hl]
    by_cases g : phase d.allocState = 1 ∨ phase d.allocState = 2
    · rw [if_neg (fun h => h g)] at h
      simp only [cutReq, AllocReq.size, AllocReq.rank]
      split at h
      · simp only [Daq.ent] at h
        split at h
        · cases h
          refine ⟨fun x => absurd g x, fun _ h => by omega, fun _ _ => ⟨rfl, rfl, by simp, by simp⟩⟩
        · cases h
      · cases h
        refine ⟨fun x => absurd g x, fun _ _ _ => ⟨rfl, rfl⟩, fun _ h => ?_⟩
        rcases h with h | h
        · cases h
        · omega
    · rw [if_pos g] at h
      cases h
      exact ⟨fun _ => ⟨rfl, rfl⟩, fun x => absurd x g, fun x => absurd x g⟩
  | entry l o n =>
    simp only [applyReq, allocOdtEntry, f4] at h
    have hl : (AllocReq.entry l o n).legal (phase d.allocState) ↔ phase d.allocState = 2 ∨ phase d.allocState = 3 := by
      simp only [AllocReq.legal, AllocReq.rank]; omega
    rw [hl]
    by_cases g : phase d.allocState = 2 ∨ phase d.allocState = 3
    · rw [if_neg (fun h => h g)] at h
      simp only [cutReq, AllocReq.size, AllocReq.rank]
      split at h
      · simp only [Daq.ent] at h
        split at h
        · simp only [ok_bind] at h
          split at h
          · cases h
            refine ⟨fun x => absurd g x, fun _ h => by omega, fun _ _ => ⟨rfl, rfl, by simp, by simp⟩⟩
          · cases h
        · cases h
      · cases h
        refine ⟨fun x => absurd g x, fun _ _ _ => ⟨rfl, rfl⟩, fun _ h => ?_⟩
        rcases h with h | h
        · cases h
        · omega
    · rw [if_pos g] at h
      cases h
      exact ⟨fun _ => ⟨rfl, rfl⟩, fun x => absurd x g, fun x => absurd x g⟩

/-- An accepted request for something that exists leads to the configuration asked for. -/
theorem held_accept {cfg : Cfg} (hc : cfg.Ok) {d : Daq} {c : Conf} (hh : Held cfg d c) {r : AllocReq}
    (ha : c.admits r) (hl : r.legal (phase d.allocState)) (hs : r = .free ∨ d.entityCount + r.size ≤ cfg.maxEnt) :
    ∃ d', applyReq cfg d r = .ok (d', ERR_SUCCESS) ∧ Held cfg d' (c.apply r) := by
  have hlt := hc.ent_lt
  obtain ⟨f1, f2, f3, f4⟩ := allocOk_rank d.allocState hh.init
  have hlens : c.length ≤ cfg.maxEnt := by
    have := hh.rep.fits
    unfold Conf.size at this; omega
  cases r with
  | free =>
    refine ⟨daqFree d, ?_, ?_⟩
    · simp only [applyReq, daqFreeResult, f1, if_true]
    · have e : daqFree d = { d with entityCount := 0, listCount := 0, odtCount := 0, listForEvent := fun _ => 0,
                                    entities := fun _ => Entity.zero, allocState := .afterFree } := by
        simp only [daqFree, f1, if_true]
      rw [e]
      exact ⟨rep_free cfg _ rfl rfl rfl (fun _ => rfl), flat_nil _, by simp⟩
  | daq n =>
    rcases hs with hs | hs
    · cases hs
    have hs : d.entityCount + n ≤ cfg.maxEnt := hs
    have g : phase d.allocState = 0 ∨ phase d.allocState = 1 := by
      simp only [AllocReq.legal, AllocReq.rank] at hl; omega
    have hfl : Flat 1 c := by
      rcases g with g | g
      · have := hh.flat.none g
        subst this; exact flat_nil 1
      · rw [← g]; exact hh.flat
    obtain ⟨h1, h2⟩ := rep_daq hc hh.rep hfl hs
    have hn : n % 256 = n := Nat.mod_eq_of_lt (by omega)
    refine ⟨_, ?_, h1, h2, by simp⟩
    simp only [applyReq, allocDaq, f2, hn]
    rw [if_neg (fun h => h g), if_pos hs]
  | odt l n =>
    rcases hs with hs | hs
    · cases hs
    have hs : d.entityCount + n ≤ cfg.maxEnt := hs
    have g : phase d.allocState = 1 ∨ phase d.allocState = 2 := by
      simp only [AllocReq.legal, AllocReq.rank] at hl; omega
    have hll : l < c.length := by
      apply Decidable.byContradiction; intro hn
      have ha : c[l]? = some [] := ha
      rw [show c[l]? = none from List.getElem?_eq_none (by omega)] at ha; cases ha
    have hfl : Flat 2 c := by
      refine ⟨by omega, by omega, fun _ => hh.flat.noEntries (by omega)⟩
    obtain ⟨h1, h2⟩ := rep_odt hc hh.rep hfl ha hs rfl rfl
    have hn : l % 256 = l := Nat.mod_eq_of_lt (by omega)
    refine ⟨_, ?_, h1, h2, by simp⟩
    simp only [applyReq, allocOdt, f3, hn]
    rw [if_neg (fun h => h g), if_pos hs]
    simp only [Daq.ent]
    rw [if_pos (by omega)]
    rfl
  | entry l o n =>
    rcases hs with hs | hs
    · cases hs
    have hs : d.entityCount + n ≤ cfg.maxEnt := hs
    have g : phase d.allocState = 2 ∨ phase d.allocState = 3 := by
      simp only [AllocReq.legal, AllocReq.rank] at hl; omega
    obtain ⟨os, ha1, ha2⟩ := ha
    have hll : l < c.length := by
      apply Decidable.byContradiction; intro hn
      rw [show c[l]? = none from List.getElem?_eq_none (by omega)] at ha1; cases ha1
    have hoo : o < os.length := by
      apply Decidable.byContradiction; intro hn
      rw [List.getElem?_eq_none (by omega)] at ha2; cases ha2
    have hsl := hh.rep.inside (.odt l o) ⟨os, ha1, hoo⟩
    have hll' := hh.rep.inside (.list l) hll
    obtain ⟨h1, h2⟩ := rep_entry hc hh.rep ha1 ha2 hs rfl rfl
    have hn : l % 256 = l := Nat.mod_eq_of_lt (by omega)
    refine ⟨_, ?_, h1, h2, by simp⟩
    simp only [applyReq, allocOdtEntry, f4, hn]
    rw [if_neg (fun h => h g), if_pos hs]
    have hsl' : (d.entities l).first + o < d.entityCount := hsl
    have hll'' : l < d.entityCount := hll'
    have hmr : ((d.mapRange d.entityCount n (fun e => { e with kind := 3 })).entities l) = d.entities l := by
      simp only [Daq.mapRange]; rw [if_neg (by omega)]
    simp only [Daq.ent]
    rw [if_pos (by omega)]
    simp only [ok_bind, hmr]
    rw [Nat.mod_eq_of_lt (by omega), if_pos (by omega)]
    rfl

end Xcp
