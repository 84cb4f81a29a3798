import Verif.Proofs.Refuse
/-
Where a condition on the state comes from in a history.
-/
set_option autoImplicit false
namespace Xcp
open Spec

/-- In the history `h` starting in `s`, no operation is an `E` (a property of the operation
and of the state it is executed in). -/
def Spec.Without (cfg : Cfg) (E : St → Env × Op → Prop) : St → List (Env × Op) → Prop
  | _, [] => True
  | s, x :: rest => ¬ E s x ∧ ∀ s', step cfg x.1 s x.2 = .ok s' → Without cfg E s' rest

/-- The history `h` starting in `s` contains an `S` that is followed by no `E`. -/
def Spec.SinceIn (cfg : Cfg) (S E : St → Env × Op → Prop) (s : St) (h : List (Env × Op)) : Prop :=
  ∃ h1 x h2 s1 s2, h = h1 ++ x :: h2 ∧ run cfg s h1 = .ok s1 ∧ S s1 x ∧
    step cfg x.1 s1 x.2 = .ok s2 ∧ Without cfg E s2 h2

theorem origin {cfg : Cfg} {Q : St → Prop} {S E : St → Env × Op → Prop}
    (hstep : ∀ x s s', step cfg x.1 s x.2 = .ok s' → Q s' → (Q s ∧ ¬ E s x) ∨ S s x)
    {h : List (Env × Op)} {s0 s : St} (hr : run cfg s0 h = .ok s) (hq : Q s) :
    (Q s0 ∧ Without cfg E s0 h) ∨ SinceIn cfg S E s0 h := by
  induction h generalizing s0 with
  | nil => cases hr; exact Or.inl ⟨hq, trivial⟩
  | cons x rest ih =>
    obtain ⟨s1, h1, h2⟩ := run_cons_ok hr
    rcases ih h2 with ⟨h3, h4⟩ | ⟨g1, y, g2, t1, t2, h3, h4, h5, h6, h7⟩
    · rcases hstep x s0 s1 h1 h3 with ⟨h5, h6⟩ | h5
      · refine Or.inl ⟨h5, h6, ?_⟩
        intro s1' h1'
        rw [h1] at h1'
        cases h1'
        exact h4
      · exact Or.inr ⟨[], x, rest, s0, s1, rfl, rfl, h5, h1, h4⟩
    · refine Or.inr ⟨x :: g1, y, g2, t1, t2, by rw [h3]; rfl, ?_, h5, h6, h7⟩
      obtain ⟨env, op⟩ := x
      simp only [run]
      rw [h1]
      exact h4

/-- Without an `S` that is followed by no `E`, the condition does not hold. -/
theorem origin_none {cfg : Cfg} {Q : St → Prop} {S E : St → Env × Op → Prop}
    (hstep : ∀ x s s', step cfg x.1 s x.2 = .ok s' → Q s' → (Q s ∧ ¬ E s x) ∨ S s x)
    {h : List (Env × Op)} {s0 s : St} (hr : run cfg s0 h = .ok s) (h0 : ¬ Q s0)
    (hno : ¬ SinceIn cfg S E s0 h) : ¬ Q s := by
  intro hq
  rcases origin hstep hr hq with ⟨h1, -⟩ | h1
  · exact h0 h1
  · exact hno h1

/-- The condition persists through a history without an `E`. -/
theorem persists {cfg : Cfg} {Q : St → Prop} {E : St → Env × Op → Prop}
    (hstep : ∀ x s s', step cfg x.1 s x.2 = .ok s' → Q s → ¬ E s x → Q s')
    {h : List (Env × Op)} {s0 s : St} (hr : run cfg s0 h = .ok s) (hq : Q s0) (hw : Without cfg E s0 h) : Q s := by
  induction h generalizing s0 with
  | nil => cases hr; exact hq
  | cons x rest ih =>
    obtain ⟨s1, h1, h2⟩ := run_cons_ok hr
    exact ih h2 (hstep x s0 s1 h1 hq hw.1) (hw.2 s1 h1)

end Xcp
