import Verif.Model.Process
import Verif.Spec.Session
/-
C102: the end of the simulator.  When the user quits, the program should close the flash files, remove its locks, close its socket,
restore the terminal, and end with exit status 0.
-/
set_option autoImplicit false
namespace Xcp
open Spec

/-- The program ended as it should. -/
def Spec.EndedWell (p : Proc) : Prop :=
  p.ended = some (.code 0) ∧ (∀ u ∈ [Undo.flash, .locks, .transport, .goodbye], u ∈ p.undone) ∧ p.raw = false

/-- Until the end on POSIX systems. -/
structure PosixInv (p : Proc) : Prop where
  os : p.os = .posix
  undone : p.undone = []
  mapped : p.mapped = true
  raw : p.raw = (p.ui != .fresh)
  ended : p.ended = none ∧ (∃ n, n ≤ 3 ∧ p.acts = (mainActs .posix).drop n ∧ (0 < n → p.ui = .left)) ∨
    p.ended = some .interrupt ∧ p.ui = .left

theorem posix_start (c : Bool) (j : Nat) (o : Bool) : PosixInv (.start .posix c j o) :=
  ⟨rfl, rfl, rfl, rfl, Or.inl ⟨rfl, 0, by omega, rfl, fun h => by omega⟩⟩

theorem posix_step {p : Proc} (h : PosixInv p) (w : Who) : PosixInv (p.step w) := by
  obtain ⟨h1, h2, h3, h4, h5⟩ := h
  unfold Proc.step
  rcases h5 with ⟨h5, n, hn, ha, hu⟩ | ⟨h5, hu⟩
  · rw [if_neg (by simp [h5])]
    cases w with
    | main =>
      match n, hn with
      | 0, _ =>
        simp only [Proc.mainStep, ha, mainActs, List.drop_zero]
        split
        · next hl => exact ⟨h1, h2, h3, h4, Or.inl ⟨h5, 1, by omega, rfl, fun _ => hl⟩⟩
        · exact ⟨h1, h2, h3, h4, Or.inl ⟨h5, 0, by omega, ha, fun h => by omega⟩⟩
      | 1, _ =>
        simp only [Proc.mainStep, ha, mainActs, List.drop_succ_cons, List.drop_zero, Proc.act]
        split
        · exact ⟨h1, h2, h3, h4, Or.inl ⟨h5, 2, by omega, rfl, fun _ => hu (by omega)⟩⟩
        · exact ⟨h1, h2, h3, h4, Or.inl ⟨h5, 2, by omega, rfl, fun _ => hu (by omega)⟩⟩
      | 2, _ =>
        simp only [Proc.mainStep, ha, mainActs, List.drop_succ_cons, List.drop_zero, Proc.act]
        split
        · exact ⟨h1, h2, h3, h4, Or.inr ⟨rfl, hu (by omega)⟩⟩
        · exact ⟨h1, h2, h3, h4, Or.inl ⟨h5, 3, by omega, rfl, fun _ => hu (by omega)⟩⟩
      | 3, _ =>
        simp only [Proc.mainStep, ha, mainActs, List.drop_succ_cons, List.drop_zero, Proc.act]
        exact ⟨h1, h2, h3, h4, Or.inr ⟨rfl, hu (by omega)⟩⟩
    | ui quit =>
      simp only [Proc.uiStep, h1]
      split
      · next hf =>
        refine ⟨rfl, h2, h3, rfl, Or.inl ⟨h5, n, hn, ha, fun h => ?_⟩⟩
        rw [hu h] at hf; cases hf
      · next hl =>
        split
        · exact ⟨rfl, h2, h3, by rw [h4, hl]; rfl, Or.inl ⟨h5, n, hn, ha, fun _ => rfl⟩⟩
        · exact ⟨h1, h2, h3, h4, Or.inl ⟨h5, n, hn, ha, hu⟩⟩
      · exact ⟨h1, h2, h3, h4, Or.inl ⟨h5, n, hn, ha, hu⟩⟩
    | tl =>
      simp only [Proc.tlStep]
      split <;> exact ⟨h1, h2, h3, h4, Or.inl ⟨h5, n, hn, ha, hu⟩⟩
    | xcp =>
      simp only [Proc.xcpStep, h3]
      split
      · exact ⟨h1, h2, h3, h4, Or.inl ⟨h5, n, hn, ha, hu⟩⟩
      · exact ⟨h1, h2, rfl, h4, Or.inl ⟨h5, n, hn, ha, hu⟩⟩
  · rw [if_pos (by simp [h5])]
    exact ⟨h1, h2, h3, h4, Or.inr ⟨h5, hu⟩⟩

theorem posix_run {p : Proc} (h : PosixInv p) (ws : List Who) : PosixInv (p.run ws) := by
  induction ws generalizing p with
  | nil => exact h
  | cons w ws ih => exact ih (posix_step h w)

theorem ended_run {p : Proc} (h : p.ended.isSome = true) (ws : List Who) : p.run ws = p := by
  induction ws with
  | nil => rfl
  | cons w ws ih =>
    show (p.step w).run ws = p
    rw [show p.step w = p by simp [Proc.step, h]]
    exact ih

theorem run_app (p : Proc) (ws vs : List Who) : p.run (ws ++ vs) = (p.run ws).run vs := List.foldl_append

/-- C102 is false on POSIX systems: whatever the threads do, and in whatever order, the program never ends as it should. When it has
ended, the user has quit, the program was interrupted by its own signal, nothing was undone, and the terminal is left in raw mode. -/
theorem C102_fails_posix (c : Bool) (j : Nat) (o : Bool) (ws : List Who) :
    ¬ EndedWell ((Proc.start .posix c j o).run ws) ∧ ((Proc.start .posix c j o).run ws).undone = [] ∧
    (((Proc.start .posix c j o).run ws).ended ≠ none →
      ((Proc.start .posix c j o).run ws).ended = some .interrupt ∧ ((Proc.start .posix c j o).run ws).ui = .left ∧
      ((Proc.start .posix c j o).run ws).raw = true) := by
  have h := posix_run (posix_start c j o) ws
  refine ⟨?_, h.undone, ?_⟩
  · rintro ⟨-, h2, -⟩
    have := h2 .flash (by simp)
    rw [h.undone] at this
    cases this
  · intro he
    rcases h.ended with ⟨h5, -⟩ | ⟨h5, hu⟩
    · exact absurd h5 he
    · exact ⟨h5, hu, by rw [h.raw, hu]; rfl⟩

theorem posix_soon {p : Proc} (h : PosixInv p) (hu : p.ui = .left) : ∀ (vs : List Who) (m : Nat), p.acts.length ≤ 4 + m → m ≤ vs.count .main →
    0 < m → (p.run vs).ended = some .interrupt := by
  intro vs
  induction vs generalizing p with
  | nil => intro m _ h1 h2; simp at h1; omega
  | cons w vs ih =>
    intro m ha hm h0
    show ((p.step w).run vs).ended = _
    have hs := posix_step h w
    rcases hs.ended with ⟨he, n, hn, hacts, -⟩ | ⟨he, -⟩
    · have hpe : p.ended = none := by
        cases hpe : p.ended with
        | none => rfl
        | some e =>
          have : p.step w = p := by simp [Proc.step, hpe]
          rw [this, hpe] at he
          cases he
      have hus : (p.step w).ui = .left := by
        have := h.ended
        simp only [Proc.step, hpe, Option.isSome_none, Bool.false_eq_true, if_false]
        cases w with
        | main =>
          rcases this with ⟨-, n, hn, ha', -⟩ | ⟨h', -⟩
          · match n, hn with
            | 0, _ => simp only [Proc.mainStep, ha', mainActs, List.drop_zero, hu, if_true]
            | 1, _ => simp only [Proc.mainStep, ha', mainActs, List.drop_succ_cons, List.drop_zero, Proc.act]; split <;> exact hu
            | 2, _ => simp only [Proc.mainStep, ha', mainActs, List.drop_succ_cons, List.drop_zero, Proc.act]; split <;> exact hu
            | 3, _ => simp only [Proc.mainStep, ha', mainActs, List.drop_succ_cons, List.drop_zero, Proc.act]; exact hu
          · rw [hpe] at h'; cases h'
        | ui q => simp only [Proc.uiStep, hu]
        | tl => simp only [Proc.tlStep]; split <;> exact hu
        | xcp => simp only [Proc.xcpStep]; split <;> (try split) <;> exact hu
      by_cases hw : w = .main
      · subst hw
        have hlen : (p.step .main).acts.length + 1 = p.acts.length := by
          simp only [Proc.step, hpe, Option.isSome_none, Bool.false_eq_true, if_false]
          rcases h.ended with ⟨-, n, hn, ha', -⟩ | ⟨h', -⟩
          · match n, hn with
            | 0, _ => simp only [Proc.mainStep, ha', mainActs, List.drop_zero, hu, if_true, List.length_cons]
            | 1, _ => simp only [Proc.mainStep, ha', mainActs, List.drop_succ_cons, List.drop_zero, List.length_cons]
            | 2, _ => simp only [Proc.mainStep, ha', mainActs, List.drop_succ_cons, List.drop_zero, List.length_cons]
            | 3, _ => simp only [Proc.mainStep, ha', mainActs, List.drop_succ_cons, List.drop_zero, List.length_cons]
          · rw [hpe] at h'; cases h'
        have hl5 : 5 ≤ (p.step .main).acts.length := by
          rw [hacts]; simp [mainActs]; omega
        rw [List.count_cons_self] at hm
        exact ih hs hus (m - 1) (by omega) (by omega) (by omega)
      · rw [List.count_cons_of_ne (by simpa using hw)] at hm
        have hacts' : (p.step w).acts = p.acts := by
          simp only [Proc.step, hpe, Option.isSome_none, Bool.false_eq_true, if_false]
          cases w with
          | main => exact absurd rfl hw
          | ui q => simp only [Proc.uiStep, hu]
          | tl => simp only [Proc.tlStep]; split <;> rfl
          | xcp => simp only [Proc.xcpStep]; split <;> (try split) <;> rfl
        exact ih hs hus m (by rw [hacts']; exact ha) hm h0
    · rw [ended_run (by simp [he]), he]

/-- On POSIX systems the program does end: when the user has quit, four steps of the main thread later at the latest, whatever the other
threads do meanwhile. -/
theorem C102_posix_ends {c : Bool} {j : Nat} {o : Bool} {ws vs : List Who} (hu : ((Proc.start .posix c j o).run ws).ui = .left) (hv : 4 ≤ vs.count .main) :
    ((Proc.start .posix c j o).run (ws ++ vs)).ended = some .interrupt := by
  rw [run_app]
  have h := posix_run (posix_start c j o) ws
  rcases h.ended with ⟨-, n, -, ha, -⟩ | ⟨he, -⟩
  · refine posix_soon h hu vs (4) ?_ hv (by omega)
    rw [ha]; simp [mainActs]
  · rw [ended_run (by simp [he]), he]

/-- Until the end on Windows. -/
structure WinInv (p : Proc) : Prop where
  os : p.os = .windows
  opened : p.opened = true
  raw : p.raw = false
  handlers : p.handlers = [.goodbye]
  ended : (p.ended = none ∧ ∃ n, n ≤ 5 ∧ p.acts = (mainActs .windows).drop n ∧ p.undone = [Undo.flash, .locks, .transport].take (n - 2) ∧
      p.mapped = decide (n < 3) ∧ (0 < n → p.ui = .left)) ∨
    (p.ended = some (.code 0) ∧ p.undone = [.flash, .locks, .transport, .goodbye] ∧ p.ui = .left) ∨
    (p.ended = some .violation ∧ .flash ∈ p.undone ∧ 0 < p.job ∧ p.ui = .left)

theorem win_start (c : Bool) (j : Nat) : WinInv (.start .windows c j true) :=
  ⟨rfl, rfl, rfl, rfl, Or.inl ⟨rfl, 0, by omega, rfl, rfl, rfl, fun h => by omega⟩⟩

theorem win_step {p : Proc} (h : WinInv p) (w : Who) : WinInv (p.step w) := by
  obtain ⟨h1, ho, h2, h3, h5⟩ := h
  unfold Proc.step
  rcases h5 with ⟨h5, n, hn, ha, hd, hm, hu⟩ | h5 | h5
  · rw [if_neg (by simp [h5])]
    cases w with
    | main =>
      match n, hn with
      | 0, _ =>
        simp only [Proc.mainStep, ha, mainActs, List.drop_zero]
        split
        · next hl => exact ⟨h1, ho, h2, h3, Or.inl ⟨h5, 1, by omega, rfl, hd, hm, fun _ => hl⟩⟩
        · exact ⟨h1, ho, h2, h3, Or.inl ⟨h5, 0, by omega, ha, hd, hm, fun h => by omega⟩⟩
      | 1, _ =>
        simp only [Proc.mainStep, ha, mainActs, List.drop_succ_cons, List.drop_zero, Proc.act]
        split
        · exact ⟨h1, ho, h2, h3, Or.inl ⟨h5, 2, by omega, rfl, hd, hm, fun _ => hu (by omega)⟩⟩
        · exact ⟨h1, ho, h2, h3, Or.inl ⟨h5, 2, by omega, rfl, hd, hm, fun _ => hu (by omega)⟩⟩
      | 2, _ =>
        simp only [Proc.mainStep, ha, mainActs, List.drop_succ_cons, List.drop_zero, Proc.act, Proc.undo, ho, reduceCtorEq, and_false, false_and, if_false]
        exact ⟨h1, rfl, by simp [h2], h3, Or.inl ⟨h5, 3, by omega, rfl, by simp [hd], by simp, fun _ => hu (by omega)⟩⟩
      | 3, _ =>
        simp only [Proc.mainStep, ha, mainActs, List.drop_succ_cons, List.drop_zero, Proc.act, Proc.undo, ho, reduceCtorEq, and_false, false_and, if_false]
        exact ⟨h1, rfl, by simp [h2], h3, Or.inl ⟨h5, 4, by omega, rfl, by simp [hd], by simp [hm], fun _ => hu (by omega)⟩⟩
      | 4, _ =>
        simp only [Proc.mainStep, ha, mainActs, List.drop_succ_cons, List.drop_zero, Proc.act, Proc.undo, ho, reduceCtorEq, and_false, false_and, if_false]
        exact ⟨h1, rfl, by simp [h2], h3, Or.inl ⟨h5, 5, by omega, rfl, by simp [hd], by simp [hm], fun _ => hu (by omega)⟩⟩
      | 5, _ =>
        simp only [Proc.mainStep, ha, mainActs, List.drop_succ_cons, List.drop_zero, Proc.act, Proc.exit, h3, List.foldr_cons, List.foldr_nil, Proc.undo]
        exact ⟨h1, ho, by simp [h2], rfl, Or.inr (Or.inl ⟨rfl, by simp [hd], hu (by omega)⟩)⟩
    | ui quit =>
      simp only [Proc.uiStep, h1]
      split
      · next hf =>
        refine ⟨rfl, ho, h2, h3, Or.inl ⟨h5, n, hn, ha, hd, hm, fun h => ?_⟩⟩
        rw [hu h] at hf; cases hf
      · split
        · exact ⟨rfl, ho, h2, h3, Or.inl ⟨h5, n, hn, ha, hd, hm, fun _ => rfl⟩⟩
        · exact ⟨h1, ho, h2, h3, Or.inl ⟨h5, n, hn, ha, hd, hm, hu⟩⟩
      · exact ⟨h1, ho, h2, h3, Or.inl ⟨h5, n, hn, ha, hd, hm, hu⟩⟩
    | tl =>
      simp only [Proc.tlStep]
      split <;> exact ⟨h1, ho, h2, h3, Or.inl ⟨h5, n, hn, ha, hd, hm, hu⟩⟩
    | xcp =>
      simp only [Proc.xcpStep]
      split
      · exact ⟨h1, ho, h2, h3, Or.inl ⟨h5, n, hn, ha, hd, hm, hu⟩⟩
      · next k hk =>
        split
        · exact ⟨h1, ho, h2, h3, Or.inl ⟨h5, n, hn, ha, hd, hm, hu⟩⟩
        · next hmp =>
          have h3n : 3 ≤ n := by
            rw [hm] at hmp; simp at hmp; exact hmp
          refine ⟨h1, ho, h2, h3, Or.inr (Or.inr ⟨rfl, ?_, by show 0 < p.job; omega, hu (by omega)⟩)⟩
          show Undo.flash ∈ p.undone
          obtain ⟨m, rfl⟩ : ∃ m, n = m + 3 := ⟨n - 3, by omega⟩
          rw [hd, show m + 3 - 2 = m + 1 by omega]
          simp
  · rw [if_pos (by simp [h5.1])]
    exact ⟨h1, ho, h2, h3, Or.inr (Or.inl h5)⟩
  · rw [if_pos (by simp [h5.1])]
    exact ⟨h1, ho, h2, h3, Or.inr (Or.inr h5)⟩

theorem quit_run {p : Proc} (h : WinInv p) (ws : List Who) : WinInv (p.run ws) := by
  induction ws generalizing p with
  | nil => exact h
  | cons w ws ih => exact ih (win_step h w)

theorem job_run {p : Proc} (ws : List Who) (h : p.job = 0) : (p.run ws).job = 0 := by
  induction ws generalizing p with
  | nil => exact h
  | cons w ws ih =>
    apply ih
    have hexit : ∀ q : Proc, ∀ us : List Undo, (us.foldr (fun u q => q.undo u) q).job = q.job := by
      intro q us
      induction us with
      | nil => rfl
      | cons u us ih => exact ih
    unfold Proc.step
    split
    · exact h
    · cases w with
      | main =>
        simp only [Proc.mainStep]
        split
        · exact h
        · split <;> exact h
        · next a as _ _ =>
          cases a with
          | leave => exact (hexit p p.handlers).trans h
          | _ => simp only [Proc.act, Proc.undo] <;> (try split) <;> exact h
      | ui q => simp only [Proc.uiStep]; split <;> (try split) <;> exact h
      | tl => simp only [Proc.tlStep]; split <;> exact h
      | xcp => simp only [Proc.xcpStep, h]

/-- C102 on Windows, partial: whatever the threads do, and in whatever order, the program ends only when the user has quit; it ends as it should, or
(when a checksum or a block was under way) with an access to flash memory that is no longer mapped. -/
theorem C102_windows_partial (c : Bool) (j : Nat) (ws : List Who) (he : ((Proc.start .windows c j true).run ws).ended ≠ none) :
    ((Proc.start .windows c j true).run ws).ui = .left ∧
    (EndedWell ((Proc.start .windows c j true).run ws) ∨
      ((Proc.start .windows c j true).run ws).ended = some .violation ∧ .flash ∈ ((Proc.start .windows c j true).run ws).undone ∧
      0 < ((Proc.start .windows c j true).run ws).job) := by
  have h := quit_run (win_start c j) ws
  rcases h.ended with ⟨h5, -⟩ | ⟨h5, hd, hu⟩ | ⟨h5, hd, hj, hu⟩
  · exact absurd h5 he
  · exact ⟨hu, Or.inl ⟨h5, by rw [hd]; simp, h.raw⟩⟩
  · exact ⟨hu, Or.inr ⟨h5, hd, hj⟩⟩

/-- When no checksum or block is under way any more, and the program has not ended then, it ends as it should. -/
theorem C102_windows_idle {c : Bool} {j : Nat} {ws vs : List Who} (hj : ((Proc.start .windows c j true).run ws).job = 0)
    (he : ((Proc.start .windows c j true).run (ws ++ vs)).ended ≠ none) : EndedWell ((Proc.start .windows c j true).run (ws ++ vs)) := by
  rcases (C102_windows_partial c j (ws ++ vs) he).2 with h | ⟨-, -, h⟩
  · exact h
  · have := job_run vs hj
    rw [← run_app] at this
    omega

theorem win_soon {p : Proc} (h : WinInv p) (hu : p.ui = .left) : ∀ (vs : List Who) (m : Nat), p.acts.length ≤ m → m ≤ vs.count .main →
    (p.run vs).ended ≠ none := by
  intro vs
  induction vs generalizing p with
  | nil =>
    intro m ha hm he
    rcases h.ended with ⟨-, n, hn, ha', -⟩ | ⟨h5, -⟩ | ⟨h5, -⟩
    · rw [ha'] at ha
      simp [mainActs] at ha hm
      omega
    · rw [show p.run [] = p from rfl, h5] at he; cases he
    · rw [show p.run [] = p from rfl, h5] at he; cases he
  | cons w vs ih =>
    intro m ha hm
    show ((p.step w).run vs).ended ≠ none
    have hs := win_step h w
    rcases h.ended with ⟨hpe, n, hn, ha', -⟩ | ⟨h5, -⟩ | ⟨h5, -⟩
    · by_cases hw : w = .main
      · subst hw
        rw [List.count_cons_self] at hm
        have key : (p.step .main).acts.length + 1 = p.acts.length ∧ (p.step .main).ui = .left := by
          simp only [Proc.step, hpe, Option.isSome_none, Bool.false_eq_true, if_false]
          match n, hn with
          | 0, _ => simp only [Proc.mainStep, ha', mainActs, List.drop_zero, hu, if_true, List.length_cons, and_self]
          | 1, _ =>
            simp only [Proc.mainStep, ha', mainActs, List.drop_succ_cons, List.drop_zero, List.length_cons, Proc.act, true_and]
            split <;> (try split) <;> exact hu
          | 2, _ => simpa only [Proc.mainStep, ha', mainActs, List.drop_succ_cons, List.drop_zero, List.length_cons, Proc.act, Proc.undo, h.opened, reduceCtorEq, and_false, false_and, if_false, true_and] using hu
          | 3, _ => simpa only [Proc.mainStep, ha', mainActs, List.drop_succ_cons, List.drop_zero, List.length_cons, Proc.act, Proc.undo, h.opened, reduceCtorEq, and_false, false_and, if_false, true_and] using hu
          | 4, _ => simpa only [Proc.mainStep, ha', mainActs, List.drop_succ_cons, List.drop_zero, List.length_cons, Proc.act, Proc.undo, h.opened, reduceCtorEq, and_false, false_and, if_false, true_and] using hu
          | 5, _ =>
            simpa only [Proc.mainStep, ha', mainActs, List.drop_succ_cons, List.drop_zero, List.length_cons, List.length_nil, Proc.act, Proc.exit, h.handlers,
              List.foldr_cons, List.foldr_nil, Proc.undo, true_and] using hu
        exact ih hs key.2 (m - 1) (by omega) (by omega)
      · rw [List.count_cons_of_ne (by simpa using hw)] at hm
        have key : (p.step w).acts = p.acts ∧ (p.step w).ui = .left := by
          simp only [Proc.step, hpe, Option.isSome_none, Bool.false_eq_true, if_false]
          cases w with
          | main => exact absurd rfl hw
          | ui q => simp only [Proc.uiStep, hu, and_self]
          | tl => simp only [Proc.tlStep]; split <;> exact ⟨rfl, hu⟩
          | xcp => simp only [Proc.xcpStep]; split <;> (try split) <;> exact ⟨rfl, hu⟩
        exact ih hs key.2 m (by rw [key.1]; exact ha) hm
    · rw [show p.step w = p by simp [Proc.step, h5], ended_run (by simp [h5]), h5]; simp
    · rw [show p.step w = p by simp [Proc.step, h5], ended_run (by simp [h5]), h5]; simp

/-- On Windows the program ends: when the user has quit, six steps of the main thread later at the latest. -/
theorem C102_windows_ends {c : Bool} {j : Nat} {ws vs : List Who} (hu : ((Proc.start .windows c j true).run ws).ui = .left) (hv : 6 ≤ vs.count .main) :
    ((Proc.start .windows c j true).run (ws ++ vs)).ended ≠ none := by
  rw [run_app]
  have h := quit_run (win_start c j) ws
  rcases h.ended with ⟨-, n, -, ha, -⟩ | ⟨he, -⟩ | ⟨he, -⟩
  · refine win_soon h hu vs 6 ?_ hv
    rw [ha]; simp [mainActs]
  · rw [ended_run (by simp [he]), he]; simp
  · rw [ended_run (by simp [he]), he]; simp

/-- C102 is false on Windows: with any job under way the program may end with an invalid access. -/
theorem C102_fails_windows (c : Bool) (j : Nat) :
    ((Proc.start .windows c (j + 1) true).run [.ui false, .ui true, .main, .main, .main, .xcp]).ended = some .violation := rfl

/-- Until the end on Windows, if the flash memory was never opened. -/
structure ShutInv (p : Proc) : Prop where
  os : p.os = .windows
  opened : p.opened = false
  mapped : p.mapped = true
  undone : p.undone = []
  ended : (p.ended = none ∧ ∃ n, n ≤ 2 ∧ p.acts = (mainActs .windows).drop n ∧ (0 < n → p.ui = .left)) ∨
    (p.ended = some .violation ∧ p.ui = .left)

theorem shut_step {p : Proc} (h : ShutInv p) (w : Who) : ShutInv (p.step w) := by
  obtain ⟨h1, ho, hm, hd, h5⟩ := h
  unfold Proc.step
  rcases h5 with ⟨h5, n, hn, ha, hu⟩ | h5
  · rw [if_neg (by simp [h5])]
    cases w with
    | main =>
      match n, hn with
      | 0, _ =>
        simp only [Proc.mainStep, ha, mainActs, List.drop_zero]
        split
        · next hl => exact ⟨h1, ho, hm, hd, Or.inl ⟨h5, 1, by omega, rfl, fun _ => hl⟩⟩
        · exact ⟨h1, ho, hm, hd, Or.inl ⟨h5, 0, by omega, ha, fun h => by omega⟩⟩
      | 1, _ =>
        simp only [Proc.mainStep, ha, mainActs, List.drop_succ_cons, List.drop_zero, Proc.act]
        split
        · exact ⟨h1, ho, hm, hd, Or.inl ⟨h5, 2, by omega, rfl, fun _ => hu (by omega)⟩⟩
        · exact ⟨h1, ho, hm, hd, Or.inl ⟨h5, 2, by omega, rfl, fun _ => hu (by omega)⟩⟩
      | 2, _ =>
        simp only [Proc.mainStep, ha, mainActs, List.drop_succ_cons, List.drop_zero, Proc.act, ho, and_self, if_true]
        exact ⟨h1, rfl, hm, hd, Or.inr ⟨rfl, hu (by omega)⟩⟩
    | ui quit =>
      simp only [Proc.uiStep, h1]
      split
      · next hf =>
        refine ⟨rfl, ho, hm, hd, Or.inl ⟨h5, n, hn, ha, fun h => ?_⟩⟩
        rw [hu h] at hf; cases hf
      · split
        · exact ⟨rfl, ho, hm, hd, Or.inl ⟨h5, n, hn, ha, fun _ => rfl⟩⟩
        · exact ⟨h1, ho, hm, hd, Or.inl ⟨h5, n, hn, ha, hu⟩⟩
      · exact ⟨h1, ho, hm, hd, Or.inl ⟨h5, n, hn, ha, hu⟩⟩
    | tl =>
      simp only [Proc.tlStep]
      split <;> exact ⟨h1, ho, hm, hd, Or.inl ⟨h5, n, hn, ha, hu⟩⟩
    | xcp =>
      simp only [Proc.xcpStep, hm]
      split
      · exact ⟨h1, ho, hm, hd, Or.inl ⟨h5, n, hn, ha, hu⟩⟩
      · exact ⟨h1, ho, rfl, hd, Or.inl ⟨h5, n, hn, ha, hu⟩⟩
  · rw [if_pos (by simp [h5.1])]
    exact ⟨h1, ho, hm, hd, Or.inr h5⟩

/-- C102 is false on Windows in the example application, whose flash memory is never opened: whatever the threads do, when the program
has ended it was by an invalid access after the user has quit, and nothing was undone. -/
theorem C102_fails_flash (c : Bool) (j : Nat) (ws : List Who) :
    ¬ EndedWell ((Proc.start .windows c j false).run ws) ∧ ((Proc.start .windows c j false).run ws).undone = [] ∧
    (((Proc.start .windows c j false).run ws).ended ≠ none →
      ((Proc.start .windows c j false).run ws).ended = some .violation ∧ ((Proc.start .windows c j false).run ws).ui = .left) := by
  have key : ∀ (p : Proc) (ws : List Who), ShutInv p → ShutInv (p.run ws) := by
    intro p ws
    induction ws generalizing p with
    | nil => exact fun h => h
    | cons w ws ih => exact fun h => ih _ (shut_step h w)
  have h := key _ ws (⟨rfl, rfl, rfl, rfl, Or.inl ⟨rfl, 0, by omega, rfl, fun h => by omega⟩⟩ : ShutInv (.start .windows c j false))
  refine ⟨?_, h.undone, ?_⟩
  · rintro ⟨-, h2, -⟩
    have := h2 .flash (by simp)
    rw [h.undone] at this
    cases this
  · intro he
    rcases h.ended with ⟨h5, -⟩ | h5
    · exact absurd h5 he
    · exact h5

example : ((Proc.start .windows false 0 false).run [.ui false, .ui true, .main, .main, .main]).ended = some .violation := by decide

theorem undo_fold (p : Proc) : ∀ us : List Undo, (us.foldr (fun u q => q.undo u) p).undone = p.undone ++ us.reverse ∧
    (us.foldr (fun u q => q.undo u) p).raw = (p.raw && !us.contains .terminal) ∧ (us.foldr (fun u q => q.undo u) p).mapped = (p.mapped && !us.contains .flash)
  | [] => by simp
  | u :: us => by
    obtain ⟨h1, h2, h3⟩ := undo_fold p us
    rw [List.foldr_cons]
    generalize us.foldr (fun u q => q.undo u) p = q at *
    simp only [Proc.undo, h1, h2, h3]
    refine ⟨by simp, ?_, ?_⟩
    · cases u <;> cases p.raw <;> simp
    · cases u <;> cases p.mapped <;> simp

/-- If the program came to its end on POSIX systems, the handlers registered would be called in reverse order, and restore the terminal; nothing else
would change. -/
theorem C102_exit (p : Proc) (n : Nat) : p.exit n = { p with
    undone := p.undone ++ p.handlers.reverse, raw := p.raw && !p.handlers.contains .terminal,
    mapped := p.mapped && !p.handlers.contains .flash, ended := some (.code n) } := by
  have hrest : ∀ us : List Undo, us.foldr (fun u q => q.undo u) p = { p with
      undone := (us.foldr (fun u q => q.undo u) p).undone, raw := (us.foldr (fun u q => q.undo u) p).raw,
      mapped := (us.foldr (fun u q => q.undo u) p).mapped } := by
    intro us
    induction us with
    | nil => rfl
    | cons u us ih =>
      simp only [List.foldr_cons]
      generalize us.foldr (fun u q => q.undo u) p = q at *
      rw [ih]; rfl
  obtain ⟨h1, h2, h3⟩ := undo_fold p p.handlers
  unfold Proc.exit
  rw [hrest, h1, h2, h3]

example : (((Proc.start .posix false 0 true).run [.ui false, .ui true]).exit 0).raw = false := by decide

/-- With Ethernet (which cannot be cancelled), a job under way, and the user interface in use for a while. -/
example : (Proc.start .posix false 3 true).run [.xcp, .ui false, .main, .ui false, .tl, .ui true, .main, .xcp, .main, .tl, .xcp, .main, .main, .main] =
    { Proc.start .posix false 0 true with
      acts := [.killXcp, .undo .flash, .undo .locks, .undo .transport, .leave], ui := .left, asked := true, shutting := true, raw := true,
      handlers := [.goodbye, .terminal], ended := some .interrupt } := by decide

/-- On CAN the thread of the transport layer was cancelled before the first signal; the second one ends the program. -/
example : ((Proc.start .posix true 0 true).run [.ui false, .ui true, .main, .main, .tl, .main, .main, .main]).ended = some .interrupt ∧
    ((Proc.start .posix true 0 true).run [.ui false, .ui true, .main, .main, .tl, .main]).ended = none := by decide

/-- On Windows. -/
example : EndedWell ((Proc.start .windows false 1 true).run [.ui false, .ui true, .main, .main, .xcp, .main, .xcp, .main, .main, .main]) := by
  refine ⟨by decide, by decide, by decide⟩

example : ((Proc.start .windows false 1 true).run [.ui false, .ui true, .main, .main, .xcp, .main, .xcp, .main, .main, .main]).undone =
    [.flash, .locks, .transport, .goodbye] := by decide

end Xcp
