import Verif.Spec.Timeout
/-
C48: The transport time-out fires after the configured time.

False: the variable that holds the configured time is overwritten by every start, so the limit is
the timer value at the last start.  Soon after power-up the time-out fires too early, later
practically never.  What remains true: it fires only while the timer is started.
-/
set_option autoImplicit false
namespace Xcp
open Spec

/-- Relation between the code's timer and the reference timer. -/
def TimerRel (t : Timeout) (r : RefTimer) : Prop :=
  t.running = r.started ∧ t.func = r.func ∧ (t.running = true → t.value = r.since)

theorem timerRel_step {t : Timeout} {r : RefTimer} (h : TimerRel t r) (o : TimeoutOp) : TimerRel (t.step o).1 (r.step o) := by
  obtain ⟨h1, h2, h3⟩ := h
  cases o <;> simp_all [TimerRel, Timeout.step, RefTimer.step]

theorem timerRel_run {t : Timeout} {r : RefTimer} (h : TimerRel t r) (ops : List TimeoutOp) : TimerRel (t.run ops) (r.run ops) := by
  induction ops generalizing t r with
  | nil => exact h
  | cons o os ih => exact ih (timerRel_step h o)

/-- What the code does: the callback runs if and only if the timer is started and the time since the
last start or reset is greater than the timer value of that moment. -/
theorem C48_exact (ops : List TimeoutOp) (now : UInt32) :
    CallsBack ops now ↔ (RefTimer.boot.run ops).started = true ∧ (RefTimer.boot.run ops).func = true ∧
      (RefTimer.boot.run ops).since < now - (RefTimer.boot.run ops).since := by
  obtain ⟨h1, h2, h3⟩ := timerRel_run (t := Timeout.boot) (r := RefTimer.boot) ⟨rfl, rfl, by intro h; cases h⟩ ops
  unfold CallsBack
  simp only [Timeout.step, Bool.and_eq_true, decide_eq_true_eq]
  rw [← h1, ← h2]
  constructor
  · rintro ⟨⟨hr, hd⟩, hf⟩
    rw [h3 hr] at hd
    exact ⟨hr, hf, hd⟩
  · rintro ⟨hr, hf, hd⟩
    rw [h3 hr]
    exact ⟨⟨hr, hd⟩, hf⟩

/-- C48, partial: the callback never runs unless a function is set and the timer was started and not
stopped afterwards. -/
theorem C48_started_partial (ops : List TimeoutOp) (now : UInt32) (h : CallsBack ops now) :
    (RefTimer.boot.run ops).started = true ∧ (RefTimer.boot.run ops).func = true :=
  ⟨((C48_exact ops now).mp h).1, ((C48_exact ops now).mp h).2.1⟩

/-- C48 is false for every configured time: the callback does not run although the time has
passed … -/
theorem C48_fails_late (v : UInt16) :
    ∃ ops now, (RefTimer.boot.run (.init v true :: ops)).due now ∧ ¬ CallsBack (.init v true :: ops) now := by
  have hsub : ((0x80000000 : UInt32) + v.toUInt32 + 1 - 0x80000000).toNat = v.toNat + 1 := by
    have := v.toNat_lt
    rw [UInt32.toNat_sub, UInt32.toNat_add, UInt32.toNat_add]
    simp
    omega
  refine ⟨[.start 0x80000000], 0x80000000 + v.toUInt32 + 1, ⟨rfl, rfl, ?_⟩, ?_⟩
  · simp only [RefTimer.run, RefTimer.step]
    rw [UInt32.lt_iff_toNat_lt, hsub]
    have := v.toNat_lt
    simp
  · rw [C48_exact]
    simp only [RefTimer.run, RefTimer.step, true_and]
    rw [UInt32.lt_iff_toNat_lt, hsub]
    have := v.toNat_lt
    simp
    omega

/-- … and it runs one tick after the start, although the configured time (any but 0) has not
passed. -/
theorem C48_fails_early (v : UInt16) (hv : v ≠ 0) :
    ∃ ops now, ¬ (RefTimer.boot.run (.init v true :: ops)).due now ∧ CallsBack (.init v true :: ops) now := by
  refine ⟨[.start 0], 1, ?_, ?_⟩
  · rintro ⟨-, -, h⟩
    simp only [RefTimer.run, RefTimer.step] at h
    rw [UInt32.lt_iff_toNat_lt] at h
    have : v.toNat ≠ 0 := fun h => hv (UInt16.toNat_inj.mp h)
    simp at h
    omega
  · rw [C48_exact]
    exact ⟨rfl, rfl, by show (0 : UInt32) < 1 - 0; decide⟩

/-- Only a check calls the function: initialising, starting, stopping and resetting never do. -/
theorem C48_only_check (t : Timeout) (o : TimeoutOp) (h : (t.step o).2 = true) : ∃ now, o = .check now := by
  cases o with
  | check now => exact ⟨now, rfl⟩
  | _ => cases h

/-- With the value 100 that src/tl/sxi/xcp_tl.c uses: start at 1000 ms.  At 1101 ms nothing happens; it
takes until 2001 ms. -/
example : ¬ CallsBack [.init 100 true, .start 1000] 1101 ∧ ¬ CallsBack [.init 100 true, .start 1000] 2000 ∧
    CallsBack [.init 100 true, .start 1000] 2001 ∧ ¬ CallsBack [.init 100 true, .start 1000, .stop] 2001 := by
  unfold CallsBack
  decide

end Xcp
