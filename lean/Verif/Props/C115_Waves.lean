import Verif.Model.Waves
/-
C115: the signals of the Arduino sketch are a triangle between its limits and square waves that compare it, delayed, with a level; the
"EVT 10ms" event comes every 10 ms.

The signals of the sketch are right (`C115_signals`).  A triangle with a lower limit above 0 starts outside of its limits
(`C115_fails_start`), and one with the upper limit 0 leaves them (`C115_fails_zero`).  Two events are at least 10 ms apart
(`C115_spaced`), and no pass of `loop` after 10 ms misses the event (`C115_prompt`), but the delays add up: the event is not periodic
(`C115_fails_period`).
-/
set_option autoImplicit false
namespace Xcp
namespace Spec end Spec
open Spec

/-- A triangle between `lo` and `hi` that starts at `lo`, after `n` steps. -/
def Spec.tri (lo hi n : Nat) : Nat :=
  let k := n % (2 * (hi - lo))
  if k ≤ hi - lo then lo + k else hi - (k - (hi - lo))

/-- `n` steps of a triangle. -/
def Triangle.steps (t : Triangle) : Nat → Triangle
  | 0 => t
  | n + 1 => (t.steps n).step

/-- The input of the last `update`s, `n` of them with the values `f 0`, `f 1`, …. -/
def Square.updates (q : Square) (f : Nat → UInt16) : Nat → Square
  | 0 => q
  | n + 1 => (q.updates f n).update (f n)

/-- `n` ticks of the sketch. -/
def Waves.ticks (w : Waves) : Nat → Waves
  | 0 => w
  | n + 1 => (w.ticks n).tick

/-- The triangle at position `k` of its period: rising before the top, falling from the top on. -/
def Triangle.at (t : Triangle) (lo hi k : Nat) : Prop :=
  t.min.toNat = lo ∧ t.max.toNat = hi ∧
  (if k < hi - lo then t.wave.toNat = lo + k ∧ t.positive = true else t.wave.toNat = hi - (k - (hi - lo)) ∧ t.positive = false)

theorem Triangle.at_step {t : Triangle} {lo hi k : Nat} (hl : lo < hi) (hk : k < 2 * (hi - lo)) (h : t.at lo hi k) :
    t.step.at lo hi ((k + 1) % (2 * (hi - lo))) := by
  obtain ⟨h1, h2, h3⟩ := h
  have hmax := t.max.toNat_lt
  split at h3
  · next hlt =>
    obtain ⟨h3, h4⟩ := h3
    have hw : (t.wave + 1).toNat = lo + k + 1 := by
      rw [UInt16.toNat_add, h3]
      show (lo + k + 1) % 65536 = _
      omega
    rw [Nat.mod_eq_of_lt (by omega)]
    unfold Triangle.step
    rw [if_pos h4]
    by_cases hm : t.max ≤ t.wave + 1
    · rw [if_pos hm]
      have := UInt16.le_iff_toNat_le.mp hm
      refine ⟨h1, h2, ?_⟩
      rw [if_neg (by omega)]
      exact ⟨by show t.max.toNat = _; omega, rfl⟩
    · rw [if_neg hm]
      have : ¬ t.max.toNat ≤ (t.wave + 1).toNat := fun h => hm (UInt16.le_iff_toNat_le.mpr h)
      refine ⟨h1, h2, ?_⟩
      rw [if_pos (by omega)]
      exact ⟨by show (t.wave + 1).toNat = _; omega, h4⟩
  · next hlt =>
    obtain ⟨h3, h4⟩ := h3
    have hw : (t.wave - 1).toNat = t.wave.toNat - 1 := UInt16.toNat_sub_of_le _ _ (UInt16.le_iff_toNat_le.mpr (by
      show 1 ≤ t.wave.toNat; omega))
    unfold Triangle.step
    rw [if_neg (by rw [h4]; decide)]
    by_cases hm : t.wave - 1 ≤ t.min
    · rw [if_pos hm]
      have := UInt16.le_iff_toNat_le.mp hm
      have hk1 : k + 1 = 2 * (hi - lo) := by omega
      rw [hk1, Nat.mod_self]
      refine ⟨h1, h2, ?_⟩
      rw [if_pos (by omega)]
      exact ⟨by show t.min.toNat = _; omega, rfl⟩
    · rw [if_neg hm]
      have : ¬ (t.wave - 1).toNat ≤ t.min.toNat := fun h => hm (UInt16.le_iff_toNat_le.mpr h)
      rw [Nat.mod_eq_of_lt (by omega)]
      refine ⟨h1, h2, ?_⟩
      rw [if_neg (by omega)]
      exact ⟨by show (t.wave - 1).toNat = _; omega, h4⟩

theorem Triangle.at_steps {t : Triangle} {lo hi k : Nat} (hl : lo < hi) (h : t.at lo hi (k % (2 * (hi - lo)))) (n : Nat) :
    (t.steps n).at lo hi ((k + n) % (2 * (hi - lo))) := by
  induction n with
  | zero => exact h
  | succ n ih =>
    have := at_step hl (Nat.mod_lt _ (by omega)) ih
    rw [Nat.mod_add_mod] at this
    exact this

theorem Triangle.at_tri {t : Triangle} {lo hi n : Nat} (hl : lo < hi) (h : t.at lo hi (n % (2 * (hi - lo)))) :
    t.wave.toNat = Spec.tri lo hi n := by
  obtain ⟨_, _, h3⟩ := h
  unfold Spec.tri
  have := Nat.mod_lt n (show 0 < 2 * (hi - lo) by omega)
  simp only []
  generalize n % (2 * (hi - lo)) = k at *
  split at h3
  · rw [if_pos (by omega)]; exact h3.1
  · split <;> omega

/-- C115, a triangle at its lower limit goes on as a triangle for ever. -/
theorem C115_triangle {lo hi : UInt16} (hl : lo < hi) (n : Nat) :
    ((Triangle.mk lo lo hi true).steps n).wave.toNat = Spec.tri lo.toNat hi.toNat n := by
  have hl := UInt16.lt_iff_toNat_lt.mp hl
  have h0 : (Triangle.mk lo lo hi true).at lo.toNat hi.toNat (0 % (2 * (hi.toNat - lo.toNat))) := by
    rw [Nat.zero_mod]
    refine ⟨rfl, rfl, ?_⟩
    rw [if_pos (by omega)]
    exact ⟨by simp, rfl⟩
  have := Triangle.at_steps (k := 0) hl h0 n
  rw [Nat.zero_add] at this
  exact Triangle.at_tri hl this

/-- The triangle is between its limits and comes back after a period. -/
theorem C115_triangle_range {lo hi : Nat} (hl : lo < hi) (n : Nat) :
    lo ≤ Spec.tri lo hi n ∧ Spec.tri lo hi n ≤ hi ∧ Spec.tri lo hi (n + 2 * (hi - lo)) = Spec.tri lo hi n ∧
    (Spec.tri lo hi (n + 1) = Spec.tri lo hi n + 1 ∨ Spec.tri lo hi n = Spec.tri lo hi (n + 1) + 1) := by
  unfold Spec.tri
  have hk := Nat.mod_lt n (show 0 < 2 * (hi - lo) by omega)
  have hs : (n + 1) % (2 * (hi - lo)) = (n % (2 * (hi - lo)) + 1) % (2 * (hi - lo)) := (Nat.mod_add_mod _ _ _).symm
  simp only [Nat.add_mod_right, hs]
  generalize n % (2 * (hi - lo)) = k at *
  refine ⟨?_, ?_, trivial, ?_⟩
  · split <;> omega
  · split <;> omega
  · by_cases hz : k + 1 = 2 * (hi - lo)
    · rw [hz, Nat.mod_self, if_pos (by omega)]
      split <;> omega
    · rw [Nat.mod_eq_of_lt (by omega)]
      split <;> split <;> omega

/-- C115, a new triangle: it rises from 0 to its upper limit, and is a triangle between its limits from there on. -/
theorem C115_new {lo hi : UInt16} (hl : lo < hi) (n : Nat) :
    ((Triangle.new lo hi).steps n).wave.toNat =
      if n ≤ hi.toNat then n else Spec.tri lo.toNat hi.toNat (n - hi.toNat + (hi.toNat - lo.toNat)) := by
  have hl := UInt16.lt_iff_toNat_lt.mp hl
  have hmax := hi.toNat_lt
  have rise : ∀ m, m < hi.toNat → (Triangle.new lo hi).steps m = ⟨UInt16.ofNat m, lo, hi, true⟩ := by
    intro m hm
    induction m with
    | zero => rfl
    | succ m ih =>
      have hw : (UInt16.ofNat m + 1).toNat = m + 1 := by
        rw [UInt16.toNat_add, UInt16.toNat_ofNat']
        show (m % 65536 + 1) % 65536 = _
        omega
      have hnot : ¬ hi ≤ UInt16.ofNat m + 1 := fun h => by
        have := UInt16.le_iff_toNat_le.mp h
        omega
      simp only [Triangle.steps, ih (by omega), Triangle.step, if_true, if_neg hnot]
      congr 1
      apply UInt16.toNat_inj.mp
      rw [hw, UInt16.toNat_ofNat']
      omega
  have top : ((Triangle.new lo hi).steps hi.toNat) = ⟨hi, lo, hi, false⟩ := by
    obtain ⟨m, hm⟩ : ∃ m, hi.toNat = m + 1 := ⟨hi.toNat - 1, by omega⟩
    rw [hm]
    have hw : (UInt16.ofNat m + 1).toNat = m + 1 := by
      rw [UInt16.toNat_add, UInt16.toNat_ofNat']
      show (m % 65536 + 1) % 65536 = _
      omega
    simp only [Triangle.steps, rise m (by omega), Triangle.step, if_true,
      if_pos (show hi ≤ UInt16.ofNat m + 1 from UInt16.le_iff_toNat_le.mpr (by omega))]
  have more : ∀ m, (Triangle.new lo hi).steps (hi.toNat + m) = (Triangle.mk hi lo hi false).steps m := by
    intro m
    induction m with
    | zero => exact top
    | succ m ih => exact congrArg Triangle.step ih
  split
  · next hn =>
    by_cases he : n = hi.toNat
    · rw [he, top]
    · rw [rise n (by omega)]
      show (UInt16.ofNat n).toNat = n
      rw [UInt16.toNat_ofNat']
      omega
  · next hn =>
    obtain ⟨m, rfl⟩ : ∃ m, n = hi.toNat + m := ⟨n - hi.toNat, by omega⟩
    rw [more m, Nat.add_sub_cancel_left, Nat.add_comm m]
    refine Triangle.at_tri hl (Triangle.at_steps hl ?_ m)
    rw [Nat.mod_eq_of_lt (by omega)]
    refine ⟨rfl, rfl, ?_⟩
    rw [if_neg (by omega)]
    exact ⟨by show hi.toNat = _; omega, rfl⟩

/-- A triangle between 10 and 20 is below its lower limit in the first steps. -/
theorem C115_fails_start : ((Triangle.new 10 20).steps 3).wave = 3 ∧ ((Triangle.new 10 20).steps 21).wave = 19 := by decide

/-- A triangle whose limits are 0 counts down from 65535. -/
theorem C115_fails_zero : ((Triangle.new 0 0).steps 2).wave = 65535 ∧ ((Triangle.new 0 0).steps 3).wave = 65534 := by decide

/-- What a square wave compares in update `n`: the input `skew` updates ago, 0 before there is one. -/
def Spec.delayed (f : Nat → UInt16) (skew n : Nat) : UInt16 := if n < skew then 0 else f (n - skew)

theorem square_queue (level skew : UInt16) (r : Bool) (f : Nat → UInt16) (n : Nat) :
    let q := (Square.new level skew r).updates f n
    q.level = level ∧ q.skew = skew ∧ q.raising = r ∧
    q.queue = (List.range skew.toNat).map (fun i => Spec.delayed f skew.toNat (n + i)) := by
  induction n with
  | zero =>
    refine ⟨rfl, rfl, rfl, ?_⟩
    apply List.ext_getElem
    · simp [Square.updates, Square.new]
    · intro i h1 h2
      have : i < skew.toNat := by simpa using h2
      simp [Square.updates, Square.new, Spec.delayed, this]
  | succ n ih =>
    obtain ⟨h1, h2, h3, h4⟩ := ih
    refine ⟨h1, h2, h3, ?_⟩
    show (((Square.new level skew r).updates f n).delay (f n)).2 = _
    unfold Square.delay
    rw [h2, h4]
    by_cases hs : 0 < skew
    · rw [if_pos hs]
      have hs := UInt16.lt_iff_toNat_lt.mp hs
      have hs : 0 < skew.toNat := hs
      apply List.ext_getElem
      · simp; omega
      · intro i a b
        have hb : i < skew.toNat := by simpa using b
        by_cases hi : i < skew.toNat - 1
        · rw [List.getElem_append_left (by simpa using hi)]
          simp [List.getElem_tail, Nat.add_assoc, Nat.add_comm 1]
        · rw [List.getElem_append_right (by simpa using Nat.le_of_not_lt hi)]
          have : i = skew.toNat - 1 := by omega
          subst this
          have e : n + 1 + (skew.toNat - 1) = n + skew.toNat := by omega
          have e' : ¬ n + skew.toNat < skew.toNat := by omega
          simp only [List.getElem_map, List.getElem_range, Spec.delayed, e, e', if_false, Nat.add_sub_cancel, List.length_tail,
            List.length_map, List.length_range, Nat.sub_self, List.getElem_cons_zero]
    · rw [if_neg hs]
      have : skew.toNat = 0 := by
        have : ¬ 0 < skew.toNat := fun h => hs (UInt16.lt_iff_toNat_lt.mpr h)
        omega
      rw [this]; rfl

/-- C115, a square wave is the comparison of the input, `skew` updates earlier, with the level; the queue always holds `skew` values. -/
theorem C115_square (level skew : UInt16) (r : Bool) (f : Nat → UInt16) (n : Nat) :
    let q := (Square.new level skew r).updates f (n + 1)
    q.wave = (if decide (level ≤ Spec.delayed f skew.toNat n) = r then 0xFFFF else 0) ∧ q.queue.length = skew.toNat := by
  obtain ⟨h1, h2, h3, h4⟩ := square_queue level skew r f n
  obtain ⟨_, _, _, h5⟩ := square_queue level skew r f (n + 1)
  have hd : (((Square.new level skew r).updates f n).delay (f n)).1 = Spec.delayed f skew.toNat n := by
    unfold Square.delay
    rw [h2, h4]
    by_cases hs : 0 < skew
    · rw [if_pos hs]
      have hs : 0 < skew.toNat := UInt16.lt_iff_toNat_lt.mp hs
      obtain ⟨m, hm⟩ : ∃ m, skew.toNat = m + 1 := ⟨skew.toNat - 1, by omega⟩
      rw [hm, List.range_succ_eq_map]
      simp
    · rw [if_neg hs]
      have : skew.toNat = 0 := by
        have : ¬ 0 < skew.toNat := fun h => hs (UInt16.lt_iff_toNat_lt.mpr h)
        omega
      simp [Spec.delayed, this]
  refine ⟨?_, by rw [h5]; simp⟩
  show (if ((Square.new level skew r).updates f n).level ≤ (((Square.new level skew r).updates f n).delay (f n)).1 then
      (if ((Square.new level skew r).updates f n).raising then (0xFFFF : UInt16) else 0)
      else (if ((Square.new level skew r).updates f n).raising then 0 else 0xFFFF)) = _
  rw [hd, h1, h3]
  by_cases h : level ≤ Spec.delayed f skew.toNat n <;> cases r <;> simp [h]

theorem ticks_parts (n : Nat) :
    let w := Waves.new.ticks n
    w.triangle = (Triangle.new 0 0xFF).steps n ∧
    w.square0 = (Square.new 64 0 true).updates (fun i => ((Triangle.new 0 0xFF).steps (i + 1)).wave) n ∧
    w.square1 = (Square.new 64 96 false).updates (fun i => ((Triangle.new 0 0xFF).steps (i + 1)).wave) n := by
  induction n with
  | zero => exact ⟨rfl, rfl, rfl⟩
  | succ n ih =>
    obtain ⟨h1, h2, h3⟩ := ih
    simp only [Waves.ticks, Waves.tick, Square.updates, Triangle.steps, h1, h2, h3]
    exact ⟨trivial, trivial, trivial⟩

/-- C115, the variables the sketch offers for measurement, after `n + 1` ticks: the triangle between 0 and 255; 255 while it is at least 64,
else 0; 255 while it was below 64 (or not yet there) 96 ticks earlier, else 0. -/
theorem C115_signals (n : Nat) :
    let w := Waves.new.ticks (n + 1)
    w.triangleWave.toNat = Spec.tri 0 255 (n + 1) ∧
    w.sq0Wave = (if 64 ≤ Spec.tri 0 255 (n + 1) then 255 else 0) ∧
    w.sq1Wave = (if 96 ≤ n ∧ 64 ≤ Spec.tri 0 255 (n - 96 + 1) then 0 else 255) := by
  obtain ⟨h1, h2, h3⟩ := ticks_parts (n + 1)
  have ht : ∀ m, (((Triangle.new 0 0xFF).steps m).wave).toNat = Spec.tri 0 255 m := fun m => C115_triangle (lo := 0) (hi := 0xFF) (by decide) m
  have hle : ∀ m, (64 ≤ ((Triangle.new 0 0xFF).steps m).wave) ↔ 64 ≤ Spec.tri 0 255 m := fun m => by
    rw [UInt16.le_iff_toNat_le, ht]; rfl
  refine ⟨?_, ?_, ?_⟩
  · show (Waves.new.ticks (n + 1)).triangle.wave.toNat = _
    rw [h1, ht]
  · show (Waves.new.ticks (n + 1)).square0.wave.toUInt8 = _
    rw [h2, (C115_square 64 0 true _ n).1]
    show (if decide (64 ≤ Spec.delayed _ 0 n) = true then (0xFFFF : UInt16) else 0).toUInt8 = _
    simp only [Spec.delayed, Nat.not_lt_zero, if_false, Nat.sub_zero, decide_eq_true_eq, hle]
    split <;> rfl
  · show (Waves.new.ticks (n + 1)).square1.wave.toUInt8 = _
    rw [h3, (C115_square 64 96 false _ n).1]
    show (if decide (64 ≤ Spec.delayed _ 96 n) = false then (0xFFFF : UInt16) else 0).toUInt8 = _
    simp only [Spec.delayed, decide_eq_false_iff_not]
    by_cases hn : n < 96
    · rw [if_pos hn, if_pos (by decide), if_neg (by omega)]; rfl
    · simp only [if_neg hn, hle]
      by_cases h : 64 ≤ Spec.tri 0 255 (n - 96 + 1)
      · rw [if_neg (by simpa using h), if_pos ⟨by omega, h⟩]; rfl
      · rw [if_pos h, if_neg (fun ⟨_, h'⟩ => h h')]; rfl

/-- After 100 ticks the triangle is at 100 and `sq1_wave` does not know of it yet; after 300 ticks the triangle falls. -/
example : (Waves.new.ticks 100).triangleWave = 100 ∧ (Waves.new.ticks 100).sq0Wave = 255 ∧ (Waves.new.ticks 100).sq1Wave = 255 ∧
    (Waves.new.ticks 300).triangleWave = 210 ∧ (Waves.new.ticks 300).sq1Wave = 0 ∧ Spec.tri 0 255 300 = 210 := by decide +kernel

/-- The calls of `millis` in the passes of `loop` are in order, and not before `s`. -/
def Spec.Clocked (s : Nat) : List (Nat × Nat) → Prop
  | [] => True
  | (t, u) :: ps => s ≤ t ∧ t ≤ u ∧ Spec.Clocked u ps

theorem Spec.Clocked.weaken {s s' : Nat} (h : s' ≤ s) {ps : List (Nat × Nat)} (hc : Spec.Clocked s ps) : Spec.Clocked s' ps := by
  cases ps with
  | nil => trivial
  | cons p ps => exact ⟨Nat.le_trans h hc.1, hc.2⟩

/-- Each time at least `d` after the one before, the first after `s`. -/
def Spec.Spaced (d s : Nat) : List Nat → Prop
  | [] => True
  | t :: ts => s + d ≤ t ∧ Spec.Spaced d t ts

/-- 32-bit differences of times: the whole difference modulo 2^32. -/
theorem ticks_sub {s t : Nat} (h : s ≤ t) : (UInt32.ofNat t - UInt32.ofNat s).toNat = (t - s) % 4294967296 := by
  rw [UInt32.toNat_sub, UInt32.toNat_ofNat', UInt32.toNat_ofNat']
  show (4294967296 - s % 4294967296 + t % 4294967296) % 4294967296 = _
  omega

/-- C115, two events are at least 10 ms apart, also when the millisecond counter wraps. -/
theorem C115_spaced {s : Nat} {ps : List (Nat × Nat)} (hc : Spec.Clocked s ps) :
    Spec.Spaced 10 s (loopPasses (UInt32.ofNat s) ps) := by
  suffices h : ∀ c, s ≤ c → Spec.Clocked c ps → Spec.Spaced 10 s (loopPasses (UInt32.ofNat s) ps) from h s (Nat.le_refl _) hc
  clear hc
  induction ps generalizing s with
  | nil => intros; trivial
  | cons p ps ih =>
    obtain ⟨t, u⟩ := p
    intro c hs ⟨h1, h2, h3⟩
    simp only [loopPasses, loopPass]
    by_cases hd : 10 ≤ UInt32.ofNat t - UInt32.ofNat s
    · simp only [if_pos hd, if_true]
      have := UInt32.le_iff_toNat_le.mp hd
      rw [ticks_sub (by omega)] at this
      have : 10 ≤ (t - s) % 4294967296 := this
      exact ⟨by omega, ih u (Nat.le_refl _) h3⟩
    · simp only [if_neg hd, Bool.false_eq_true, if_false]
      exact ih u (by omega) h3

/-- C115, the first pass of `loop` at least 10 ms (and less than 49 days) after the last event triggers the next one. -/
theorem C115_prompt {s t u : Nat} (h : s + 10 ≤ t) (h2 : t < s + 2 ^ 32) (ps : List (Nat × Nat)) :
    loopPasses (UInt32.ofNat s) ((t, u) :: ps) = u :: loopPasses (UInt32.ofNat u) ps := by
  have hd : 10 ≤ UInt32.ofNat t - UInt32.ofNat s := by
    rw [UInt32.le_iff_toNat_le, ticks_sub (by omega)]
    show 10 ≤ _
    omega
  simp [loopPasses, loopPass, hd]

/-- Passes of `loop` every 7 ms trigger the "10 ms" event every 14 ms: after 140 ms 10 events instead of 14. -/
theorem C115_fails_period :
    loopPasses 0 ((List.range 20).map fun i => (7 * (i + 1), 7 * (i + 1))) = [14, 28, 42, 56, 70, 84, 98, 112, 126, 140] := by
  decide +kernel

/-- Around the wrap of `millis`. -/
example : Spec.Clocked 4294967290 [(4294967293, 4294967293), (4294967301, 4294967302), (4294967312, 4294967312)] ∧
    loopPasses (UInt32.ofNat 4294967290) [(4294967293, 4294967293), (4294967301, 4294967302), (4294967312, 4294967312)] =
      [4294967302, 4294967312] := by
  refine ⟨?_, by decide +kernel⟩
  simp [Spec.Clocked]

end Xcp
