import Verif.Spec.Clock
/-
C62: the clocks show the time since start-up.
-/
set_option autoImplicit false
namespace Xcp
open Spec

/-- C62, `Timespec_Diff` is exact. -/
theorem C62_diff {a b : Timespec} (ha : Normal a) (hb : Normal b) :
    nanos (a.diff b) = nanos b - nanos a ∧ Normal (a.diff b) := by
  unfold Timespec.diff nanos Normal at *
  split <;> simp only <;> omega

/-- The free-running counter holds the elapsed nanoseconds. -/
theorem freeRunning_eq {a b : Timespec} (ha : Normal a) (hb : Normal b) {n : Nat} (hn : nanos b = nanos a + n)
    (hlt : n < 2 ^ 64) : freeRunning a b = n := by
  obtain ⟨h1, h2⟩ := C62_diff ha hb
  unfold freeRunning
  rw [hn] at h1
  unfold nanos Normal at *
  generalize a.diff b = d at *
  have hs : 0 ≤ d.sec := by omega
  unfold toU64
  omega

theorem mask_size {size : Nat} (hs : size = 1 ∨ size = 2 ∨ size = 4) (n : Nat) : n &&& timerMask size = n % 256 ^ size := by
  rcases hs with h | h | h <;> subst h
  · exact Nat.and_two_pow_sub_one_eq_mod n 8
  · exact Nat.and_two_pow_sub_one_eq_mod n 16
  · exact Nat.and_two_pow_sub_one_eq_mod n 32

/-- C62, the millisecond counter on Linux is right for 584 years, provided the two clocks it
uses agree on the time of start-up. -/
theorem C62_linux_ms {a b : Timespec} (ha : Normal a) (hb : Normal b) {n : Nat} (hn : nanos b = nanos a + n)
    (hlt : n < 2 ^ 64) : (linuxTimerMs a b).toNat = ticks 1000000 4 n := by
  unfold linuxTimerMs elapsedTime
  rw [freeRunning_eq ha hb hn hlt, UInt32.toNat_and]
  have : (0xFFFFFFFF : UInt32).toNat = timerMask 4 := rfl
  rw [this, mask_size (Or.inr (Or.inr rfl))]
  simp [ticks]

/-- C62, so the difference of two readings of the millisecond counter, taken modulo 2^32, is
the time between them, up to the part of a millisecond. -/
theorem C62_linux_ms_difference {a b c : Timespec} (ha : Normal a) (hb : Normal b) (hc : Normal c) {n m : Nat}
    (hn : nanos b = nanos a + n) (hm : nanos c = nanos b + m) (hlt : n + m < 2 ^ 64) (hm' : m < 2 ^ 32 * 1000000 - 1000000) :
    let d := (linuxTimerMs a c - linuxTimerMs a b).toNat
    d = m / 1000000 ∨ d = m / 1000000 + 1 := by
  have h1 := C62_linux_ms ha hb hn (by omega)
  have h2 := C62_linux_ms ha hc (n := n + m) (by omega) hlt
  simp only [UInt32.toNat_sub]
  rw [h1, h2]
  unfold ticks
  omega

/-- C62, the DAQ clock on Linux.  What it shows: nanoseconds modulo `UINT_MAX`, cut to the
timestamp size; it is the right value only if the configured unit is 1 ns, and only for the
first 4.29 seconds.  Missing: all other units, see `C62_linux_unit_fails`, and the wrap, see
`C62_linux_wrap_fails`. -/
theorem C62_linux_timer_partial {a b : Timespec} (ha : Normal a) (hb : Normal b) {n : Nat} (hn : nanos b = nanos a + n)
    (hlt : n < 2 ^ 32 - 1) {size : Nat} (hs : size = 1 ∨ size = 2 ∨ size = 4) :
    (linuxTimer a b 1 size).toNat = ticks 1 size n := by
  simp only [linuxTimer]
  rw [freeRunning_eq ha hb hn (by omega), mask_size hs]
  simp only [ticks, UInt32.toNat_ofNat', Nat.div_one]
  rcases hs with h | h | h <;> subst h <;> omega

/-- With any unit above 1 ns the DAQ clock is wrong: at every moment of the first 4.29 seconds
after the first unit it does not show the elapsed units. -/
theorem C62_linux_unit_fails {a b : Timespec} (ha : Normal a) (hb : Normal b) {n unit : Nat}
    (hn : nanos b = nanos a + n) (hu : 1 < unit) (h1 : unit ≤ n) (hlt : n < 2 ^ 32 - 1) :
    (linuxTimer a b unit 4).toNat ≠ ticks unit 4 n := by
  simp only [linuxTimer]
  rw [freeRunning_eq ha hb hn (by omega), mask_size (Or.inr (Or.inr rfl))]
  simp only [ticks, UInt32.toNat_ofNat']
  have h2 : n / unit < n := Nat.div_lt_self (by omega) hu
  generalize n / unit = q at *
  omega

/-- The wrap comes one nanosecond too early: with 4-byte timestamps and a unit of 1 ns the
reading after 2^32 nanoseconds is 1 instead of 0, and it is wrong at every moment of the
584 years after the first wrap. -/
theorem C62_linux_wrap_fails {a b : Timespec} (ha : Normal a) (hb : Normal b) {n : Nat}
    (hn : nanos b = nanos a + n) (hlo : 2 ^ 32 - 1 ≤ n) (hlt : n < (2 ^ 32 - 1) * 2 ^ 32) :
    (linuxTimer a b 1 4).toNat ≠ ticks 1 4 n := by
  simp only [linuxTimer]
  rw [freeRunning_eq ha hb hn (by omega), mask_size (Or.inr (Or.inr rfl))]
  simp only [ticks, UInt32.toNat_ofNat', Nat.div_one]
  omega

/-- One second and 1.5 microseconds after start-up, unit 1 us: the clock shows 1000001500
instead of 1000001.  The millisecond counter is right. -/
example : Normal ⟨100, 999999000⟩ ∧ Normal ⟨102, 500⟩ ∧ nanos ⟨102, 500⟩ = nanos ⟨100, 999999000⟩ + (1000001500 : Nat) ∧
    (linuxTimer ⟨100, 999999000⟩ ⟨102, 500⟩ 1000 4).toNat = 1000001500 ∧ ticks 1000 4 1000001500 = 1000001 ∧
    (linuxTimerMs ⟨100, 999999000⟩ ⟨102, 500⟩).toNat = 1000 := by
  unfold Normal; decide

/-- The start is taken from another clock than the readings.  If that one is ahead (here by
1 ms, as after time synchronisation), the first reading is close to 2^64 ns, and two
readings 2 ms apart do not differ by 2. -/
theorem C62_linux_clock_mix_fails :
    (linuxTimerMs ⟨100, 0⟩ ⟨100, 1000000⟩ - linuxTimerMs ⟨100, 0⟩ ⟨99, 999000000⟩).toNat ≠ 2 := by decide

/-- C62, Windows: exact when the unit divides the frequency of the performance counter. -/
theorem C62_win_timer_partial {start n freq rate size : Nat} (hf : 0 < freq) (hd : rate ∣ freq)
    (hs : size = 1 ∨ size = 2 ∨ size = 4) :
    ∃ v, winTimer start (start + n) freq rate size = some v ∧ v.toNat = ticksAt rate size freq n := by
  obtain ⟨k, rfl⟩ := hd
  have hr : 0 < rate := Nat.pos_of_mul_pos_right hf
  have hk : 0 < k := Nat.pos_of_mul_pos_left hf
  unfold winTimer winElapsed
  rw [Nat.mul_div_cancel_left _ hr, Nat.add_sub_cancel_left, if_neg (by omega)]
  refine ⟨_, rfl, ?_⟩
  rw [UInt32.toNat_and]
  have hm : (UInt32.ofNat (timerMask size)).toNat = timerMask size := by
    rcases hs with h | h | h <;> subst h <;> rfl
  rw [hm, mask_size hs, UInt32.toNat_ofNat']
  have : n * rate / (rate * k) = n / k := by
    rw [Nat.mul_comm, Nat.mul_div_mul_left _ _ hr]
  rw [ticksAt, this]
  generalize n / k = q
  rcases hs with h | h | h <;> subst h <;> omega

/-- C62, the millisecond counter on Windows. -/
theorem C62_win_ms_partial {start n freq : Nat} (hf : 0 < freq) (hd : 1000 ∣ freq) :
    ∃ v, winTimerMs start (start + n) freq = some v ∧ v.toNat = ticksAt 1000 4 freq n := by
  obtain ⟨k, rfl⟩ := hd
  unfold winTimerMs winElapsed
  rw [Nat.mul_div_cancel_left _ (by omega), Nat.add_sub_cancel_left, if_neg (by omega)]
  refine ⟨_, rfl, ?_⟩
  show (UInt32.ofNat (n / k &&& timerMask 4)).toNat = _
  rw [mask_size (Or.inr (Or.inr rfl)), UInt32.toNat_ofNat']
  have : n * 1000 / (1000 * k) = n / k := by
    rw [Nat.mul_comm, Nat.mul_div_mul_left _ _ (by omega)]
  rw [ticksAt, this]
  generalize n / k = q
  omega

/-- With a 3.58 MHz counter the microsecond clock is 19% fast (one second reads 1193181 us),
and with one below 1 MHz it divides by zero. -/
theorem C62_win_fails :
    winTimer 0 3579545 3579545 1000000 4 = some 1193181 ∧ ticksAt 1000000 4 3579545 3579545 = 1000000 ∧
    winTimer 0 500 999999 1000000 4 = none := by decide

/-- A 10 MHz counter, unit 1 us, 2-byte timestamps, 0.1 s after start-up. -/
example : (1000000 ∣ 10000000) ∧ winTimer 5 1000005 10000000 1000000 2 = some 34464 ∧
    ticksAt 1000000 2 10000000 1000000 = 34464 := by decide

/-- C62, Arduino: the reading is the number of units since the board was started, in 32 bits; cut to a timestamp of 1, 2 or 4 bytes it is
the right timestamp.  The millisecond counter too. -/
theorem C62_arduino (us : Nat) {unit : Nat} (hu : unit = 1 ∨ unit = 1000) {size : Nat} (hs : size = 1 ∨ size = 2 ∨ size = 4) :
    (inoTimer us unit).toNat % 256 ^ size = ticks (unit * 1000) size (us * 1000) ∧
    (inoTimer us unit).toNat = ticks (unit * 1000) 4 (us * 1000) ∧ (inoTimerMs us).toNat = ticks 1000000 4 (us * 1000) := by
  have hd : us * 1000 / (unit * 1000) = us / unit := Nat.mul_div_mul_right _ _ (by omega)
  have hm : us * 1000 / 1000000 = us / 1000 := by omega
  simp only [inoTimer, inoTimerMs, ticks, hd, hm, UInt32.toNat_ofNat']
  refine ⟨?_, ?_, ?_⟩
  · rcases hs with h | h | h <;> subst h <;> omega
  all_goals simp

/-- After 4295 seconds the microsecond clock has wrapped. -/
example : (inoTimer 4294967296000 1000).toNat = 0 ∧ (inoTimer 4294967297 1).toNat = 1 ∧ (inoTimerMs 70000).toNat = 70 := by decide

end Xcp
