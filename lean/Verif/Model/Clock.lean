import Verif.Model.Base
/-
The clocks: src/hw/linux/hw.c:241-293, src/hw/win/hw.c:133-160 and src/hw/arduino/hw.cpp.
-/
set_option autoImplicit false
namespace Xcp

/-- `struct timespec`.  Simplification: `time_t` and `long` do not overflow (the values come
from the operating system's uptime clocks). -/
structure Timespec where
  sec : Int
  nsec : Int
deriving DecidableEq, Repr

/-- `Timespec_Diff`, src/hw/linux/hw.c:241-252. -/
def Timespec.diff (start stop : Timespec) : Timespec :=
  if stop.nsec - start.nsec < 0 then
    ⟨stop.sec - start.sec - 1, 1000000000 + stop.nsec - start.nsec⟩
  else ⟨stop.sec - start.sec, stop.nsec - start.nsec⟩

/-- Conversion of a signed to an unsigned 64-bit number. -/
def toU64 (i : Int) : Nat := (i % 18446744073709551616).toNat

/-- `XcpHw_FreeRunningCounter` as `XcpHw_GetElapsedTime` sets it, src/hw/linux/hw.c:254-269:
64-bit unsigned arithmetic.  `start` is `HwState.StartingTime` (from `CLOCK_MONOTONIC`,
src/hw/linux/hw.c:191), `now` the reading of `CLOCK_MONOTONIC_RAW`.  A failing
`clock_gettime` is not modelled. -/
def freeRunning (start now : Timespec) : Nat :=
  (toU64 (start.diff now).sec * 1000000000 + toU64 (start.diff now).nsec) % 18446744073709551616

/-- `XcpHw_GetElapsedTime`, src/hw/linux/hw.c:254-269. -/
def elapsedTime (start now : Timespec) (prescaler : Nat) : Nat := freeRunning start now / prescaler

/-- `TIMER_MASK_1`, `TIMER_MASK_2`, `TIMER_MASK_4`, src/hw/linux/hw.c:93-95 and
src/hw/win/hw.c:79-81, selected by the timestamp size. -/
def timerMask (size : Nat) : Nat :=
  if size = 1 then 0xFF else if size = 2 then 0xFFFF else 0xFFFFFFFF

/-- `XcpHw_GetTimerCounter`, src/hw/linux/hw.c:271-287: the prescaled time is computed and then
overwritten by the free-running counter modulo `UINT_MAX`. -/
def linuxTimer (start now : Timespec) (prescaler size : Nat) : UInt32 :=
  let _timestamp := elapsedTime start now prescaler
  let timestamp := freeRunning start now % 4294967295
  UInt32.ofNat (timestamp &&& timerMask size)

/-- `XcpHw_GetTimerCounterMS`, src/hw/linux/hw.c:289-293. -/
def linuxTimerMs (start now : Timespec) : UInt32 :=
  UInt32.ofNat (elapsedTime start now 1000000) &&& 0xFFFFFFFF

/-- `XcpHw_GetElapsedTime`, src/hw/win/hw.c:133-142: `none` is the division by zero when the
performance counter is slower than the unit.  `prescaler` is in units per second.
Simplification: the counter does not run backwards. -/
def winElapsed (start now freq prescaler : Nat) : Option Nat :=
  if freq / prescaler = 0 then none else some ((now - start) / (freq / prescaler))

/-- `XcpHw_GetTimerCounter`, src/hw/win/hw.c:144-156. -/
def winTimer (start now freq prescaler size : Nat) : Option UInt32 :=
  (winElapsed start now freq prescaler).map fun n => UInt32.ofNat n &&& UInt32.ofNat (timerMask size)

/-- `XcpHw_GetTimerCounterMS`, src/hw/win/hw.c:158-160. -/
def winTimerMs (start now freq : Nat) : Option UInt32 :=
  (winElapsed start now freq 1000).map fun n => UInt32.ofNat (n &&& 0xFFFFFFFF)

/-- `XcpHw_GetTimerCounter` of the Arduino, src/hw/arduino/hw.cpp:48-56, with the unit 1 us or 1 ms (`unit` in microseconds; others are
refused by `#error`): `micros` and `millis` count from the start of the board (`us` microseconds ago) in 32 bits.  The reading is not cut
to the timestamp size, and `HwState.StartingTime` is not used. -/
def inoTimer (us unit : Nat) : UInt32 := UInt32.ofNat (us / unit)

/-- `XcpHw_GetTimerCounterMS` of the Arduino, src/hw/arduino/hw.cpp:58-60. -/
def inoTimerMs (us : Nat) : UInt32 := UInt32.ofNat (us / 1000)

end Xcp
