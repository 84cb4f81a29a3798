import Verif.Model.Clock
/-
What a clock reading should be.
-/
set_option autoImplicit false
namespace Xcp.Spec

/-- The instant a `timespec` stands for, in nanoseconds. -/
def nanos (t : Timespec) : Int := t.sec * 1000000000 + t.nsec

/-- Fewer than 10^9 nanoseconds, as the operating system delivers them. -/
def Normal (t : Timespec) : Prop := 0 ≤ t.nsec ∧ t.nsec < 1000000000

/-- A counter of `size` bytes in units of `unit` nanoseconds, after `elapsed` nanoseconds. -/
def ticks (unit size elapsed : Nat) : Nat := elapsed / unit % 256 ^ size

/-- A counter of `size` bytes with `rate` units per second, after `n` periods of a clock of
`freq` Hertz. -/
def ticksAt (rate size freq n : Nat) : Nat := n * rate / freq % 256 ^ size

end Xcp.Spec
