import Verif.Model.Bytes

/-!
# The timer of the client library (`support/client/timer.cpp`, Linux part)

Simplification: the division of two numbers of type `double` is exact (both are whole numbers; the difference is exact below 2^53 microseconds, which are 285 years).
-/

namespace Trax.Timer

/-- `struct timespec`. -/
structure TimeSpec where
  sec : Nat
  nsec : Nat
  deriving DecidableEq, Repr

/-- `freq` after `timer_init` (`support/client/timer.cpp` 31–51). -/
def init (freq : Nat) : Nat := if freq ≠ 0 then freq else 1000000

/-- `timer_clock` (`support/client/timer.cpp` 55–66) at a time: a number of microseconds of type `unsigned long long`. -/
def clock (t : TimeSpec) : Nat := ((t.sec * 1000000) % 2 ^ 64 + t.nsec / 1000) % 2 ^ 64

/-- `timer_elapsed` (`support/client/timer.cpp` 69–75) at a time, for the given frequency: `none` for a division by zero, which is infinite or not a number. -/
def elapsed (freq : Nat) (start : Nat) (now : TimeSpec) : Option Rat :=
  let delta : Nat := (clock now + 2 ^ 64 - start) % 2 ^ 64
  if freq = 0 then none else some ((delta : Rat) / freq)

end Trax.Timer
