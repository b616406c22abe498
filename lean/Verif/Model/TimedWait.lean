import Verif.Model.Outcome

/-!
# Waiting with a time limit (`support/client/threads.cpp` 44–76, 217–228)

The time is what `gettimeofday` gives: seconds and microseconds. Simplified: integers are not limited. Not modelled: spurious wakeups and signals.
-/

namespace Trax.TimedWait

/-- How the wait is done. -/
inductive Wait where
  /-- `pthread_cond_wait`: until the condition is signalled -/
  | forever
  /-- `pthread_cond_timedwait` with this deadline, in seconds and nanoseconds -/
  | until (sec nsec : Int)
  deriving DecidableEq, Repr

/-- `simple_threads_cond_wait` (`support/client/threads.cpp` 44–76), for a call at the time `sec`, `usec`. -/
def condWait (sec usec milisec : Int) : Wait :=
  if milisec < 0 then .forever
  else
    let usec := usec + milisec * 1000
    if usec > 1000000 then .until (sec + 1) (1000 * (usec - 1000000))
    else .until sec (1000 * usec)

/-- `Signal::wait` (`support/client/threads.cpp` 217–228). -/
def wait (sec usec timeout : Int) : Wait :=
  if timeout > 0 then condWait sec usec timeout else condWait sec usec (-1)

end Trax.TimedWait
