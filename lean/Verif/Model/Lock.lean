import Verif.Model.Outcome

/-!
# The recursive lock (`support/client/threads.cpp` 122–167)

Threads are numbers, and every step of the model is one access to the mutex or to a member of the lock, in any
interleaving. Simplified: the members are read and written one after the other as if by one processor
(the code reads `owner` without a lock, which is a data race in the language of the C++ standard); a blocked
`pthread_mutex_lock` is a step that changes nothing; `pthread_mutex_unlock` by a thread that does not hold the mutex is undefined
behaviour, as is an overflow of `counter`.
-/

namespace Trax.Lock

/-- Where a thread is. -/
inductive PC where
  /-- outside of the lock's methods -/
  | idle
  /-- `acquire`: before the comparison with `owner` (129) -/
  | acquire
  /-- before `MUTEX_LOCK` (130) -/
  | lock
  /-- before `owner = tid` (131) -/
  | setOwner
  /-- before `counter = 0` (132) -/
  | clear
  /-- before `counter++` (135) -/
  | increment
  /-- `release`: before the comparison with `owner` (148) -/
  | release
  /-- before `counter--` (149) -/
  | decrement
  /-- before the test of `counter` (151) -/
  | test
  /-- before `owner = THREAD_NONE` (152) -/
  | clearOwner
  /-- before `MUTEX_UNLOCK` (153) -/
  | unlock
  deriving DecidableEq, Repr

/-- What a thread that is outside does next. -/
inductive Call where
  | acquire
  | release
  deriving DecidableEq, Repr

/-- What a thread did: `acquired` when a call of `acquire` returns, `released` when a call of `release` begins. -/
inductive Event where
  | acquired (t : Nat)
  | released (t : Nat)
  deriving DecidableEq, Repr

/-- The mutex (who holds it), the members of the lock, the threads, and what happened so far. -/
structure State where
  mutex : Option Nat
  owner : Option Nat
  counter : Int
  pc : Nat → PC
  log : List Event

/-- `Mutex::Mutex` (`support/client/threads.cpp` 108–116): nobody holds it. -/
def State.fresh : State := { mutex := none, owner := none, counter := 0, pc := fun _ => .idle, log := [] }

/-- The thread goes on to `c`. -/
def State.goto (s : State) (t : Nat) (c : PC) : State := { s with pc := fun u => if u = t then c else s.pc u }

/-- One step of thread `t`; `call` is used when it is outside (`support/client/threads.cpp` 122–158). -/
def step (s : State) (t : Nat) (call : Call) : Outcome State :=
  match s.pc t with
  | .idle =>
    match call with
    | .acquire => .ok (s.goto t .acquire)
    | .release => .ok { s.goto t .release with log := s.log ++ [.released t] }
  | .acquire => .ok (s.goto t (if s.owner = some t then .increment else .lock))
  | .lock =>
    match s.mutex with
    | none => .ok { s.goto t .setOwner with mutex := some t }
    | some _ => .ok s
  | .setOwner => .ok { s.goto t .clear with owner := some t }
  | .clear => .ok { s.goto t .increment with counter := 0 }
  | .increment =>
    if s.counter + 1 ≤ 2147483647 then .ok { s.goto t .idle with counter := s.counter + 1, log := s.log ++ [.acquired t] } else .ub
  | .release => .ok (s.goto t (if s.owner = some t then .decrement else .idle))
  | .decrement => .ok { s.goto t .test with counter := s.counter - 1 }
  | .test => .ok (s.goto t (if s.counter < 1 then .clearOwner else .idle))
  | .clearOwner => .ok { s.goto t .unlock with owner := none }
  | .unlock => if s.mutex = some t then .ok { s.goto t .idle with mutex := none } else .ub

/-- A schedule: which thread makes a step, and what it does if it is outside. -/
def run : List (Nat × Call) → State → Outcome State
  | [], s => .ok s
  | (t, c) :: rest, s => (step s t c).bind fun s => run rest s

end Trax.Lock
