import Verif.Model.Bytes

/-!
# The log on the console of MATLAB (`support/matlab/traxclient.cpp` 140–192)

The class `mexstream`: threads write their texts to a buffer, and the main thread prints what has gathered. Each access to the mutex, to the buffer and to the console is a step of its own, in any interleaving. Simplifications: threads are
numbers; a blocked `pthread_mutex_lock` is a step that changes nothing; `std::ostream` adds nothing to what it is given.
-/

namespace Trax.MexStream

/-- What a thread does: a call of `overflow`, of `xsputn` or of `push`. -/
inductive Op where
  | put (c : UInt8)
  | write (s : List UInt8)
  | push
  deriving DecidableEq, Repr

/-- Where a thread is. -/
inductive PC where
  /-- before `MUTEX_LOCK` -/
  | idle
  /-- before `buffer.put`, `buffer.write` or `buffer.str()` (173, 183, 155) -/
  | locked
  /-- before `mexPrintf`, with the text in `r` (157) -/
  | took (r : List UInt8)
  /-- before `buffer.str("")` (159) -/
  | shown
  /-- before `MUTEX_UNLOCK` -/
  | finished
  deriving DecidableEq, Repr

/-- The mutex (who holds it), the buffer, the console, the threads and what they still have to do. -/
structure State where
  mutex : Option Nat
  buffer : List UInt8
  console : List UInt8
  pc : Nat → PC
  todo : Nat → List Op

/-- `f` with another value for one thread. -/
def set {α : Type} (f : Nat → α) (t : Nat) (a : α) : Nat → α := fun u => if u = t then a else f u

/-- `mexPrintf("%s", r.c_str())` (`support/matlab/traxclient.cpp` 157): up to the first zero. -/
def cstr (s : List UInt8) : List UInt8 := s.takeWhile (· ≠ 0)

/-- After the constructor (`support/matlab/traxclient.cpp` 143–145). -/
def begin (program : Nat → List Op) : State := ⟨none, [], [], fun _ => .idle, program⟩

/-- One step of a thread in `push` (`support/matlab/traxclient.cpp` 151–163), `overflow` (171–179) or `xsputn` (181–190). -/
def step (t : Nat) (s : State) : State :=
  match s.pc t, s.todo t with
  | _, [] => s
  | .idle, _ :: _ => if s.mutex = none then { s with mutex := some t, pc := set s.pc t .locked } else s
  | .locked, .put c :: _ => { s with buffer := s.buffer ++ [c], pc := set s.pc t .finished }
  | .locked, .write text :: _ => { s with buffer := s.buffer ++ text, pc := set s.pc t .finished }
  | .locked, .push :: _ => { s with pc := set s.pc t (.took s.buffer) }
  | .took r, _ :: _ => { s with console := s.console ++ cstr r, pc := set s.pc t .shown }
  | .shown, _ :: _ => { s with buffer := [], pc := set s.pc t .finished }
  | .finished, _ :: rest => { s with mutex := none, pc := set s.pc t .idle, todo := set s.todo t rest }

/-- The steps of the threads in the order of a schedule. (`support/matlab/traxclient.cpp` 140–192.) -/
def run : List Nat → State → State
  | [], s => s
  | t :: rest, s => run rest (step t s)

/-- The main thread at the end of `mexFunction` without an error (`support/matlab/traxclient.cpp` 465–497): what is logged before the last `LOGPUSH`, that, and what is logged by the destructor of the tracker, which follows it. -/
def farewell (before after : List (List UInt8)) : List Op := before.map .write ++ .push :: after.map .write

/-- The same after an error (`support/matlab/traxclient.cpp` 467–480): the tracker is destroyed before the `LOGPUSH` of the handler. -/
def failure (before after : List (List UInt8)) : List Op := before.map .write ++ after.map .write ++ [.push]

end Trax.MexStream
