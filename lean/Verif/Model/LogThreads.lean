import Verif.Model.Logger

/-!
# The log of a tracker process and the threads that write it (`support/client/client.cpp` 292–295, 421–428, 467–503, 587–682)

Two threads take part: the logger thread reads the error stream of the tracker byte by byte, and the thread
that uses the tracker passes on what arrives on the connection between the messages; when the tracker is stopped
(by this thread or by the watchdog) the rest of the error stream is read as well. A schedule is a list of events, each of
them atomic: a byte that is read and put into a buffer, with the flush that follows, is one event (the flush holds
`logger_mutex`; each buffer is filled by one thread, apart from the data races in the original, which are not modelled).
Descriptors and the files behind them are explicit, because the logger thread keeps the number of the
descriptor in a variable of its own.
-/

namespace Trax.LogSys

/-- A function changed at one place. -/
def put {κ α : Type} [DecidableEq κ] (f : κ → α) (n : κ) (a : α) : κ → α := fun m => if m = n then a else f m

/-- The files behind descriptors that matter here: those of the program, and the error streams of the trackers, one after the other. -/
inductive File where
  | user (n : Nat)
  | tracker (n : Nat)
  deriving DecidableEq, Repr

/-- The error stream of a tracker that was not started yet, when `k` were. -/
def File.unborn (k : Nat) : File → Bool
  | .tracker n => decide (k ≤ n)
  | .user _ => false

/-- The state. -/
structure State where
  /-- The open descriptors of the process, and the files behind them. -/
  table : Nat → Option File
  /-- What was written to a file and not read yet. -/
  unread : File → Str
  /-- The number of trackers started so far. -/
  trackers : Nat
  /-- `process`: the descriptor of the error stream, and whether the tracker is running. -/
  process : Option (Nat × Bool)
  /-- `err` in `logger_loop` (`support/client/client.cpp` 592), `none` for −1. -/
  err : Option Nat
  /-- The logger thread has read nothing and is about to ask whether the process is running (`support/client/client.cpp` 620–622). -/
  missed : Bool
  /-- `process_state_mutex` is held by `stop_process`, with this number of rounds left in `flush_streams`. -/
  stopping : Option Nat
  /-- The bytes in the array of `flush_streams` that are not passed on yet. -/
  taken : Str
  /-- `stdout_buffer` -/
  out : LineBuffer
  /-- `stderr_buffer` -/
  error : LineBuffer
  /-- What was written to `logger_stream`. -/
  log : Str

/-- What can happen. -/
inductive Event where
  /-- Somebody writes to the other end of a file. -/
  | print (file : File) (text : Str)
  /-- A tracker is started, its error stream is at the descriptor `fd`. -/
  | spawn (fd : Nat)
  /-- The tracker ends. -/
  | exit
  /-- The logger thread looks for a process. -/
  | lookup
  /-- The logger thread reads a byte. -/
  | read
  /-- The logger thread reads nothing: nothing has come within a second, the stream has ended, or the descriptor is closed. -/
  | miss
  /-- … and goes on. -/
  | settle
  /-- A byte outside of the messages arrives on the connection. -/
  | relay (c : Byte)
  /-- A message arrives on the connection. -/
  | relayEnd
  /-- `stop_process` gets to work. -/
  | stop
  /-- `flush_streams` reads a block. -/
  | drain
  /-- `flush_streams` passes a byte on. -/
  | pass
  /-- `stop_process` is done. -/
  | stopped
  /-- The program opens a file of its own. -/
  | «open» (fd n : Nat)
  /-- The program closes one of its files. -/
  | close (fd : Nat)
  deriving DecidableEq, Repr

/-- `line_truncate`, as set by `reset_logger` (`support/client/client.cpp` 474). -/
def lineTruncate : Int := 256

/-- `process_running` (`support/client/client.cpp` 292–295). -/
def State.running (s : State) : Bool :=
  match s.process with
  | some (_, alive) => alive
  | none => false

/-- `read_stream(fd, …)` finds bytes to read (`support/client/client.cpp` 194–219). -/
def State.readable (s : State) (fd : Nat) : Bool :=
  match s.table fd with
  | some f => !(s.unread f).isEmpty
  | none => false

/-- A byte for `stderr_buffer` (`support/client/client.cpp` 627, 631–637). -/
def State.toError (silent : Bool) (s : State) (c : Byte) : Outcome State :=
  (s.error.push c lineTruncate).bind fun (full, error) =>
    if full then (error.flush (!silent)).map fun (w, error) => { s with error, log := s.log ++ w }
    else .ok { s with error }

/-- A byte for `client_logger` (`support/client/client.cpp` 665–676). -/
def State.toOut (s : State) (c : Byte) : Outcome State :=
  (s.out.push c lineTruncate).bind fun (full, out) =>
    if full then (out.flush true).map fun (w, out) => { s with out, log := s.log ++ w }
    else .ok { s with out }

/-- One event; `none` if it cannot happen in this state. `silent` is `verbosity == VERBOSITY_SILENT`. -/
def step (silent : Bool) (s : State) : Event → Option (Outcome State)
  | .print f t =>
    -- nobody can write to a pipe that is not there yet
    if f.unborn s.trackers then none
    else some (.ok { s with unread := put s.unread f (s.unread f ++ t) })
  | .spawn fd =>
    -- `start_process` (297–382) with `reset_logger` (330)
    if s.process = none ∧ s.table fd = none then
      some (.ok { s with table := put s.table fd (some (.tracker s.trackers)), trackers := s.trackers + 1,
                         process := some (fd, true), out := .reset, error := .reset })
    else none
  | .exit =>
    match s.process with
    | some (fd, true) => some (.ok { s with process := some (fd, false) })
    | _ => none
  | .lookup =>
    -- 598–612
    if s.err = none ∧ s.stopping = none then
      match s.process with
      | some (fd, true) => some (.ok { s with err := some fd })
      | _ => some (.ok s)
    else none
  | .read =>
    -- 617–618, 625–637
    match s.err with
    | some fd =>
      if s.missed then none else
      match s.table fd with
      | some f =>
        match s.unread f with
        | c :: rest => some ({ s with unread := put s.unread f rest }.toError silent c)
        | [] => none
      | none => none
    | none => none
  | .miss =>
    -- 618, 620
    match s.err with
    | some fd => if s.missed ∨ s.readable fd then none else some (.ok { s with missed := true })
    | none => none
  | .settle =>
    -- 622–637
    if s.missed ∧ s.stopping = none then
      some ((s.error.flush (!silent)).map fun (w, error) =>
        { s with error, log := s.log ++ w, missed := false, err := if s.running then none else s.err })
    else none
  | .relay c =>
    -- `client_logger` is installed unless the client is silent (349–352)
    if silent ∨ s.process = none then none else some (s.toOut c)
  | .relayEnd =>
    -- 655–661
    if silent ∨ s.process = none then none
    else some ((s.out.flush true).map fun (w, out) => { s with out, log := s.log ++ w })
  | .stop =>
    -- 391, 398
    if s.process ≠ none ∧ s.stopping = none then some (.ok { s with stopping := some 10 }) else none
  | .drain =>
    -- 489–495
    match s.stopping, s.process with
    | some (k + 1), some (fd, _) =>
      if s.taken ≠ [] then none else
      match s.table fd with
      | some f =>
        if s.unread f = [] then none
        else some (.ok { s with stopping := some k, taken := (s.unread f).take loggerBufferSize,
                                unread := put s.unread f ((s.unread f).drop loggerBufferSize) })
      | none => none
    | _, _ => none
  | .pass =>
    -- 495, 665–676; the verbosity is not asked for
    match s.taken with
    | c :: rest => some ({ s with taken := rest }.toOut c)
    | [] => none
  | .stopped =>
    -- 493, 501, 421–428 with the destructor of `Process` (`support/client/process.cpp` 163–178)
    match s.stopping, s.process with
    | some k, some (fd, _) =>
      if s.taken = [] ∧ (k = 0 ∨ s.readable fd = false) then
        some (.ok { s with table := put s.table fd none, process := none, stopping := none, out := .reset, error := .reset })
      else none
    | _, _ => none
  | .open fd n =>
    if s.table fd = none then some (.ok { s with table := put s.table fd (some (.user n)) }) else none
  | .close fd =>
    match s.process with
    | some (fd', _) => if fd = fd' then none else some (.ok { s with table := put s.table fd none })
    | none => some (.ok { s with table := put s.table fd none })

/-- A schedule; `none` if it is not possible. -/
def run (silent : Bool) (s : State) : List Event → Option (Outcome State)
  | [] => some (.ok s)
  | e :: es =>
    match step silent s e with
    | none => none
    | some (.ok s) => run silent s es
    | some .abort => some .abort
    | some .ub => some .ub

/-- A client without a tracker, in a program with the descriptors `table` (`support/client/client.cpp` 227–265). -/
def start (table : Nat → Option Nat) (unread : Nat → Str) : State :=
  { table := fun fd => (table fd).map .user
    unread := fun f => match f with | .user n => unread n | .tracker _ => []
    trackers := 0, process := none, err := none, missed := false, stopping := none, taken := [], out := .reset, error := .reset, log := [] }

end Trax.LogSys
