import Verif.Model.Bytes

/-!
# The mutexes of the client library (`support/client/client.cpp`, `support/client/process.cpp`, `support/client/threads.cpp`)

What the main thread, the watchdog and the logger do with the mutexes of a `TrackerProcess`, of its `Process` and of the log. A function is the list of its accesses; what it does depends on values that are arguments here (all of them are
arbitrary), so that every run of the function is covered. Simplifications: all that is done between two accesses is one step, which ends (reading from a tracker that does not answer is ended by the watchdog, see C67); the loops of the watchdog and
of the logger make an arbitrary number of turns and then see that they are to end.
-/

namespace Trax.ClientLocks

/-- `watchdog_mutex`, `process_state_mutex`, `logger_mutex` (`support/client/client.cpp` 716–719), the `object_mutex` of the process (`support/client/threads.h` 209), the mutex of `flush_condition` (`support/client/threads.h` 196)
and the one of a log on the console of MATLAB (`support/matlab/traxclient.cpp` 169). -/
inductive Mutex where
  | watchdog
  | processState
  | object
  | logger
  | console
  | signal
  deriving DecidableEq, Repr

/-- Only `object_mutex` is a `RecursiveMutex` (`support/client/threads.h` 209; `support/client/client.cpp` 716–719). -/
def Mutex.recursive : Mutex → Bool
  | .object => true
  | _ => false

/-- An access: to a mutex, none of them, or waiting for the end of a thread. -/
inductive Act where
  | acquire (m : Mutex)
  | release (m : Mutex)
  | work
  | join (t : Nat)
  deriving DecidableEq, Repr

/-- The threads, who holds the mutexes, and how often. -/
structure State where
  todo : Nat → List Act
  owner : Mutex → Option Nat
  depth : Mutex → Nat

/-- `f` with another value in one place. -/
def set {α β : Type} [DecidableEq α] (f : α → β) (a : α) (b : β) : α → β := fun x => if x = a then b else f x

/-- One step of a thread. `Mutex::acquire` and `Mutex::release` (`support/client/threads.cpp` 122–159; how the recursive mutex does it is `Model/Lock`); `JOIN_THREAD` (`support/client/threads.cpp` 96–104). A thread that cannot go on
leaves the state as it is. -/
def step (t : Nat) (s : State) : State :=
  match s.todo t with
  | [] => s
  | .acquire m :: rest =>
    match s.owner m with
    | none => ⟨set s.todo t rest, set s.owner m (some t), set s.depth m 1⟩
    | some u => if u = t ∧ m.recursive = true then ⟨set s.todo t rest, s.owner, set s.depth m (s.depth m + 1)⟩ else s
  | .release m :: rest =>
    if s.owner m = some t then
      if s.depth m ≤ 1 then ⟨set s.todo t rest, set s.owner m none, set s.depth m 0⟩
      else ⟨set s.todo t rest, s.owner, set s.depth m (s.depth m - 1)⟩
    else ⟨set s.todo t rest, s.owner, s.depth⟩
  | .work :: rest => ⟨set s.todo t rest, s.owner, s.depth⟩
  | .join u :: rest => if s.todo u = [] then ⟨set s.todo t rest, s.owner, s.depth⟩ else s

/-- A block with a `Lock` (`support/client/threads.cpp` 169–204), also as `OBJECT_SYNCHRONIZE` and `MUTEX_SYNCHRONIZE` (`support/client/threads.h` 213–215): whatever way the block is left, the mutex is released once. -/
def locked (m : Mutex) (body : List Act) : List Act := .acquire m :: (body ++ [.release m])

/-- How the object was created: whether it writes debug messages, and whether its log is the console of MATLAB. -/
structure Env where
  debug : Bool
  console : Bool

/-- Writing to the log (`support/client/client.cpp` 179–191; `support/matlab/traxclient.cpp` 171–190). -/
def writeLog (e : Env) : List Act := if e.console then locked .console [.work] else [.work]

/-- `print_debug` (`support/client/client.cpp` 505–541). -/
def printDebug (e : Env) : List Act := if e.debug then .work :: locked .logger (writeLog e) else []

/-- `client_logger` (`support/client/client.cpp` 651–681), with so many flushes of the line buffer. -/
def clientLogger (e : Env) (flushes : Nat) : List Act := (List.replicate flushes (.work :: locked .logger (writeLog e))).flatten

/-- `reset_logger` (`support/client/client.cpp` 467–476). -/
def resetLogger : List Act := locked .logger [.work]

/-- `Process::is_alive` (`support/client/process.cpp` 559–607), and likewise `get_input`, `get_output`, `get_error` and `get_handle` (519–557, 609–625) and `start` (180–393). -/
def ask : List Act := locked .object [.work]

/-- `Process::stop` (`support/client/process.cpp` 395–430) and `kill` (432–457). -/
def endProcess (running : Bool) : List Act := locked .object (if running then .work :: ask else [])

/-- `Process::~Process` (`support/client/process.cpp` 163–178), with `cleanup` (460–517). -/
def destroyProcess (running : Bool) : List Act := endProcess running ++ locked .object [.work] ++ [.work]

/-- `process_running` (`support/client/client.cpp` 292–295). -/
def processRunning (there : Bool) : List Act := locked .processState (if there then ask else [])

/-- `Signal::wait` (`support/client/threads.cpp` 219–228) with a time limit: the mutex is given back while the thread waits. -/
def signalWait : List Act := locked .signal [] ++ [.work] ++ locked .signal []

/-- `Signal::notify` (`support/client/threads.cpp` 230–236). -/
def signalNotify : List Act := locked .signal [.work]

/-- `flush_streams` (`support/client/client.cpp` 478–503), with the numbers of lines of the reads. -/
def flushStreams (e : Env) (reads : List Nat) : List Act :=
  printDebug e ++ (reads.map fun n => ask ++ [.work] ++ clientLogger e n ++ [.work]).flatten ++ ask ++ signalWait

/-- What happens in a call of `stop_process`. -/
structure Stop where
  /-- the lines that are logged while the client says goodbye, if there is a client -/
  client : Option Nat
  process : Bool
  polls : Nat
  nicely : Bool
  running : Bool
  morePolls : Nat
  force : Bool
  reads : List Nat

/-- `stop_process` (`support/client/client.cpp` 385–445). -/
def stopProcess (e : Env) (c : Stop) : List Act :=
  locked .processState
    ((match c.client with | some lines => printDebug e ++ [.work] ++ clientLogger e lines | none => []) ++
     (if c.process then
        (List.replicate c.polls ask).flatten ++ ask ++
        (if c.nicely then
           printDebug e ++ endProcess c.running ++ (List.replicate c.morePolls ask).flatten ++ ask ++
           (if c.force then printDebug e ++ endProcess c.running ++ [.work] ++ ask else [])
         else []) ++
        flushStreams e c.reads ++ destroyProcess c.running ++ printDebug e ++ resetLogger ++ printDebug e ++ printDebug e
      else []))

/-- What happens in a call of `start_process`. -/
structure Start where
  there : Bool
  running : Bool
  stale : Option Nat
  directory : Bool
  started : Bool
  alive : Bool
  /-- the lines that are logged while the connection is made -/
  lines : Nat
  connected : Bool

/-- `start_process` (`support/client/client.cpp` 297–382). -/
def startProcess (e : Env) (c : Start) : List Act :=
  processRunning c.there ++
  (if c.running then []
   else
     (match c.stale with | some lines => clientLogger e lines ++ printDebug e | none => []) ++ printDebug e ++
     locked .processState (.work :: (if c.directory then printDebug e ++ [.work] else [])) ++ [.work] ++ resetLogger ++ printDebug e ++ ask ++
     (if c.started then
        ask ++
        (if c.alive then
           printDebug e ++ ask ++ ask ++ clientLogger e c.lines ++ (if c.connected then ask ++ printDebug e ++ [.work] ++ printDebug e else printDebug e)
         else printDebug e)
      else printDebug e))

/-- A callback of the watchdog: one that does without the library, one that asks the `TrackerProcess` whether it is ready, and one that registers another callback. -/
inductive Callback where
  | plain
  | ready (there : Bool)
  | register
  deriving DecidableEq, Repr

/-- `register_callback` (`support/client/client.cpp` 683–688). -/
def register : List Act := locked .watchdog [.work]

/-- A call of a callback (`support/client/client.cpp` 559–561). -/
def callback : Callback → List Act
  | .plain => [.work]
  | .ready there => processRunning there ++ [.work]
  | .register => register

/-- A turn of the watchdog (`support/client/client.cpp` 551–581): its callbacks, and what happens if it stops the process. -/
structure Turn where
  there : Bool
  callbacks : List Callback
  stop : Option Stop

/-- `watchdog_loop` (`support/client/client.cpp` 543–585). -/
def watchdogTurn (e : Env) (c : Turn) : List Act :=
  .work :: locked .watchdog
    (processRunning c.there ++ (c.callbacks.map callback).flatten ++ (match c.stop with | some stop => stopProcess e stop | none => [.work]))

/-- A turn of the logger (`support/client/client.cpp` 594–643). -/
structure LoggerTurn where
  /-- it looks for the descriptor, and whether the process is there and running -/
  search : Option (Bool × Bool)
  found : Bool
  failed : Option Bool
  flush : Bool
  notify : Bool

/-- A turn of `logger_loop` (`support/client/client.cpp` 587–649). -/
def loggerTurn (e : Env) (c : LoggerTurn) : List Act :=
  (match c.search with
   | some (there, running) => processRunning there ++ (if running then ask else signalNotify)
   | none => []) ++
  (if c.found then
     [.work] ++ (match c.failed with | some there => processRunning there | none => [.work]) ++ (if c.flush then locked .logger (writeLog e) ++ (if c.notify then signalNotify else []) else [])
   else [.work])

/-- What the methods of `TrackerProcess` (`support/client/client.cpp` 730–935) consist of, and `LOGPUSH` (`support/matlab/traxclient.cpp` 151–163, 393). -/
inductive Call where
  | start (c : Start)
  | stop (c : Stop)
  | running (there : Bool)
  | talk (lines : Nat)
  | message
  | register
  | push

/-- A part of a method (`support/client/client.cpp` 730–935). -/
def call (e : Env) : Call → List Act
  | .start c => startProcess e c
  | .stop c => stopProcess e c
  | .running there => processRunning there
  | .talk lines => [.work] ++ clientLogger e lines ++ [.work]
  | .message => printDebug e
  | .register => ClientLocks.register
  | .push => locked .console [.work]

/-- `~State` (`support/client/client.cpp` 268–290). -/
def destroy (e : Env) (c : Stop) : List Act :=
  printDebug e ++ [.work, .join 1, .join 2] ++ stopProcess e c ++ [.work] ++ printDebug e

/-- The life of a `TrackerProcess`: the main thread (0), the watchdog (1) and the logger (2). (`support/client/client.cpp` 225–290, 543–649.) -/
def begin (e : Env) (calls : List Call) (last : Stop) (turns : List Turn) (loggerTurns : List LoggerTurn) : State :=
  { todo := fun t =>
      match t with
      | 0 => (calls.map (call e)).flatten ++ destroy e last
      | 1 => (turns.map (watchdogTurn e)).flatten
      | 2 => (loggerTurns.map (loggerTurn e)).flatten ++ printDebug e
      | _ => []
    owner := fun _ => none
    depth := fun _ => 0 }

/-- The first steps of a schedule, which is any sequence of threads. (`support/client/client.cpp` 225–290, 543–649.) -/
def run (schedule : Nat → Nat) : Nat → State → State
  | 0, s => s
  | n + 1, s => step (schedule n) (run schedule n s)

end Trax.ClientLocks
