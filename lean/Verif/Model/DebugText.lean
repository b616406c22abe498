import Verif.Model.Decimal
import Verif.Model.Outcome
import Verif.Model.Options

/-!
# Model of the debug messages of `TrackerProcess` (`support/client/client.cpp` 505–540)

The messages, the format and the arguments of each, `vsnprintf`, and `print_debug`. `vsnprintf` is written out from the C
standard for the conversions that the messages use, `%s` and `%d`.
-/

namespace Trax.Debug
open Trax.Opt (Verbosity)

/-- An argument of a message. -/
inductive Arg where
  | string (s : Str)
  | number (n : Int)
  deriving DecidableEq, Repr

/-- A `va_list`: after `va_start` it holds the arguments; after a function has read from it, its value is indeterminate. -/
inductive VaList where
  | started (args : List Arg)
  | indeterminate

/-- What a `const char*` shows of a string: up to the first zero. -/
def cText (s : Str) : Str := s.takeWhile (· ≠ 0)

/-- The whole text that a format and its arguments make; `conversion` tells that a `%` was read. A conversion without an argument of its type is undefined. -/
def expand : Bool → Str → List Arg → Outcome Str
  | conversion, [], _ => if conversion then .ub else .ok []
  | conversion, c :: rest, args =>
    if conversion then
      match args with
      | .string s :: args => if c = ch%'s' then (expand false rest args).map (cText s ++ ·) else .ub
      | .number n :: args => if c = ch%'d' then (expand false rest args).map (fmtInt n ++ ·) else .ub
      | [] => .ub
    else if c = ch%'%' then expand true rest args
    else (expand false rest args).map (c :: ·)

/-- `vsnprintf(buffer, size, format, args)`: the length of the whole text and what is in the buffer afterwards. Reading an
argument from an indeterminate list is undefined; a format without conversions reads none. -/
def vsnprintf (size : Nat) (format : Str) (args : VaList) : Outcome (Nat × Str) :=
  match args with
  | .started args => (expand false format args).map fun text => (text.length, text.take (size - 1))
  | .indeterminate =>
    if ch%'%' ∈ format then .ub else .ok (format.length, format.take (size - 1))

/-- `print_debug` (`support/client/client.cpp` 505–540, not on Windows): what is in the stream of the log afterwards; `none` without a stream. -/
def printDebug (verbosity : Verbosity) (stream : Option Str) (format : Str) (args : List Arg) : Outcome (Option Str) :=
  match stream with
  | none => .ok none
  | some log =>
    if verbosity ≠ .debug then .ok (some log)
    else
      let size := 1024
      (vsnprintf size format (.started args)).bind fun (length, buffer) =>
        let required := length + 1
        (if required ≥ size then (vsnprintf required format .indeterminate).map fun (_, buffer) => buffer
         else .ok buffer).map fun buffer =>
          some (log ++ (b!"CLIENT: " ++ cText buffer ++ b!"\n"))

/-- The places where `TrackerProcess` prints a debug message. -/
inductive Report where
  /-- 253 -/
  | socketOpened (port : Int)
  /-- 270 -/
  | cleaningUp
  /-- 286 -/
  | closingSocket
  /-- 304 -/
  | deletedClient
  /-- 307 -/
  | creating (command : Str)
  /-- 312 -/
  | directory (directory : Str)
  /-- 333 -/
  | starting
  /-- 337, 343 -/
  | notStarted
  /-- 355 -/
  | settingUpSocket
  /-- 358 -/
  | settingUpStreams (explicit : Bool)
  /-- 363 -/
  | notConnected
  /-- 369 -/
  | processId (id : Int)
  /-- 376 -/
  | connected
  /-- 394 -/
  | stopping
  /-- 406 -/
  | terminating
  /-- 414 -/
  | killing
  /-- 426 -/
  | terminated
  /-- 430 -/
  | stoppingLogger
  /-- 433 -/
  | exitedNormally
  /-- 436 -/
  | exitedSignal (signal : Int)
  /-- 439 -/
  | exitedCode (code : Int)
  /-- 480 -/
  | flushing
  /-- 645 -/
  | stoppingLoggerThread
  /-- 913 -/
  | resetting
  deriving DecidableEq, Repr

/-- The format and the arguments at each place (`support/client/client.cpp`, the lines at the constructors). -/
def Report.call : Report → Str × List Arg
  | .socketOpened port => (b!"Socket opened successfully on port %d.", [.number port])
  | .cleaningUp => (b!"Cleaning up.", [])
  | .closingSocket => (b!"Closing server socket.", [])
  | .deletedClient => (b!"Deleted stale client", [])
  | .creating command => (b!"Creating process %s", [.string command])
  | .directory path => (b!"Working directory is %s", [.string path])
  | .starting => (b!"Starting process", [])
  | .notStarted => (b!"Unable to start process", [])
  | .settingUpSocket => (b!"Setting up TraX with TCP socket connection", [])
  | .settingUpStreams explicit => (b!"Setting up TraX with %s streams connection", [.string (if explicit then b!"dedicated" else b!"standard")])
  | .notConnected => (b!"Unable to establish connection.", [])
  | .processId id => (b!"Tracker process ID: %d", [.number id])
  | .connected => (b!"Connection with tracker established.", [])
  | .stopping => (b!"Trying to stop process using protocol.", [])
  | .terminating => (b!"Trying to terminate process nicely.", [])
  | .killing => (b!"Escalating to brute-force termination.", [])
  | .terminated => (b!"Process should be terminated.", [])
  | .stoppingLogger => (b!"Stopping logger.", [])
  | .exitedNormally => (b!"Tracker exited normally.", [])
  | .exitedSignal signal => (b!"Tracker exited (stopped by signal %d)", [.number signal])
  | .exitedCode code => (b!"Tracker exited (exit code %d)", [.number code])
  | .flushing => (b!"Flushing streams", [])
  | .stoppingLoggerThread => (b!"Stopping logger thread", [])
  | .resetting => (b!"Resetting program.", [])

/-- The messages of a process, one after the other: `logger_mutex` is held while one is written (`support/client/client.cpp` 532–534). -/
def printAll (verbosity : Verbosity) : Option Str → List Report → Outcome (Option Str)
  | stream, [] => .ok stream
  | stream, r :: rs => (printDebug verbosity stream r.call.1 r.call.2).bind fun stream => printAll verbosity stream rs

end Trax.Debug
