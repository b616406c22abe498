import Verif.Model.Bytes

/-!
# The process of a tracker and its status (`support/client/process.cpp`, POSIX part)

The class `Process` on its own, with the operating system's side of a child. (`Model/TrackerProcess` has the same functions with an arbitrary operating system, `Model/Descriptors` has the descriptors.) Simplifications: arguments,
environment and directory are left out; each call is atomic (they lock the object).
-/

namespace Trax.Child

/-- How a child ends: it calls `exit`, or a signal ends it (with or without a core dump). -/
inductive Fate where
  | exit (code : Int)
  | signal (n : Nat) (core : Bool)
  deriving DecidableEq, Repr

/-- The child as the operating system knows it. -/
inductive Child where
  | absent
  | running
  | dead (f : Fate)
  | reaped
  deriving DecidableEq, Repr

/-- The status that `waitpid` stores (Linux): the lower eight bits of the code above eight zeros; or the signal, with bit 7 for a core dump. -/
def waitStatus : Fate → Nat
  | .exit code => (code % 256).toNat * 256
  | .signal n core => n + if core then 128 else 0

/-- `WIFEXITED` (Linux; `support/client/process.cpp` 589). -/
def wifExited (s : Nat) : Bool := s % 128 == 0

/-- `WEXITSTATUS` (Linux; `support/client/process.cpp` 590). -/
def wExitStatus (s : Nat) : Nat := s / 256 % 256

/-- `WIFSIGNALED` (Linux; `support/client/process.cpp` 592). -/
def wifSignaled (s : Nat) : Bool := s % 128 != 0 && s % 128 != 127

/-- `WTERMSIG` (Linux; `support/client/process.cpp` 593). -/
def wTermSig (s : Nat) : Nat := s % 128

/-- `Process` (`support/client/process.h` 62–87, 106; `support/client/process.cpp` 145–160): what is `none` has not been set. -/
structure Process where
  running : Bool
  exitStatus : Option Int
  pid : Int
  stdin : Option Int
  stdout : Option Int
  stderr : Option Int
  deriving DecidableEq, Repr

/-- The object, the child, and the children (as they were at that moment) that were sent a signal. -/
structure State where
  p : Process
  child : Child
  signalled : List Child
  deriving DecidableEq, Repr

/-- After the constructor (`support/client/process.cpp` 145–160). -/
def fresh : State := ⟨⟨false, none, 0, none, none, none⟩, .absent, []⟩

/-- What `pipe` and `posix_spawnp` give if they succeed. -/
structure Spawned where
  pid : Int
  stdin : Int
  stdout : Int
  stderr : Int
  deriving DecidableEq, Repr

/-- `Process::start` (`support/client/process.cpp` 180–393): `none` if `pipe` or `posix_spawnp` fails. -/
def start (sp : Option Spawned) (s : State) : Bool × State :=
  if s.p.running then (false, s)
  else
    let p := { s.p with exitStatus := some (-1), stdin := some (-1), stdout := some (-1), stderr := some (-1) }
    if p.pid ≠ 0 then (false, { s with p := p })
    else
      match sp with
      | none => (false, { s with p := p })
      | some sp => (true, { s with p := { p with running := true, pid := sp.pid, stdin := some sp.stdin, stdout := some sp.stdout, stderr := some sp.stderr }, child := .running })

/-- `waitpid(pid, &status, WNOHANG)` (`support/client/process.cpp` 584). -/
def waitpid (pid : Int) : Child → Int × Nat × Child
  | .absent => (-1, 0, .absent)
  | .running => (0, 0, .running)
  | .dead f => (pid, waitStatus f, .reaped)
  | .reaped => (-1, 0, .reaped)

/-- `Process::is_alive` (`support/client/process.cpp` 559–607): the answer and `*status`. -/
def isAlive (s : State) : Bool × Option Int × State :=
  if !s.p.running then (false, s.p.exitStatus, s)
  else
    match waitpid s.p.pid s.child with
    | (result, status, child) =>
      let s := { s with child := child }
      if result ≤ 0 then (result == 0, some 0, s)
      else if wifExited status then (false, some (wExitStatus status), { s with p := { s.p with running := false, exitStatus := some (wExitStatus status) } })
      else if wifSignaled status then (false, some (-wTermSig status), { s with p := { s.p with running := false, exitStatus := some (-wTermSig status) } })
      else (true, some 0, s)

/-- `Process::stop` (`support/client/process.cpp` 395–430) and `Process::kill` (432–457). What the signal does to the child comes later. -/
def signal (s : State) : Bool × State :=
  if s.p.running then (true, (isAlive { s with signalled := s.signalled ++ [s.child] }).2.2) else (true, s)

/-- `Process::get_input` (`support/client/process.cpp` 519–529), with `get_output` (531–540) and `get_error` (542–557). -/
def stream (d : Process → Option Int) (s : State) : Option Int := if s.p.running then d s.p else some (-1)

/-- `Process::get_handle` (`support/client/process.cpp` 609–625). -/
def handle (s : State) : Int := if !s.p.running then 0 else s.p.pid

/-- The destructor (`support/client/process.cpp` 163–178, 460–517), for an object that was started, without the descriptors. -/
def destroy (s : State) : State :=
  match signal s with
  | (_, s) => { s with p := { s.p with running := false } }

/-- A call, or the end of the child. -/
inductive Step where
  | start (sp : Option Spawned)
  | isAlive
  | stop
  | kill
  | input
  | output
  | error
  | handle
  | ends (f : Fate)
  deriving DecidableEq, Repr

/-- What a call returns. -/
inductive Reply where
  | done (b : Bool)
  | alive (b : Bool) (status : Option Int)
  | number (n : Option Int)
  deriving DecidableEq, Repr

/-- One step. A child that runs can end at any moment. (`support/client/process.cpp` 180–625.) -/
def step (s : State) : Step → Option Reply × State
  | .start sp => match start sp s with | (b, s) => (some (.done b), s)
  | .isAlive => match isAlive s with | (b, status, s) => (some (.alive b status), s)
  | .stop => match signal s with | (b, s) => (some (.done b), s)
  | .kill => match signal s with | (b, s) => (some (.done b), s)
  | .input => (some (.number (stream (·.stdin) s)), s)
  | .output => (some (.number (stream (·.stdout) s)), s)
  | .error => (some (.number (stream (·.stderr) s)), s)
  | .handle => (some (.number (some (handle s))), s)
  | .ends f => (none, if s.child = .running then { s with child := .dead f } else s)

/-- Steps, one after another, with the replies. (`support/client/process.cpp` 180–625.) -/
def run : List Step → State → List Reply × State
  | [], s => ([], s)
  | x :: rest, s =>
    match step s x with
    | (r, s) =>
      match run rest s with
      | (rs, s) => (r.toList ++ rs, s)

end Trax.Child
