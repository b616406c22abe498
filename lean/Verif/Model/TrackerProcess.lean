import Verif.Model.Outcome

/-!
# The tracker process of the client library (`support/client/client.cpp` 225–446, 540–580 and 730–941, `support/client/process.cpp`)

The operating system and the tracker are a parameter, the `World`: it decides whether a process starts, what
`waitpid` says, whether the tracker introduces itself, how an exchange with it ends, and where the watchdog
thread takes its turns. The theorems hold for every world. A turn of the watchdog is atomic in the model, and it
falls on the marked points of the calls. Not modelled: the contents of the exchanges (see `Model/Handle`), the
log (see `Model/Logger`), the ports (see `Model/Port`), sleeping, the destructor.
-/

namespace Trax.Proc

/-- What `waitpid(pid, &status, WNOHANG)` says. -/
inductive Poll where
  | running
  | exited (code : Nat)
  | signalled (sig : Nat)
  | error
  deriving DecidableEq, Repr

/-- The exchanges with the tracker. -/
inductive Exchange where
  | init
  | wait
  | frame
  deriving DecidableEq, Repr

/-- Everything outside of the library. -/
structure World (σ : Type) where
  /-- `Process::start`: did the process start? -/
  spawn : σ → Bool × σ
  /-- `waitpid` -/
  poll : σ → Poll × σ
  /-- `trax_client_setup_*`: `none` if there is no connection, otherwise the protocol version of the tracker -/
  connect : σ → Option Int × σ
  /-- `trax_is_alive` for an established connection -/
  alive : σ → Bool × σ
  /-- the result code of an exchange -/
  exchange : Exchange → σ → Int × σ
  /-- does a registered callback ask to terminate? -/
  callback : σ → Bool × σ
  /-- has the time of an armed watchdog run out? -/
  expired : σ → Bool × σ
  /-- does the watchdog thread take a turn at this point? The argument says whether the process is being started. -/
  turn : Bool → σ → Bool × σ

/-- `Process`: `gen` counts the processes; `exit` is `exit_status`, not set before `start`. -/
structure Process where
  gen : Nat
  running : Bool
  exit : Option Int
  deriving DecidableEq, Repr

/-- `Client`: to which process it belongs, and whether the connection was established. -/
structure Client where
  gen : Nat
  established : Bool
  deriving DecidableEq, Repr

/-- What the outside sees. -/
inductive Event where
  /-- an exchange with the tracker of process `gen` -/
  | exchange (e : Exchange) (gen : Nat)
  /-- `SIGTERM` -/
  | term (gen : Nat)
  /-- `SIGKILL` -/
  | kill (gen : Nat)
  deriving DecidableEq, Repr

/-- `TrackerProcess::State`. `tracking` is not set by the constructor. `armed` stands for `watchdog_timeout > 0`. -/
structure State (σ : Type) where
  world : σ
  process : Option Process
  client : Option Client
  tracking : Option Bool
  armed : Bool
  next : Nat
  log : List Event

/-- The state after the constructor (`support/client/client.cpp` 227–265). -/
def State.fresh {σ : Type} (w : σ) : State σ :=
  { world := w, process := none, client := none, tracking := none, armed := false, next := 0, log := [] }

/-- How a method ends. -/
inductive Result where
  | value (b : Bool)
  | thrown
  deriving DecidableEq, Repr

variable {σ : Type}

/-- `Process::is_alive` (`support/client/process.cpp` 559–607): the answer, the value stored in `*status`, the process. -/
def isAlive (W : World σ) (p : Process) (w : σ) : Bool × Option Int × Process × σ :=
  if p.running then
    match W.poll w with
    | (.running, w) => (true, some 0, p, w)
    | (.error, w) => (false, some 0, p, w)
    | (.exited code, w) => (false, some code, { p with running := false, exit := some code }, w)
    | (.signalled sig, w) => (false, some (-sig), { p with running := false, exit := some (-sig) }, w)
  else (false, p.exit, p, w)

/-- `for (int i = 0; i < n; i++) if (!process->is_alive(&exit_status)) break;` (`support/client/client.cpp` 400–403, 408–411). -/
def pollLoop (W : World σ) : Nat → Process → σ → Process × σ
  | 0, p, w => (p, w)
  | n + 1, p, w =>
    match isAlive W p w with
    | (false, _, p, w) => (p, w)
    | (true, _, p, w) => pollLoop W n p w

/-- `Process::stop` (`support/client/process.cpp` 395–430) and `Process::kill` (432–457): send the signal if the process is running as
far as is known, and look whether it is. -/
def signal (W : World σ) (e : Nat → Event) (p : Process) (w : σ) (log : List Event) : Process × σ × List Event :=
  if p.running then
    match isAlive W p w with
    | (_, _, p, w) => (p, w, log ++ [e p.gen])
  else (p, w, log)

/-- The part of `stop_process` that makes a process end (`support/client/client.cpp` 400–421): the exit status, the process, the signals. -/
def endProcess (W : World σ) (p : Process) (w : σ) (log : List Event) : Option Int × Process × σ × List Event :=
  match pollLoop W 5 p w with
  | (p, w) =>
    match isAlive W p w with
    | (false, status, p, w) => (status, p, w, log)
    | (true, _, p, w) =>
      match signal W .term p w log with
      | (p, w, log) =>
        match pollLoop W 5 p w with
        | (p, w) =>
          match isAlive W p w with
          | (false, status, p, w) => (status, p, w, log)
          | (true, _, p, w) =>
            match signal W .kill p w log with
            | (p, w, log) =>
              match isAlive W p w with
              | (_, status, p, w) => (status, p, w, log)

/-- `stop_process` (`support/client/client.cpp` 385–446), with the destructor of `Process` (`support/client/process.cpp` 163–178). -/
def stopProcess (W : World σ) (s : State σ) : Outcome (Bool × State σ) :=
  let s := { s with armed := false }
  match s.process with
  | none => .ok (true, s)
  | some p =>
    match endProcess W p s.world s.log with
    | (status, p, w, log) =>
      match signal W .kill p w log with
      | (_, w, log) =>
        match status with
        | none => .ub
        | some status => .ok (status == 0, { s with world := w, log := log, process := none })

/-- `process_running` (`support/client/client.cpp` 292–295). -/
def processRunning (W : World σ) (s : State σ) : Bool × State σ :=
  match s.process with
  | none => (false, s)
  | some p =>
    match isAlive W p s.world with
    | (b, _, p, w) => (b, { s with process := some p, world := w })

/-- One turn of the watchdog (`support/client/client.cpp` 552–578). -/
def watchdogTurn (W : World σ) (s : State σ) : Outcome (State σ) :=
  match processRunning W s with
  | (running, s) =>
    match W.callback s.world with
    | (asked, w) =>
      let s := { s with world := w }
      if !running || asked then (stopProcess W s).map (·.2)
      else if s.armed then
        match W.expired s.world with
        | (true, w) => (stopProcess W { s with world := w }).map (·.2)
        | (false, w) => .ok { s with world := w }
      else .ok s

/-- A point where the watchdog may take a turn. -/
def point (W : World σ) (starting : Bool) (s : State σ) : Outcome (State σ) :=
  match W.turn starting s.world with
  | (true, w) => watchdogTurn W { s with world := w }
  | (false, w) => .ok { s with world := w }

/-- The end of `start_process` (`support/client/client.cpp` 350–380) with what the connection gave. -/
def introduce (W : World σ) (p : Process) (x : Option Int × σ) (s : State σ) : Outcome (Result × State σ) :=
  (point W true { s with world := x.2, client := some ⟨p.gen, x.1.isSome⟩ }).bind fun s =>
  match x.1 with
  | none => .ok (.thrown, s)
  | some version =>
    match s.process with
    | none => .ub
    | some _ => if version > 4 then .ok (.thrown, { s with armed := false }) else .ok (.value true, { s with armed := false })

/-- `start_process` (`support/client/client.cpp` 297–382). `limit` says whether a timeout is set. A use of `process` after the
watchdog has deleted it is undefined behaviour. -/
def startProcess (W : World σ) (limit : Bool) (s : State σ) : Outcome (Result × State σ) :=
  match processRunning W s with
  | (true, s) => .ok (.value false, s)
  | (false, s) =>
    (point W true { s with client := none, process := some ⟨s.next, false, none⟩, next := s.next + 1 }).bind fun s =>
    match s.process with
    | none => .ub
    | some p =>
      match W.spawn s.world with
      | (false, w) => .ok (.thrown, { s with world := w, process := some { p with exit := some (-1) } })
      | (true, w) =>
        (point W true { s with world := w, process := some { p with running := true, exit := some (-1) } }).bind fun s =>
        match s.process with
        | none => .ub
        | some p =>
          match isAlive W p s.world with
          | (false, _, p, w) => .ok (.thrown, { s with world := w, process := some p })
          | (true, _, p, w) =>
            (point W true { s with world := w, process := some p, armed := limit }).bind fun s =>
            match s.process with
            | none => .ub
            | some p =>
              introduce W p (W.connect s.world) s

/-- `TrackerProcess::ready` (`support/client/client.cpp` 896–902). -/
def ready (W : World σ) (s : State σ) : Outcome (Bool × State σ) :=
  match processRunning W s with
  | (false, s) => .ok (false, s)
  | (true, s) =>
    match s.client with
    | none => .ub
    | some c =>
      if c.established then
        match W.alive s.world with
        | (b, w) => .ok (b, { s with world := w })
      else .ok (false, s)

/-- The end of an exchange (`support/client/client.cpp` 763–772, 788–796, 811–819, and the same for several objects), with its result
code: `good` is the code for success. -/
def conclude (W : World σ) (e : Exchange) (good : Int) (c : Client) (x : Int × σ) (s : State σ) : Outcome (Result × State σ) :=
  (point W false { s with world := x.2, log := s.log ++ [.exchange e c.gen] }).bind fun s =>
  let s := { s with armed := false, tracking := some (x.1 == good) }
  if x.1 = -1 then (stopProcess W s).map fun (_, s) => (.value (x.1 == good), s)
  else .ok (.value (x.1 == good), s)

/-- What all exchanges do after the checks (`support/client/client.cpp` 759–762, 783–786, 806–809, and the same for several objects). -/
def exchange (W : World σ) (limit : Bool) (e : Exchange) (good : Int) (s : State σ) : Outcome (Result × State σ) :=
  (point W false { s with armed := limit }).bind fun s =>
  match s.client with
  | none => .ub
  | some c =>
    conclude W e good c (W.exchange e s.world) s

/-- `TrackerProcess::initialize` (`support/client/client.cpp` 750–774, 823–847). `TRAX_OK` is 0. -/
def «initialize» (W : World σ) (limit : Bool) (s : State σ) : Outcome (Result × State σ) :=
  (startProcess W limit s).bind fun (r, s) =>
  match r with
  | .thrown => .ok (.thrown, s)
  | .value _ =>
    (ready W s).bind fun (b, s) =>
    if b then exchange W limit .init 0 { s with tracking := some false } else .ok (.thrown, s)

/-- `TrackerProcess::wait` (`support/client/client.cpp` 777–798, 849–870; `TRAX_STATE` is 5) and `TrackerProcess::frame`
(800–821, 872–893; `TRAX_OK` is 0). -/
def go (W : World σ) (limit : Bool) (e : Exchange) (good : Int) (s : State σ) : Outcome (Result × State σ) :=
  (ready W s).bind fun (b, s) =>
  if b then
    match s.tracking with
    | none => .ub
    | some false => .ok (.thrown, s)
    | some true => exchange W limit e good s
  else .ok (.thrown, s)

/-- `TrackerProcess::tracking` (`support/client/client.cpp` 904–909). -/
def tracking (W : World σ) (s : State σ) : Outcome (Result × State σ) :=
  (ready W s).bind fun (b, s) =>
  if b then
    match s.tracking with
    | none => .ub
    | some t => .ok (.value t, s)
  else .ok (.value false, s)

/-- `TrackerProcess::reset` (`support/client/client.cpp` 911–918). -/
def reset (W : World σ) (limit : Bool) (s : State σ) : Outcome (Result × State σ) :=
  (stopProcess W s).bind fun (_, s) => startProcess W limit s

/-- The calls that a program can make, and turns of the watchdog between them. -/
inductive Op where
  | query
  | init
  | wait
  | frame
  | ready
  | tracking
  | reset
  | turn
  deriving DecidableEq, Repr

/-- One call. -/
def step (W : World σ) (limit : Bool) (s : State σ) : Op → Outcome (Result × State σ)
  | .query => startProcess W limit s
  | .init => «initialize» W limit s
  | .wait => go W limit .wait 5 s
  | .frame => go W limit .frame 0 s
  | .ready => (Proc.ready W s).map fun (b, s) => (.value b, s)
  | .tracking => Proc.tracking W s
  | .reset => Proc.reset W limit s
  | .turn => (watchdogTurn W s).map fun s => (.value true, s)

/-- A history of calls; an exception is caught and the next call is made. -/
def history (W : World σ) (limit : Bool) : List Op → State σ → Outcome (List (Op × Result) × State σ)
  | [], s => .ok ([], s)
  | o :: rest, s =>
    (step W limit s o).bind fun (r, s) => (history W limit rest s).map fun (rs, s) => ((o, r) :: rs, s)

end Trax.Proc
