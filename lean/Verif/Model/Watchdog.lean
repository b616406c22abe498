import Verif.Model.Outcome

/-!
# The watchdog of a tracker process (`support/client/client.cpp` 448–465, 543–585)

The watchdog thread counts down `watchdog_timeout`, which the thread of the caller sets without
holding `watchdog_mutex`. The model interleaves the loads and stores of the two threads.
-/

namespace Trax

/-- Where the watchdog thread is inside of one turn of its loop (`support/client/client.cpp` 567–576). -/
inductive WatchdogPoint where
  /-- Sleeping, or before the tests (551). -/
  | idle
  /-- After the test `watchdog_timeout > 0` (567). -/
  | positive
  /-- `watchdog_timeout--` (569) has loaded the value. -/
  | loaded (value : Int)
  /-- `watchdog_timeout--` has stored the new value; the test for zero (571) is next. -/
  | stored
  deriving DecidableEq, Repr

/-- The state shared by the two threads: `watchdog_timeout`, the point reached by the watchdog
thread, and whether there is a process that is alive (`process_running`, `support/client/client.cpp`
292–295). `stops` counts the calls of `stop_process` made by the watchdog for a process that was alive. -/
structure Watchdog where
  timer : Int
  point : WatchdogPoint
  alive : Bool
  stops : Nat
  deriving DecidableEq, Repr

namespace Watchdog

/-- The state after construction (`support/client/client.cpp` 257–261; `stop_watchdog`). -/
def initial : Watchdog := ⟨0, .idle, false, 0⟩

/-- `reset_watchdog` (`support/client/client.cpp` 448–452): `start_watchdog` (454–458) calls it with
the timeout, `stop_watchdog` (461–465) with zero. The multiplication may overflow. -/
def reset (w : Watchdog) (timeout : Int) : Outcome Watchdog :=
  (mul32 timeout 10).map fun t => { w with timer := t }

/-- `stop_process` (`support/client/client.cpp` 386–446): the watchdog is disarmed and the process,
if there is one, is ended. Simplified: that the process is gone afterwards is taken for granted. -/
def stopProcess (w : Watchdog) : Watchdog := { w with timer := 0, alive := false }

/-- `stop_process` called by the watchdog thread. -/
def fire (w : Watchdog) : Watchdog := { w.stopProcess with point := .idle, stops := if w.alive then w.stops + 1 else w.stops }

/-- One step of the watchdog thread between two accesses to the shared counter (`watchdog_loop`,
`support/client/client.cpp` 549–581). `callbacks` tells whether a registered callback asks for the
process to be stopped. Simplified: the end of the thread (`watchdog_active`) is not modelled. -/
def step (w : Watchdog) (callbacks : Bool) : Watchdog :=
  match w.point with
  | .idle =>
    let terminate := !w.alive || callbacks
    if terminate then w.fire
    else if w.timer > 0 then { w with point := .positive } else w
  | .positive => { w with point := .loaded w.timer }
  | .loaded value => { w with timer := value - 1, point := .stored }
  | .stored => if w.timer = 0 then w.fire else { w with point := .idle }

/-- A whole turn of the loop of the watchdog thread with nothing in between (`support/client/client.cpp`
549–581). -/
def tick (w : Watchdog) (callbacks : Bool) : Watchdog :=
  let w' := w.step callbacks
  if w'.point = .idle then w' else ((w'.step callbacks).step callbacks).step callbacks

end Watchdog

/-- What can happen to the watchdog and the process. -/
inductive WatchdogEvent where
  /-- The calling thread arms the watchdog with a number of seconds, or disarms it (zero). -/
  | reset (timeout : Int)
  /-- The calling thread stops the process. -/
  | halt
  /-- The calling thread starts the process. -/
  | start
  /-- The process ends by itself. -/
  | exit
  /-- A turn of the watchdog loop that nothing interrupts. -/
  | tick (callbacks : Bool)
  /-- A step of the watchdog thread inside of its loop. -/
  | step (callbacks : Bool)
  deriving DecidableEq, Repr

namespace Watchdog

/-- One event; `start` is the start of the process alone (`support/client/client.cpp` 330–337; the
calls that arm the watchdog around it are events of their own). -/
def apply (w : Watchdog) : WatchdogEvent → Outcome Watchdog
  | .reset timeout => w.reset timeout
  | .halt => .ok w.stopProcess
  | .start => .ok { w with alive := true }
  | .exit => .ok { w with alive := false }
  | .tick callbacks => .ok (w.tick callbacks)
  | .step callbacks => .ok (w.step callbacks)

/-- A history of events. -/
def run (w : Watchdog) : List WatchdogEvent → Outcome Watchdog
  | [] => .ok w
  | e :: es => (w.apply e).bind fun w => w.run es

end Watchdog

end Trax
