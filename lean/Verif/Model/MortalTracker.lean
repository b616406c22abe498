import Verif.Model.LoopTracker

/-!
# Trackers whose process ends between two requests (`support/tests/bad/badtracker.cpp`)

A program that ends after it has answered a request: `traxclient` has its answer, and there is no one to read the next request. Simplification: what is written into
the pipe of a process that has ended is lost, and the call that writes it succeeds. (The operating system can also let the call fail, or end `traxclient` with the signal `SIGPIPE`,
which the program does not ignore; for a connection by socket, `src/message.c` 633–637 asks that there is no such signal.)
-/

namespace Trax

/-- The program of a tracker that ends as soon as `gone` holds of its variables after a turn (`support/tests/bad/badtracker.cpp` 53–71: `raise`). What it has written before that has been
written. `report` is what the operating system says of the process from then on. -/
def Link.mortal {π : Type} (P : Link.Peer π) (gone : π → Bool) (report : Nat → Proc.Poll) : Link.Peer (Option π) where
  start := P.start.map fun r => (some r.1, r.2)
  respond text
    | none => .ok (none, [])
    | some p => (P.respond text p).map fun r => (if gone r.1 then none else some r.1, r.2)
  polled
    | none, moment => report moment
    | some p, moment => P.polled p moment

namespace Loop

/-- The tracker behind the loop says that the program ends (`gone`). -/
def over {τ : Type} (gone : τ → Bool) : Option (Program τ) → Bool
  | some ⟨_, some t⟩ => gone t
  | _ => false

/-- The variables of the program: the object that it was initialized with, and the number of requests that it still answers (`support/tests/bad/badtracker.cpp` 13, 16). -/
structure Countdown where
  memory : Region
  left : Int

/-- The two branches of its loop (`support/tests/bad/badtracker.cpp` 27–51): the answer is always the region of the initialization. Simplifications: one object, as `traxclient` has it; the lines on the standard
error (26, 41, 43, 53) are left out; a value of `break_time` that is no `int` is taken as the default. `break_type` (30–36) only has an influence on what the operating system reports. -/
def bad : Tracker Countdown where
  init r _ props := { state := ⟨r, (match props.getInt b!"break_time" 5 with | .ok n => n | _ => 5) - 1⟩, region := r }
  update s _ _ := { state := ⟨s.memory, s.left - 1⟩, region := s.memory }

/-- `if (timetobreak <= 0)` (`support/tests/bad/badtracker.cpp` 55). -/
def Countdown.gone (s : Countdown) : Bool := decide (s.left ≤ 0)

/-- The program, as a process: it ends with a signal (`support/tests/bad/badtracker.cpp` 11, 18–71). -/
def badPeer (env : Env) (shared : Bool) (m : Metadata) (junk : UInt32) (stream : Stream) (report : Nat → Proc.Poll) : Link.Peer (Option (Option (Program Countdown))) :=
  Link.mortal (peer env bad shared m junk stream report) (over Countdown.gone) report

end Loop

end Trax
