import Verif.Model.PyStart
import Verif.Model.PyErrors
import Verif.Model.TrackerLink

/-!
# Trackers written in Python (`docs/api_python.rst` 49–65, `support/tests/static/python_static.py`)

The loop of the documentation and of the static tracker, around any function that computes the answer to a request. The documentation's program itself uses names that
the package does not have (`trax.region.RECTANGLE`, `request.region`) and gives `status` a region in place of a list, so that the calls are those of `python_static.py`.
-/

namespace Trax.PyLoop
open Py

/-- What becomes of the program in the body of the loop: it calls `status`, it leaves the loop, it raises an exception with a text, or it crashes (without an exception). -/
inductive Fate where
  | answers
  | leaves
  | raises (text : Text)
  | crashes
  deriving DecidableEq

/-- The result of the body: the variables of the program, the arguments of `status`, what else has come to the standard output, before and after the
reply gets there, and what becomes of the program. -/
structure Step (τ : Type) where
  state : τ
  objects : List (Region × Dict)
  properties : Dict := []
  before : Str := []
  after : Str := []
  fate : Fate := .answers

/-- The variables before the loop, and its body up to `server.status` (`support/tests/static/python_static.py` 11–22). -/
structure Tracker (τ : Type) where
  first : τ
  step : τ → Request → Step τ

/-- The variables of the program: the handle of `server`, and the others. -/
structure Program (τ : Type) where
  handle : Handle
  state : τ

variable {τ : Type}

/-- `str(exc_val)` (`support/python/trax/server.py` 156). `other` gives the texts of exceptions that the package does not make itself, and of the indeterminate numbers. -/
def message (other : Thrown → Text) : Thrown → Text
  | .trax text => text
  | e => other e

/-- The end of the `with` block (`support/python/trax/server.py` 152–174): what has been written then. If `quit` raises an exception, the handle is released when the
program ends. The report on the exception goes to the standard error (155). -/
def leave (reason : Option Text) (h : Handle) : Writer :=
  match (serverExit reason (.running h)).2 with
  | .ended out => out
  | .running h => h.cleanup.2

/-- How a turn ends: with the variables for the next one and the other output, at the end of the program with all that has been written, or with a crash. -/
inductive Next (τ : Type) where
  | go (p : Program τ) (before after : Str)
  | stop (out : Writer) (before : Str)
  | dead (before : Str)

/-- `server.status(objects, properties)` (`support/tests/static/python_static.py` 22, `docs/api_python.rst` 65), if the program comes to it. -/
def answer (env : Env) (other : Thrown → Text) (h : Handle) (s : Step τ) : Outcome (Next τ) :=
  match s.fate with
  | .answers => (serverStatusText env h s.objects s.properties).map fun r =>
      match r.1 with
      | .ok () => .go ⟨r.2, s.state⟩ s.before s.after
      | .error e => .stop (leave (some (message other e)) r.2) s.before
  | .leaves => .ok (.stop (leave none h) s.before)
  | .raises text => .ok (.stop (leave (some text) h) s.before)
  | .crashes => .ok (.dead s.before)

/-- A turn of the loop (`support/tests/static/python_static.py` 14–22, `docs/api_python.rst` 55–65). `none`: the message that ends the call of `wait` is not among the first `fuel`. -/
def turn (env : Env) (other : Thrown → Text) (T : Tracker τ) (fuel : Nat) (p : Program τ) : Option (Outcome (Next τ)) :=
  (serverWaitText env fuel p.handle).map fun o => o.bind fun r =>
    match r.1 with
    | .error e => .ok (.stop (leave (some (message other e)) r.2) [])
    | .ok request =>
      if request.type = t!"quit" ∨ request.type = t!"error" then .ok (.stop (leave none r.2) [])
      else answer env other r.2 (T.step p.state request)

/-- The program as a process: one turn of its loop for each request. `shared` tells whether the protocol uses the standard streams, so that the
other output of the program is mixed with it. A program that has ended writes nothing, and the operating system may tell about it from then on, or later (`report`). If
`Server(…)` raises an exception, the program ends at once. -/
def peer (env : Env) (other : Thrown → Text) (T : Tracker τ) (shared : Bool) (a : ServerArgs) (junk : UInt32) (stream : Stream) (report : Nat → Proc.Poll) :
    Link.Peer (Option (Program τ)) where
  start := (serverInit junk a stream).map fun
    | .error _ => (none, [])
    | .ok h => (some ⟨h, T.first⟩, h.stream.out.sent.drop stream.out.sent.length)
  respond text
    | none => .ok (none, [])
    | some p =>
      match turn env other T (text.length + 3) { p with handle := Link.reads p.handle text } with
      | none => .ub
      | some o => o.map fun
        | .go q before after => (some q, (if shared then before else []) ++ (q.handle.stream.out.sent.drop p.handle.stream.out.sent.length ++ if shared then after else []))
        | .stop out before => (none, (if shared then before else []) ++ out.sent.drop p.handle.stream.out.sent.length)
        | .dead before => (none, if shared then before else [])
  polled
    | none, moment => report moment
    | some _, _ => .running

/-! ## The static tracker -/

/-- The objects as arguments of `status`; a region that is `None` has no attribute `reference` (`support/python/trax/__init__.py` 376–379). -/
def present : List (Option Region × Dict) → Option (List (Region × Dict))
  | [] => some []
  | (none, _) :: _ => none
  | (some r, d) :: l => (present l).map ((r, d) :: ·)

/-- `server.status(objects)` of the static tracker (`support/tests/static/python_static.py` 22): `objects` is `None` before the first initialization. -/
def staticAnswer (objects : Option (List (Option Region × Dict))) (printed : Str) : Step (Option (List (Option Region × Dict))) :=
  match objects.bind present with
  | none => { state := objects, objects := [], before := printed, fate := .raises [] }
  | some l => { state := objects, objects := l, before := printed }

/-- The body of the loop of the static tracker (`support/tests/static/python_static.py` 18–22). `float` is the line that `print` writes for the number of a text, or `none` when
there is no such number. That line may also come later, because Python buffers it; the pause (23–24) is not modelled. -/
def staticStep (float : Text → Option Str) (objects : Option (List (Option Region × Dict))) (request : Request) : Step (Option (List (Option Region × Dict))) :=
  if request.type = t!"initialize" then
    match propGet request.properties t!"time_wait" (some t!"0") with
    | .ok (some text) => match float text with
      | some line => staticAnswer request.objects line
      | none => { state := request.objects, objects := [], fate := .raises (t!"could not convert string to float: '" ++ text ++ t!"'") }
    | _ => { state := request.objects, objects := [], fate := .raises [] }
  else staticAnswer objects []

/-- The static tracker (`support/tests/static/python_static.py` 11–24). -/
def static (float : Text → Option Str) : Tracker (Option (List (Option Region × Dict))) := ⟨none, staticStep float⟩

/-- What it declares (`support/tests/static/python_static.py` 13; the other arguments have their default values, `support/python/trax/server.py` 46). -/
def staticArgs : ServerArgs := ⟨[t!"rectangle"], [t!"path"], [t!"color"], [], [], [], [], false⟩

end Trax.PyLoop
