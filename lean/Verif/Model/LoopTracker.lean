import Verif.Model.TrackerLink

/-!
# A tracker that follows the documentation (`docs/api_cpp.rst` 393–437)

The loop that the documentation gives for integrating a tracker with the class `Server` (that is `ServerMOT`), around any two functions that
initialize and update a tracker. Simplification: the documentation's variable for a single image is a list of images (`include/trax.h` 684).
-/

namespace Trax.Loop

/-- What becomes of the program in a function of the tracker: it goes on and answers, it leaves the loop (so that the destructor of `Server` tells the client that the session ends), or
it crashes. -/
inductive Fate where
  | answers
  | leaves
  | crashes
  deriving DecidableEq

/-- The result of a function of the tracker: its state, the region it has found, what else it has written to the standard output, before and after the
reply gets there, and what becomes of the program. -/
structure Step (τ : Type) where
  state : τ
  region : Region
  before : Str := []
  after : Str := []
  fate : Fate := .answers

/-- The two functions (`docs/api_cpp.rst` 417–418, 426). They get the images that have come, and the properties. -/
structure Tracker (τ : Type) where
  init : Region → ImageList → Properties → Step τ
  update : τ → ImageList → Properties → Step τ

/-- The variables of `main`: the handle, and the tracker (`none` before it is initialized). -/
structure Program (τ : Type) where
  handle : Handle
  tracker : Option τ

variable {τ : Type}

/-- Before the loop (`docs/api_cpp.rst` 402–403; `src/traxpp.cpp` 424–428). -/
def begin (m : Metadata) (junk : UInt32) (stream : Stream) : Outcome (Program τ) := (Handle.serverSetup junk m stream 0).map fun h => ⟨h, none⟩

/-- How a turn ends: with the variables for the next one and the other output, at the end of the program, or with a crash. -/
inductive Next (τ : Type) where
  | go (p : Program τ) (before after : Str)
  | stop (h : Handle) (before : Str)
  | dead (before : Str)

/-- `handle.reply(…, trax::Properties())` (`docs/api_cpp.rst` 420, 427), if the function of the tracker comes to its end and the program stays in the loop. -/
def answer (env : Env) (h : Handle) (s : Step τ) : Outcome (Next τ) :=
  match s.fate with
  | .answers => (Cpp.serverReplyRegion env (some h) (some s.region) (some Properties.create)).map fun r =>
      .go ⟨r.2.1.getD h, some s.state⟩ s.before s.after
  | .leaves => .ok (.stop h s.before)
  | .crashes => .ok (.dead s.before)

/-- A turn of the loop (`docs/api_cpp.rst` 405–435). `none`: the message that ends the call of `wait` is not among the first `fuel`. The use of
a region that has not come, or of a tracker that has not been initialized, is not the library's business. -/
def turn (env : Env) (T : Tracker τ) (fuel : Nat) (p : Program τ) : Option (Outcome (Next τ)) :=
  (Cpp.serverWaitRegion env fuel (some p.handle) none Properties.create).map fun o => o.bind fun w =>
    let h := w.handle.getD p.handle
    if w.ret = TRAX_INITIALIZE then
      match w.region with
      | none => .ub
      | some r => answer env h (T.init r (w.images.getD []) w.props)
    else if w.ret = TRAX_FRAME then
      match p.tracker with
      | none => .ub
      | some t => answer env h (T.update t (w.images.getD []) w.props)
    else .ok (.stop h [])

/-- The program as a process: one turn of its loop for each request. `shared` tells whether the protocol uses the standard streams, so that the
other output of the program is mixed with it. A program that has ended writes nothing, and the operating system may tell about it from then on, or later (`report`).
At its end the destructor of `Server` calls `trax_cleanup` (`src/traxpp.cpp` 236–242, 430–432, `src/trax.c` 1478–1496). -/
def peer (env : Env) (T : Tracker τ) (shared : Bool) (m : Metadata) (junk : UInt32) (stream : Stream) (report : Nat → Proc.Poll) : Link.Peer (Option (Program τ)) where
  start := (begin m junk stream).map fun p => (some p, p.handle.stream.out.sent.drop stream.out.sent.length)
  respond text
    | none => .ok (none, [])
    | some p =>
      match turn env T (text.length + 3) { p with handle := Link.reads p.handle text } with
      | none => .ub
      | some o => o.map fun
        | .go q before after => (some q, (if shared then before else []) ++ (q.handle.stream.out.sent.drop p.handle.stream.out.sent.length ++ if shared then after else []))
        | .stop h before => (none, (if shared then before else []) ++ (h.terminate none).2.stream.out.sent.drop p.handle.stream.out.sent.length)
        | .dead before => (none, if shared then before else [])
  polled
    | none, moment => report moment
    | some _, _ => .running

end Trax.Loop
