import Verif.Model.Runner

/-!
# How a run over a sequence is meant to go

Frame by frame. The runner is idle, or tracking, or it has given up. What it writes for a frame depends only
on that and on the answer of the tracker.
-/

namespace Trax.Cli.Spec

/-- What the runner is doing before a frame. -/
inductive Phase where
  /-- there is no tracked target; the next frames are passed over, then it waits for a frame with an initialization region -/
  | idle (pass : Nat)
  /-- the target is tracked -/
  | tracking
  /-- a failure without reinitialization: the rest of the sequence is passed over -/
  | stopped
  deriving DecidableEq, Repr

variable {σ : Type}

/-- The codes in the result: 0 no answer, 1 initialization, 2 failure. -/
def code (n : Int) : Option Region := some (.special n)

/-- The overlap with the groundtruth is not above the threshold, if one is given. A number that is not a number is
never too small. -/
def lost (c : Config) (overlap : Flt) : Bool := Flt.le .zero c.threshold && Flt.le overlap c.threshold

/-- Write an entry for a frame. -/
def write (s : Run σ) (entry : Option Region) : Run σ := { s with output := s.output ++ [entry] }

/-- Note the time of a frame. -/
def note (s : Run σ) (time : Option Nat) : Run σ := { s with timings := s.timings ++ [time] }

/-- The tracker failed in frame `f`, or asked to stop: write 2. Without reinitialization this is the end. Otherwise
tracking begins again `reinitialize` frames later, with a new process if that is still within the sequence. -/
def onFailure (T : Tracker σ) (c : Config) (f : Nat) (s : Run σ) : Program (Phase × Run σ) :=
  let s := note (write s (code 2)) none
  if c.reinitialize = 0 then .ok (some (.stopped, s))
  else if f + c.reinitialize < c.frames then
    match T.restart s.tracker with
    | (false, _) => .ok none
    | (true, t) => .ok (some (.idle (c.reinitialize - 1), { s with tracker := t, trace := s.trace ++ [.restart] }))
  else .ok (some (.idle (c.reinitialize - 1), s))

/-- Wait for the answer for frame `f` and judge it: `entry` is what is written if all is well. -/
def judge (T : Tracker σ) (c : Config) (f : Nat) (entry : Option Region → Option Region) (s : Run σ) : Program (Phase × Run σ) :=
  match T.wait s.tracker with
  | (.thrown, _) => .ok none
  | (.no, t) =>
    match T.ready t with
    | (false, _) => .ok none
    | (true, t) => onFailure T c f { s with tracker := t, trace := s.trace ++ [.wait] }
  | (.state r, t) =>
    (T.overlap f r t).bind fun overlap =>
      let s := { s with tracker := t, trace := s.trace ++ [.wait] }
      if lost c overlap then onFailure T c f s
      else .ok (some (.tracking, note (write s (entry r)) (some f)))

/-- Initialize the tracker, if it is there, with the images and the region of frame `f`. -/
def start (T : Tracker σ) (f : Nat) (s : Run σ) : Program (Run σ) :=
  match T.ready s.tracker with
  | (false, _) => .ok none
  | (true, t) =>
    match T.metadata t with
    | (false, _) => .ok none
    | (true, t) =>
      (T.load f t).bind fun
      | (false, _) => .ok none
      | (true, t) =>
        match T.init f t with
        | (false, _) => .ok none
        | (true, t) => .ok (some { s with tracker := t, trace := s.trace ++ [.init f] })

/-- One frame. -/
def visit (T : Tracker σ) (c : Config) (f : Nat) : Phase → Run σ → Program (Phase × Run σ)
  | .stopped, s => .ok (some (.stopped, note (write s (code 0)) none))
  | .idle (k + 1), s => .ok (some (.idle k, note (write s (code 0)) none))
  | .idle 0, s =>
    match c.initialization[f]?.join with
    | none => .ok (some (.idle 0, write s (code 0)))
    | some _ => (start T f s).andThen (judge T c f fun _ => code 1)
  | .tracking, s =>
    (T.load f s.tracker).bind fun
    | (false, _) => .ok none
    | (true, t) =>
      match T.frame f t with
      | (false, _) => .ok none
      | (true, t) => judge T c f id { s with tracker := t, trace := s.trace ++ [.frame f] }

/-- The frames from `f` on, `count` of them. -/
def visitAll (T : Tracker σ) (c : Config) : Nat → Nat → Phase → Run σ → Program (Run σ)
  | 0, _, _, s => .ok (some s)
  | count + 1, f, phase, s => (visit T c f phase s).andThen fun (phase, s) => visitAll T c count (f + 1) phase s

/-- A whole run. -/
def supervise (T : Tracker σ) (c : Config) (t : σ) : Program (Run σ) :=
  visitAll T c c.frames 0 (.idle 0) { tracker := t, trace := [], output := [], timings := [] }

end Trax.Cli.Spec
