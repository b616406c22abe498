import Verif.Model.RegionApi

/-!
# The tracking mode of `traxclient` (`support/client/cli.cpp` 582–765)

The tracker process is a parameter: a state and what each call on it gives. So the theorems hold for every
tracker, however it behaves. Exceptions end the program with an error and without output.
-/

namespace Trax.Cli

/-- What `TrackerProcess::wait` gives: an exception, `false`, or `true` and a region. -/
inductive Answer where
  | thrown
  | no
  | state (region : Option Region)
  deriving DecidableEq, Repr

/-- A tracker process, as `main` sees it. A Boolean result is `false` when the call throws an exception,
and where `main` throws one itself when the result is `false`. -/
structure Tracker (σ : Type) where
  /-- `tracker.ready()` -/
  ready : σ → Bool × σ
  /-- `tracker.metadata()` -/
  metadata : σ → Bool × σ
  /-- `load_images(images[frame], …)`; an exception that `main` does not catch ends the program -/
  load : Nat → σ → Outcome (Bool × σ)
  /-- `tracker.initialize(image, initialization[frame], properties)` -/
  init : Nat → σ → Bool × σ
  /-- `tracker.wait(status, additional)` -/
  wait : σ → Answer × σ
  /-- `tracker.frame(image, no_properties)` with the images of the frame -/
  frame : Nat → σ → Bool × σ
  /-- `tracker.reset(); tracker.query();` -/
  restart : σ → Bool × σ
  /-- `groundtruth[frame].overlap(status, bounds)`; the bounds depend on what `main` has loaded -/
  overlap : Nat → Option Region → σ → Outcome Flt

/-- The calls that the tracker sees. -/
inductive Event where
  | init (frame : Nat)
  | frame (frame : Nat)
  | wait
  | restart
  deriving DecidableEq, Repr

/-- The variables of `main` that matter: the tracker, the calls made so far, `output`, and `timings`
(`none` for the number 0, `some f` for the time measured for frame `f`). -/
structure Run (σ : Type) where
  tracker : σ
  trace : List Event
  output : List (Option Region)
  timings : List (Option Nat)

/-- The input of a run. -/
structure Config where
  /-- `images.size()` after the truncation -/
  frames : Nat
  /-- `initialization` -/
  initialization : List (Option Region)
  /-- `threshold` -/
  threshold : Flt
  /-- `reinitialize` -/
  reinitialize : Nat

/-- A computation that can throw an exception (`none`). -/
abbrev Program (α : Type) := Outcome (Option α)

/-- Go on unless there was an exception. -/
def Program.andThen {α β : Type} (x : Program α) (f : α → Program β) : Program β :=
  x.bind fun | none => .ok none | some a => f a

/-- `Region::create_special(code)`. -/
def special (code : Int) : Option Region := some (.special code)

/-- The failure criterion (`support/client/cli.cpp` 683). -/
def Config.failed (c : Config) (overlap : Flt) : Bool := Flt.zero.le c.threshold && overlap.le c.threshold

variable {σ : Type}

/-- The loop that skips frames without an initialization region (`support/client/cli.cpp` 626–630). The
list may be shorter than the sequence, reading behind its end is undefined behaviour. -/
def skipLoop (c : Config) : Nat → Nat → Run σ → Outcome (Nat × Run σ)
  | 0, _, _ => .ub
  | fuel + 1, frame, s =>
    if frame < c.frames then
      match c.initialization[frame]? with
      | none => .ub
      | some (some _) => .ok (frame, s)
      | some none => skipLoop c fuel (frame + 1) { s with output := s.output ++ [special 0] }
    else .ok (frame, s)

/-- The loop over the frames while the target is tracked (`support/client/cli.cpp` 655–722). -/
def trackLoop (T : Tracker σ) (c : Config) : Nat → Nat → Bool → Run σ → Program (Nat × Run σ)
  | 0, _, _, _ => .ub
  | fuel + 1, frame, initialized, s =>
    match T.wait s.tracker with
    | (.thrown, _) => .ok none
    | (.no, t) =>
      match T.ready t with
      | (false, _) => .ok none
      | (true, t) => .ok (some (frame, { s with tracker := t, trace := s.trace ++ [.wait] }))
    | (.state status, t) =>
      (T.overlap frame status t).bind fun overlap =>
      if c.failed overlap then .ok (some (frame, { s with tracker := t, trace := s.trace ++ [.wait] }))
      else
        let output := s.output ++ [if initialized then special 1 else status]
        let timings := s.timings ++ [some frame]
        let frame := frame + 1
        if c.frames ≤ frame then .ok (some (frame, { tracker := t, trace := s.trace ++ [.wait], output, timings }))
        else
          (T.load frame t).bind fun
          | (false, _) => .ok none
          | (true, t) =>
            match T.frame frame t with
            | (false, _) => .ok none
            | (true, t) =>
              trackLoop T c fuel frame false { tracker := t, trace := s.trace ++ [.wait, .frame frame], output, timings }

/-- What is written for the frames after a failure, from `frame` up to `j` (`support/client/cli.cpp` 729–736, 745–751). -/
def pad (frame j : Nat) (s : Run σ) : Run σ :=
  { s with output := s.output ++ special 2 :: List.replicate (j - (frame + 1)) (special 0),
           timings := s.timings ++ none :: List.replicate (j - (frame + 1)) none }

/-- The code after the loop over the frames (`support/client/cli.cpp` 724–756), in case of a failure. The
result tells where the main loop goes on, or that it is left. -/
def recover (T : Tracker σ) (c : Config) (frame : Nat) (s : Run σ) : Program (Nat × Run σ) :=
  if 0 < c.reinitialize then
    let j := if c.frames ≤ frame + c.reinitialize then c.frames else frame + c.reinitialize
    let s := pad frame j s
    if j < c.frames then
      match T.restart s.tracker with
      | (false, _) => .ok none
      | (true, t) => .ok (some (j, { s with tracker := t, trace := s.trace ++ [.restart] }))
    else .ok (some (j, s))
  else .ok (some (c.frames, pad frame c.frames s))

/-- Lines 634–651 of `support/client/cli.cpp`. -/
def startTracker (T : Tracker σ) (frame : Nat) (s : Run σ) : Program (Run σ) :=
  match T.ready s.tracker with
  | (false, _) => .ok none
  | (true, t) =>
    match T.metadata t with
    | (false, _) => .ok none
    | (true, t) =>
      (T.load frame t).bind fun
      | (false, _) => .ok none
      | (true, t) =>
        match T.init frame t with
        | (false, _) => .ok none
        | (true, t) => .ok (some { s with tracker := t, trace := s.trace ++ [.init frame] })

/-- The main loop (`support/client/cli.cpp` 624–757). -/
def mainLoop (T : Tracker σ) (c : Config) : Nat → Nat → Run σ → Program (Run σ)
  | 0, _, _ => .ub
  | fuel + 1, frame, s =>
    if frame < c.frames then
      (skipLoop c (c.frames + 1 - frame) frame s).bind fun (frame, s) =>
        if frame = c.frames then .ok (some s)
        else
          (startTracker T frame s).andThen fun s =>
          (trackLoop T c (c.frames - frame) frame true s).andThen fun (frame, s) =>
          if frame < c.frames then
            (recover T c frame s).andThen fun (frame, s) => mainLoop T c fuel frame s
          else mainLoop T c fuel frame s
    else .ok (some s)

/-- The tracking mode from line 623 of `support/client/cli.cpp` to the files. -/
def run (T : Tracker σ) (c : Config) (t : σ) : Program (Run σ) :=
  mainLoop T c (c.frames + 1) 0 { tracker := t, trace := [], output := [], timings := [] }

/-- Which parts of the lists of images and groundtruth regions are used (`support/client/cli.cpp` 598–606). -/
def truncate {α β : Type} (images : List α) (groundtruth : List β) : List α × List β :=
  let groundtruth := if images.length < groundtruth.length then groundtruth.take images.length else groundtruth
  let images := if groundtruth.length < images.length then images.take groundtruth.length else images
  (images, groundtruth)

end Trax.Cli
