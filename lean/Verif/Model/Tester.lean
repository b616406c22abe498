import Verif.Model.Image
import Verif.Model.Formats
import Verif.Model.Lists
import Verif.Model.Runner

/-!
# The test of a tracker (`support/client/tester.cpp` 246–368)

As for the tracking mode of `traxclient`, the tracker process is a parameter.
-/

namespace Trax.Tester

/-- The image for the test (`support/client/tester.cpp` 250–280); `none` stands for the exception. `jpg` and `bin` are the
resources `static.jpg` and `static.bin` (`support/client/tester_resources.c` 7668–7673; `Model/Resources` says how they are
unpacked), `fresh` the content of fresh memory, `path` the name of the temporary file, which then contains `jpg`. A
resource that is too short is undefined behaviour. -/
def testImage (fresh : Nat → UInt8) (jpg bin : List UInt8) (path : Str) (formats : UInt32) : Outcome (Option Image) :=
  if supports formats 8 then (Image.createBuffer jpg).map some
  else if supports formats 4 then
    (Image.createMemory fresh 320 240 3).bind fun tmp =>
      (Image.rowOffset tmp 0).bind fun _ =>
        match tmp with
        | .memory w h f data =>
          if bin.length < 320 * 240 then .ub
          else .ok (some (.memory w h f (bin.take (320 * 240) ++ data.drop (320 * 240))))
        | _ => .ub
  else if supports formats 1 then .ok (some (Image.createPath path))
  else .ok none

/-- A tracker process, as the test sees it: a Boolean result is `false` also when the call throws an
exception. The number is the number of objects that are given. -/
structure Subject (σ : Type) where
  /-- `tracker.ready()` -/
  ready : σ → Bool × σ
  /-- `tracker.initialize(image, …, properties)` -/
  init : Nat → σ → Bool × σ
  /-- `tracker.wait(status, additional)` -/
  wait : σ → Cli.Answer × σ
  /-- `tracker.frame(image, …)` -/
  frame : Nat → σ → Bool × σ

/-- The calls on the tracker. -/
inductive Call where
  | init (objects : Nat)
  | wait
  | frame (objects : Nat)
  deriving DecidableEq, Repr

/-- The number of objects at the start (`support/client/tester.cpp` 294–308). -/
def atStart (multi : Bool) : Nat := if multi then 3 else 1

/-- The number of new objects in a frame (`support/client/tester.cpp` 344–353). -/
def inFrame (multi : Bool) (frame : Nat) : Nat := if multi && frame % 5 = 3 then 1 else 0

variable {σ : Type}

/-- The loop over the frames (`support/client/tester.cpp` 314–357), `n` turns before its end. The result is `none` if
there is an exception, otherwise the tracker and the calls. -/
def frameLoop (T : Subject σ) (multi : Bool) : Nat → Nat → σ → Option (σ × List Call)
  | 0, _, t => some (t, [])
  | n + 1, frame, t =>
    match T.wait t with
    | (.thrown, _) => none
    | (.no, t) => match T.ready t with | (false, _) => none | (true, t) => some (t, [.wait])
    | (.state _, t) =>
      match T.frame (inFrame multi frame) t with
      | (false, _) => none
      | (true, t) => (frameLoop T multi n (frame + 1) t).map fun r => (r.1, .wait :: .frame (inFrame multi frame) :: r.2)

/-- The loop over the initializations (`support/client/tester.cpp` 288–359), `n` turns before its end. -/
def testLoop (T : Subject σ) (multi : Bool) : Nat → σ → Option (σ × List Call)
  | 0, t => some (t, [])
  | n + 1, t =>
    match T.ready t with
    | (false, _) => none
    | (true, t) =>
      match T.init (atStart multi) t with
      | (false, _) => none
      | (true, t) =>
        match frameLoop T multi 20 0 t with
        | none => none
        | some (t, calls) => (testLoop T multi n t).map fun r => (r.1, .init (atStart multi) :: calls ++ r.2)

/-- The exit status of the program (`support/client/tester.cpp` 361–368). -/
def status {α : Type} : Option α → Int
  | none => 1
  | some _ => 0

end Trax.Tester
