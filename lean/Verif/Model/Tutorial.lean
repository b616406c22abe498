import Verif.Model.TrackerLink
import Verif.Model.Trajectory
import Verif.Model.Command

/-!
# The client of the tutorial (`docs/tutorials/client/client.cpp`, `docs/tutorial_client.rst`)

The program with which the documentation explains how to write a client with the class `TrackerProcess`. Simplifications: what becomes of the lists of images and of the region of the reply is left
to `Model/ListWrapper` and `Model/Wrapper`; the sequence has fewer than 2^31 - 1 frames, so that `i + 1` does not overflow and the name of an image fits into its buffer.
-/

namespace Trax.Lesson

/-- `snprintf(buff, sizeof(buff), "%08d.jpg", i + 1)` (`docs/tutorials/client/client.cpp` 64–65). -/
def imageName (i : Nat) : Str := List.replicate (8 - (natDigits (i + 1)).length) ch%'0' ++ natDigits (i + 1) ++ b!".jpg"

/-- The list with this image (`docs/tutorials/client/client.cpp` 66–68). -/
def images (i : Nat) : Cli.FrameImages := { color := some (.path (imageName i)) }

/-- The command of the tracker (`docs/tutorials/client/client.cpp` 55–58). -/
def command (args : List Str) : Str := args.flatMap fun a => b!" \"" ++ a ++ b!"\" "

/-- How the program ends: at its end, with a `break`, or with an exception, which is not caught. -/
inductive Ending where
  | finished
  | stopped
  | thrown
  deriving DecidableEq, Repr

variable {π : Type}

/-- `tracker.initialize(images, groundtruth[i])` or `tracker.frame(images)` (`docs/tutorials/client/client.cpp` 70–79): `none` for an exception. -/
def request (W : Proc.World (Link.State π)) (truth : List (Option Region)) (i : Nat) (s : Proc.State (Link.State π)) : Option Bool × Proc.State (Link.State π) :=
  if i % 50 = 0 then Link.method W true .init { s with world := { s.world with images := images i, region := truth.getD i none, properties := Properties.create } }
  else Link.method W true .frame { s with world := { s.world with images := images i } }

/-- The loop (`docs/tutorials/client/client.cpp` 62–99) for the `n` frames from frame `i` on: the ending, and the answers. The time limit has its default of 10 seconds
(`support/client/include/trax/client.hpp` 48). -/
def loop (W : Proc.World (Link.State π)) (truth : List (Option Region)) : Nat → Nat → Proc.State (Link.State π) → Ending × List (Option Region) × Proc.State (Link.State π)
  | 0, _, s => (.finished, [], s)
  | n + 1, i, s =>
    match request W truth i s with
    | (none, s) => (.thrown, [], s)
    | (some false, s) => (.stopped, [], s)
    | (some true, s) =>
      match Link.method W true .wait s with
      | (none, s) => (.thrown, [], s)
      | (some true, s) =>
        match loop W truth n (i + 1) s with
        | (e, answers, t) => (e, s.world.answer :: answers, t)
      | (some false, s) =>
        match Link.method W true .ready s with
        | (some true, s) => (.stopped, [], s)
        | (_, s) => loop W truth n (i + 1) s

/-- `main` (`docs/tutorials/client/client.cpp` 44–102): `none` if no command is given. `W` is what the words of a command start; the command is taken apart when the tracker is started for the first time (`support/client/client.cpp`
309–310), which is so for any sequence with a frame. -/
def main (read : Str → Option Str) (W : List Str → Proc.World (Link.State π)) (argv : List Str) : Outcome (Option (Ending × List (Option Region) × Proc.State (Link.State π))) :=
  if argv.length < 2 then .ok none
  else
    (match read b!"groundtruth.txt" with | none => Outcome.ok [] | some file => loadTrajectory file).bind fun truth =>
      if truth = [] then .ok (some (.finished, [], Proc.State.fresh {}))
      else (processCommand (command (argv.drop 1))).map fun words => some (loop (W words) truth truth.length 0 (Proc.State.fresh {}))

end Trax.Lesson
