import Verif.Spec.LoopRun

/-!
# What a run of the client of the tutorial is about
-/

namespace Trax.Cli.Spec
open Trax.Spec

/-- The name of the image for a frame: its number, with at least eight digits. -/
def Numbered (i : Nat) (path : Str) : Prop :=
  ∃ digits, path = digits ++ b!".jpg" ∧ (∀ c ∈ digits, isDigit c = true) ∧ digits.length = 8 ∧ digitsValue digits = i + 1

/-- Runs from frame `f` to frame `n`, where `status` is the state of the tracker, if it has been initialized, and `final` is the one at the end: it is initialized with every fiftieth
frame and its region in the file, and updated with the others. The last argument are the regions that come to the client. -/
inductive Taught {τ : Type} (truth : List (Option Region)) (path : Nat → Str) (env : Env) (m : Metadata) (T : Loop.Tracker τ) (n : Nat) (final : Option τ) : Nat → Option τ → List Region → Prop
  | done : Taught truth path env m T n final n final []
  | begin {f status r start x text y ys} : f < n → f % 50 = 0 → truth[f]? = some (some r) → Offered env m r start → x = T.init start [some (.path (path f)), none, none] Properties.create →
      Reported x text y → Taught truth path env m T n final (f + 1) (some x.state) ys → Taught truth path env m T n final f status (y :: ys)
  | go {f state x text y ys} : f < n → f % 50 ≠ 0 → x = T.update state [some (.path (path f)), none, none] Properties.create →
      Reported x text y → Taught truth path env m T n final (f + 1) (some x.state) ys → Taught truth path env m T n final f (some state) (y :: ys)

end Trax.Cli.Spec
