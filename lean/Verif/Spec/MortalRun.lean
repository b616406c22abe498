import Verif.Spec.LoopRun
import Verif.Model.MortalTracker

/-!
# What a run with a tracker that ends between two requests is about
-/

namespace Trax.Cli.Spec

/-- The tracker `T`, of which nothing more is to be expected as soon as `gone` holds of its state. -/
def mortal {τ : Type} (T : Loop.Tracker τ) (gone : τ → Bool) : Loop.Tracker τ where
  init := T.init
  update state images props := if gone state then { state, region := .special 0, fate := .crashes } else T.update state images props

end Trax.Cli.Spec
