import Verif.Spec.CliMain
import Verif.Spec.Wire

/-!
# What a sequence needs for the static tracker
-/

namespace Trax.Cli.Spec
open Trax.Spec (Plain)

/-- The path of an image: not empty, 7-bit text without zero bytes. -/
def Path (p : Str) : Prop := p ≠ [] ∧ Plain p

/-- A row with an image for colour, and for depth and infrared if they are wanted. -/
def Covers (depth ir : Bool) (row : List Str) : Prop :=
  Path (row.getD 0 []) ∧ (depth = true → Path (row.getD 1 [])) ∧ (ir = true → Path (row.getD 2 []))

/-- The region that a text stands for. -/
def Reads (text : Str) (r : Region) : Prop := Region.parse text = .ok ⟨1, some r, 0⟩

end Trax.Cli.Spec
