import Verif.Model.TextBuffer

/-!
# What a text buffer is meant to hold
-/

namespace Trax.Spec

/-- What one use makes of the text. -/
def collect (t : Str) : TextOp → Str
  | .char c => t ++ [c]
  | .text s => t ++ s
  | .reset => []

/-- The text after a history: all that was added since the last reset, in order. -/
def collected (ops : List TextOp) : Str := ops.foldl collect []

/-- At no time the text gets as long as 2 GiB less 4 KiB. -/
def Moderate (ops : List TextOp) : Prop := ∀ k, (collected (ops.take k)).length + 4096 < 2 ^ 31

end Trax.Spec
