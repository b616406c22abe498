import Verif.Model.MexStream

/-!
# What is to be on the console
-/

namespace Trax.MexStream.Spec

/-- The texts that are written by calls. -/
def texts : List Op → List (List UInt8)
  | [] => []
  | .put c :: rest => [c] :: texts rest
  | .write s :: rest => s :: texts rest
  | .push :: rest => texts rest

/-- A text is an order of the texts that the threads have written: no part is lost, nothing is there twice, no text is inside of another one, and the texts of each thread are in its order. -/
def Order (calls : Nat → List Op) (text : List UInt8) : Prop :=
  ∃ order : List (Nat × List UInt8), text = (order.map (·.2)).flatten ∧ ∀ t, (order.filter (·.1 == t)).map (·.2) = texts (calls t)

/-- No call writes a zero. -/
def Plain (calls : List Op) : Prop := ∀ s ∈ texts calls, (0 : UInt8) ∉ s

end Trax.MexStream.Spec
