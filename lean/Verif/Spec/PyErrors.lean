import Verif.Model.PyErrors
import Verif.Spec.PySession

/-!
# What the exceptions of the Python package should tell

`TraxException`: what was tried, and the explanation of the library.
-/

namespace Trax.Py.Spec

/-- What a client tries. -/
def attempt (start : Bool) : Text := if start then t!"Exception when initializing tracker: " else t!"Exception when sending frame to tracker: "

/-- Why the library refuses to send, from what the program knows: whether the session is open, whether there can be more than one object, the version
of the tracker, the number of objects so far and the number of new objects. -/
def ClientRefused (alive multi : Bool) (version : Int) (objects : Nat) (start : Bool) (new : Nat) (text : Text) : Prop :=
  (alive = false ∧ text = t!"Client not alive") ∨
  (alive = true ∧ start = true ∧ new = 0 ∧ text = t!"At least one object required") ∨
  (alive = true ∧ start = true ∧ multi = false ∧ 2 ≤ new ∧ text = t!"Too many objects given") ∨
  (alive = true ∧ start = false ∧ 4 ≤ version ∧ multi = false ∧ 2 ≤ objects + new ∧ text = t!"Invalid mode") ∨
  (alive = true ∧ start = false ∧ version < 4 ∧ 1 ≤ new ∧ text = t!"Unable to add new objects")

/-- Why the library refuses a reply with `n` objects. -/
def ReplyRefused (alive multi : Bool) (objects n : Nat) (text : Text) : Prop :=
  (alive = false ∧ text = t!"Server not alive") ∨
  (alive = true ∧ multi = false ∧ n ≠ 1 ∧ text = t!"Invalid mode") ∨
  (alive = true ∧ (multi = true ∨ n = 1) ∧ n ≠ objects ∧ text = t!"Invalid object count")

/-- The exception says what was tried and the library's explanation; if that has an indeterminate number in it, so has the text. -/
def Explains (tried : Text) (explanation : ErrorText) (r : Thrown) : Prop :=
  (∃ t : Text, t ≠ [] ∧ (∀ c ∈ t, c < 128) ∧ explanation = .text (ascii t) ∧ r = .trax (tried ++ t)) ∨
  (explanation = .garbled ∧ r = .garbled tried)

/-- The arguments of a call can be passed to the library: texts that can be encoded, and regions as the package makes them. -/
def Passable (objects : List (Region × Dict)) (properties : Dict) : Prop :=
  (∀ o ∈ objects, Trax.Spec.WellFormed o.1 ∧ SendableDict o.2) ∧ SendableDict properties

end Trax.Py.Spec
