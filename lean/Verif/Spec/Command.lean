import Verif.Model.Bytes

/-!
# The words of a command line
-/

namespace Trax.Spec

/-- A word as it is written in a command line. -/
inductive Word where
  | plain (text : Str)
  | quoted (text : Str)
  deriving DecidableEq, Repr

/-- The meaning of a word. -/
def Word.text : Word → Str
  | .plain t => t
  | .quoted t => t

/-- How a word is written. -/
def Word.write : Word → Str
  | .plain t => t
  | .quoted t => ch%'"' :: t ++ [ch%'"']

/-- A word that can be written: a plain word is not empty, has no space and does not start with a
quote; in a quoted word every quote comes after an apostrophe, and the last byte is not an apostrophe.
The limit is 1023 bytes. -/
def Word.Writable : Word → Prop
  | .plain t => t ≠ [] ∧ ch%' ' ∉ t ∧ t.head? ≠ some ch%'"' ∧ t.length ≤ 1023
  | .quoted t => (∀ a b, t = a ++ ch%'"' :: b → a.getLast? = some ch%'\'') ∧ t.getLast? ≠ some ch%'\'' ∧ t.length ≤ 1023

/-- Spaces. -/
def spaces (n : Nat) : Str := List.replicate n ch%' '

/-- A command line: every word with the number of spaces before it. -/
def commandLine (words : List (Nat × Word)) : Str := words.flatMap fun (n, w) => spaces n ++ w.write

/-- Words other than the first one are separated by at least one space. -/
def Separated : List (Nat × Word) → Prop
  | [] => True
  | _ :: rest => ∀ w ∈ rest, 0 < w.1

end Trax.Spec
