import Verif.Model.Bytes

/-!
# Commands and environments, as a user sees them
-/

namespace Trax.Spec

/-- An argument that survives being put between quotes: every quote in it comes after an apostrophe, its
last byte is not an apostrophe, and it has at most 1023 bytes. -/
def Quotable (a : Str) : Prop :=
  (∀ x y, a = x ++ ch%'"' :: y → x.getLast? = some ch%'\'') ∧ a.getLast? ≠ some ch%'\'' ∧ a.length ≤ 1023

/-- The name of a variable: not empty, no equals sign and no zero byte in it. -/
def EnvName (n : Str) : Prop := n ≠ [] ∧ ch%'=' ∉ n ∧ (0 : UInt8) ∉ n

/-- An entry of an environment that sets the variable `n` to `v`. -/
def Sets (entry n v : Str) : Prop := entry = n ++ ch%'=' :: v

/-- A variable has no value in an environment. -/
def Unset (environ : List Str) (n : Str) : Prop := ∀ e ∈ environ, ∀ v, ¬ Sets e n v

/-- A variable has the value `v` in an environment, and no other one. -/
def HasValue (environ : List Str) (n v : Str) : Prop :=
  (∃ e ∈ environ, Sets e n v) ∧ ∀ e ∈ environ, ∀ v', Sets e n v' → v' = v

/-- The last entry of an environment for the variable `n` gives it the value `v`. -/
def LastValue (environ : List Str) (n v : Str) : Prop :=
  ∃ before e after, environ = before ++ e :: after ∧ Sets e n v ∧ Unset after n

/-- The last assignment to the name `n` in a list of assignments gives it the value `v`. -/
def LastGiven (given : List (Str × Str)) (n v : Str) : Prop :=
  ∃ before after, given = before ++ (n, v) :: after ∧ ∀ p ∈ after, p.1 ≠ n

/-- There is no assignment to the name `n`. -/
def NotGiven (given : List (Str × Str)) (n : Str) : Prop := ∀ p ∈ given, p.1 ≠ n

end Trax.Spec
