import Verif.Model.Wrapper

/-!
# Specification of shared wrapper objects

What a program expects of objects that share a resource: every variable refers to a resource, to nothing, or
has been moved from. Resources are numbered in the order of their creation.
-/

namespace Trax.Cpp.Spec

open Trax.Cpp (Op)

/-- What a variable stands for. -/
inductive Ref where
  /-- no resource -/
  | nothing
  /-- its content was moved away -/
  | moved
  /-- the resource with that number -/
  | to (n : Nat)
deriving DecidableEq, Repr

/-- The variables in their lifetime, and the number of resources created. -/
structure State where
  vars : Nat → Option Ref
  created : Nat

def State.start : State := ⟨fun _ => none, 0⟩

def State.set (s : State) (x : Nat) (r : Option Ref) : State :=
  { s with vars := fun y => if y = x then r else s.vars y }

/-- The effect of a step; `none` if the program is not well formed: it constructs a variable that exists or
uses one that does not. -/
def State.step (s : State) : Op α → Option State
  | .construct x => match s.vars x with
    | none => some (s.set x (some .nothing))
    | some _ => none
  | .create x _ => match s.vars x with
    | none => some { s.set x (some (.to s.created)) with created := s.created + 1 }
    | some _ => none
  | .createList x _ => match s.vars x with
    | none => some { s.set x (some (.to s.created)) with created := s.created + 1 }
    | some _ => none
  | .copy x y => match s.vars x, s.vars y with
    | none, some r => some (s.set x (some r))
    | _, _ => none
  | .move x y => match s.vars x, s.vars y with
    | none, some r => some ((s.set y (some .moved)).set x (some r))
    | _, _ => none
  | .assign x y => match s.vars x, s.vars y with
    | some _, some r => some (s.set x (some r))
    | _, _ => none
  | .moveAssign x y => match s.vars x, s.vars y with
    | some q, some r => some ((s.set x (some r)).set y (some q))
    | _, _ => none
  | .wrap x _ => match s.vars x with
    | some _ => some { s.set x (some (.to s.created)) with created := s.created + 1 }
    | none => none
  | .destroy x => match s.vars x with
    | some _ => some (s.set x none)
    | none => none

/-- The effect of a program. -/
def State.run : List (Op α) → State → Option State
  | [], s => some s
  | op :: ops, s => (s.step op).bind (State.run ops)

/-- Some variable refers to resource `n`. -/
def State.InUse (s : State) (n : Nat) : Prop := ∃ x, s.vars x = some (.to n)

/-- The step does not assign a variable to itself, copies no variable that was moved from, and is not the
construction of a list by `ImageList()` or `ObjectList(int)`. -/
def State.Careful (s : State) : Op α → Prop
  | .copy _ y => s.vars y ≠ some .moved
  | .assign x y => x ≠ y ∧ s.vars y ≠ some .moved
  | .createList _ _ => False
  | _ => True

/-- All steps of the program are careful. -/
def CarefulRun : List (Op α) → State → Prop
  | [], _ => True
  | op :: ops, s => s.Careful op ∧ ∀ s', s.step op = some s' → CarefulRun ops s'

end Trax.Cpp.Spec
