import Verif.Spec.Wrapper
import Verif.Model.ListWrapper

/-!
# Specification of lists of shared objects

A list has entries. An entry was never set, or stands for what a variable stood for when it was set, or for a received object. Every list is
a value of its own: what is done to one list changes no other list. A list that was moved from has no entries.
-/

namespace Trax.Cpp.Spec

open Trax.Cpp (Op ListOp)

/-- The variables and the lists in their lifetime, and the resources created so far with their content. -/
structure ListState (α : Type) where
  vars : Nat → Option Ref
  lists : Nat → Option (List (Option Ref))
  created : List α
  /-- the list was moved from, and nothing was moved into it since -/
  gone : Nat → Bool

namespace ListState

def start : ListState α := ⟨fun _ => none, fun _ => none, [], fun _ => false⟩

def setList (s : ListState α) (l : Nat) (es : Option (List (Option Ref))) : ListState α :=
  { s with lists := fun j => if j = l then es else s.lists j, gone := fun j => if j = l then false else s.gone j }

/-- The content of the resource that a step on variables creates. -/
def content : Op α → Option α
  | .create _ a => some a
  | .createList _ a => some a
  | .wrap _ a => some a
  | _ => none

/-- The entries of a list that was received when `n` resources existed. -/
def received : Nat → List (Option α) → List (Option Ref)
  | _, [] => []
  | n, none :: xs => some .nothing :: received n xs
  | n, some _ :: xs => some (.to n) :: received (n + 1) xs

/-- The effect of a step; `none` if the program is not well formed. -/
def step (s : ListState α) : ListOp α → Option (ListState α)
  | .var op => (State.step ⟨s.vars, s.created.length⟩ op).map fun v =>
      { s with vars := v.vars, created := s.created ++ (content op).toList }
  | .empty l => match s.lists l with
    | none => some (s.setList l (some []))
    | some _ => none
  | .new l n => match s.lists l with
    | none => some (s.setList l (some (List.replicate n none)))
    | some _ => none
  | .set l i x => match s.lists l, s.vars x with
    | some es, some r => if i < es.length then some (s.setList l (some (es.set i (some r)))) else none
    | _, _ => none
  | .get x l i => match s.vars x, s.lists l with
    | none, some es => match es[i]? with
      | some e => some { s with vars := fun y => if y = x then some (e.getD .nothing) else s.vars y }
      | none => none
    | _, _ => none
  | .receive l xs => match s.lists l with
    | some _ => some { s.setList l (some (received s.created.length xs)) with created := s.created ++ xs.filterMap id }
    | none => none
  | .swap l k => match s.lists l, s.lists k with
    | some es, some fs => some { (s.setList l (some fs)).setList k (some es) with
        gone := fun j => if j = l then s.gone k else if j = k then s.gone l else s.gone j }
    | _, _ => none
  | .copy l k => match s.lists l, s.lists k with
    | none, some fs => some (s.setList l (some fs))
    | _, _ => none
  | .assign l k => match s.lists l, s.lists k with
    | some _, some fs => some (s.setList l (some fs))
    | _, _ => none
  | .move l k => match s.lists l, s.lists k with
    | none, some fs => some { (s.setList l (some fs)).setList k (some []) with
        gone := fun j => if j = k then true else if j = l then s.gone k else s.gone j }
    | _, _ => none
  | .drop l => match s.lists l with
    | some _ => some (s.setList l none)
    | none => none

/-- The effect of a program. -/
def run : List (ListOp α) → ListState α → Option (ListState α)
  | [], s => some s
  | op :: ops, s => (s.step op).bind (run ops)

/-- Some variable or some entry of a list stands for resource `n`. -/
def InUse (s : ListState α) (n : Nat) : Prop :=
  (∃ x, s.vars x = some (.to n)) ∨ ∃ l es, s.lists l = some es ∧ some (.to n) ∈ es

/-- The step copies no list, puts no variable that was moved from into a list, receives nothing into a list that was moved from and no NULL where an object
is, and is careful with the variables. -/
def Careful (s : ListState α) : ListOp α → Prop
  | .var op => State.Careful ⟨s.vars, s.created.length⟩ op
  | .set _ _ x => s.vars x ≠ some .moved
  | .receive l xs => s.gone l = false ∧ ∀ es, s.lists l = some es → ∀ i n : Nat, xs[i]? = some none → es[i]? ≠ some (some (Ref.to n))
  | .copy _ _ => False
  | .assign _ _ => False
  | _ => True

/-- All steps of the program are careful. -/
def CarefulRun : List (ListOp α) → ListState α → Prop
  | [], _ => True
  | op :: ops, s => s.Careful op ∧ ∀ s', s.step op = some s' → CarefulRun ops s'

/-- What an entry of a list stands for; `blank` if it was never set. -/
def content? (s : ListState α) (blank : Option α) : Option Ref → Option α
  | none => blank
  | some (.to n) => s.created[n]?
  | some _ => none

end ListState

end Trax.Cpp.Spec
