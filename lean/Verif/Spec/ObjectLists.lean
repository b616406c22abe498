import Verif.Model.ObjectHeap
import Verif.Spec.PropertyMap

/-!
# Specification of object lists

A program with regions and object lists, all of them plain values: nothing is shared.
-/

namespace Trax.Spec

/-- A region as the creating functions and the decoder make them: a mask has a positive size and
a block with exactly one byte per pixel. -/
def WellFormed : Region → Prop
  | .mask _ _ w h data => 0 < w ∧ 0 < h ∧ (data.length : Int) = w * h ∧ w * h ≤ 2147483647
  | _ => True

instance (r : Region) : Decidable (WellFormed r) := by
  cases r <;> unfold WellFormed <;> infer_instance

/-- Regions and lists of the program; `none`: released. -/
structure AStore where
  vars : List (Option Region)
  lists : List (Option (List (Region × AMap)))

namespace AStore

def start : AStore := ⟨[], []⟩

/-- Element `i` of list `l`. -/
def slot (s : AStore) (l : Nat) (i : Int) : Option (Region × AMap) :=
  if i < 0 then none else (s.lists[l]?.join).bind fun a => a[i.toNat]?

/-- The region that an argument stands for. -/
def arg (s : AStore) : RegionArg → Option Region
  | .null => none
  | .var v => s.vars[v]?.join
  | .slot l i => (s.slot l i).map Prod.fst

/-- Change list `l`, if it exists. -/
def onList (s : AStore) (l : Nat) (f : List (Region × AMap) → List (Region × AMap)) : AStore :=
  { s with lists := s.lists.modify l (Option.map f) }

/-- Change element `i` of list `l`, if it exists. -/
def onSlot (s : AStore) (l : Nat) (i : Int) (f : Region × AMap → Region × AMap) : AStore :=
  if i < 0 then s else s.onList l fun a => a.modify i.toNat f

/-- The effect of a step. -/
def step (s : AStore) : ObjOp → AStore
  | .newRegion r => { s with vars := s.vars ++ [some r] }
  | .change v r => { s with vars := s.vars.modify v (Option.map fun _ => r) }
  | .freeRegion v => { s with vars := s.vars.modify v fun _ => none }
  | .create n => { s with lists := s.lists ++ [some (List.replicate n (.special 0, AMap.empty))] }
  | .set l i a =>
    match s.arg a with
    | some r => s.onSlot l i fun e => (r, e.2)
    | none => s
  | .changeAt l i r => s.onSlot l i fun e => (r, e.2)
  | .setProperty l i k v => s.onSlot l i fun e => (e.1, e.2.set k v)
  | .append l src =>
    match s.lists[src]?.join with
    | some b => s.onList l fun a => a ++ b
    | none => s
  | .release l => { s with lists := s.lists.modify l fun _ => none }

/-- What a program has to observe: regions are well-formed, text has no NUL; the region given to `set`
exists (is not NULL) and is not the very element that is overwritten; a list is not appended to itself
unless it is empty. -/
def Proper (s : AStore) : ObjOp → Prop
  | .newRegion r | .change _ r | .changeAt _ _ r => WellFormed r
  | .set l i a => a ≠ .slot l i ∧ ((s.slot l i).isSome → (s.arg a).isSome ∨ ∃ v, a = .var v)
  | .setProperty _ _ k v => NoNul k ∧ NoNul v
  | .append l src => l = src → s.lists[l]?.join = some [] ∨ s.lists[l]?.join = none
  | .freeRegion _ | .create _ | .release _ => True

/-- All steps of a program are proper. -/
def ProperRun : AStore → List ObjOp → Prop
  | _, [] => True
  | s, op :: ops => s.Proper op ∧ ProperRun (s.step op) ops

/-- The state after a program. -/
def run (s : AStore) (ops : List ObjOp) : AStore := ops.foldl step s

end AStore
end Trax.Spec
