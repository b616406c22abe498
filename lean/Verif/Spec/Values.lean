import Verif.Spec.PropertyMap
import Verif.Model.WrapperValue

/-!
# Specification of value semantics

What a program expects of C++ objects with value semantics: every variable has its own value, and a step changes
the variables it names and no other. Each value carries a tag, so that it can be said whether a variable still has
the value it was copied with: a copy has the tag of the original, a change makes a new tag.
-/

namespace Trax.Cpp.Spec

open Trax.Spec (AMap)

/-- The value of a variable in its lifetime. -/
inductive Val (β : Type) where
  /-- the value was moved away -/
  | moved
  | val (tag : Nat) (b : β)

structure Values (β : Type) where
  vars : Nat → Option (Val β)
  next : Nat

namespace Values

variable {β : Type}

def start : Values β := ⟨fun _ => none, 0⟩

def put (s : Values β) (x : Nat) (v : Option (Val β)) : Values β :=
  { s with vars := fun y => if y = x then v else s.vars y }

/-- `x` gets a value of its own. -/
def own (s : Values β) (x : Nat) (b : β) : Values β := { s.put x (some (.val s.next b)) with next := s.next + 1 }

def construct (s : Values β) (x : Nat) (b : β) : Option (Values β) :=
  match s.vars x with
  | none => some (s.own x b)
  | some _ => none

def copy (s : Values β) (x y : Nat) : Option (Values β) :=
  match s.vars x, s.vars y with
  | none, some v => some (s.put x (some v))
  | _, _ => none

def move (s : Values β) (x y : Nat) : Option (Values β) :=
  match s.vars x, s.vars y with
  | none, some v => some ((s.put y (some .moved)).put x (some v))
  | _, _ => none

def assign (s : Values β) (x y : Nat) : Option (Values β) :=
  match s.vars x, s.vars y with
  | some _, some v => some (s.put x (some v))
  | _, _ => none

def moveAssign (s : Values β) (x y : Nat) : Option (Values β) :=
  match s.vars x, s.vars y with
  | some v, some v' => some ((s.put x (some v')).put y (some v))
  | _, _ => none

def destroy (s : Values β) (x : Nat) : Option (Values β) :=
  match s.vars x with
  | some _ => some (s.put x none)
  | none => none

/-- `x` changes its value, `none` if it has none or the change is not possible. -/
def change (s : Values β) (x : Nat) (f : β → Option β) : Option (Values β) :=
  match s.vars x with
  | some (.val _ b) => (f b).map (s.own x)
  | _ => none

/-- Another variable still has the value that `x` was copied from or to. -/
def Shared (s : Values β) (x : Nat) : Prop :=
  ∃ y t b c, y ≠ x ∧ s.vars x = some (.val t b) ∧ s.vars y = some (.val t c)

def Moved (s : Values β) (x : Nat) : Prop := s.vars x = some .moved

end Values

/-! ## `Properties` -/

/-- The effect of a step on `Properties` objects. -/
def propsStep (s : Values AMap) : PropsOp → Option (Values AMap)
  | .construct x => s.construct x Trax.Spec.AMap.empty
  | .copy x y => s.copy x y
  | .move x y => s.move x y
  | .assign x y => s.assign x y
  | .destroy x => s.destroy x
  | .set x k v => s.change x fun m => some (Trax.Spec.AMap.set m k v)
  | .clear x => s.change x fun _ => some Trax.Spec.AMap.empty

def propsRun : List PropsOp → Values AMap → Option (Values AMap)
  | [], s => some s
  | op :: ops, s => (propsStep s op).bind (propsRun ops)

/-- The strings are C strings; no object is assigned to itself, none that was moved from is copied, and none is
cleared while another one has the same value by copying. -/
def PropsCareful (s : Values AMap) : PropsOp → Prop
  | .copy _ y => ¬ s.Moved y
  | .assign x y => x ≠ y ∧ ¬ s.Moved y
  | .set _ k v => NoNul k ∧ NoNul v
  | .clear x => ¬ s.Shared x
  | _ => True

def PropsCarefulRun : List PropsOp → Values AMap → Prop
  | [], _ => True
  | op :: ops, s => PropsCareful s op ∧ ∀ s', propsStep s op = some s' → PropsCarefulRun ops s'

/-! ## `Region` -/

/-- The effect of a step on `Region` objects whose values are C regions, or `none` for an empty object. -/
def regionStep (s : Values (Option Region)) : RegionOp → Option (Values (Option Region))
  | .construct x => s.construct x none
  | .create x r => s.construct x (some r)
  | .copy x y => s.copy x y
  | .move x y => s.move x y
  | .assign x y => s.assign x y
  | .moveAssign x y => s.moveAssign x y
  | .destroy x => s.destroy x
  | .special x c => s.change x fun _ => some (some (.special c))
  | .rectangle x l t w h => s.change x fun _ => some (some (.rectangle l t w h))
  | .point x i px py => s.change x fun r => match r with
    | some (.polygon ps) => if 0 ≤ i ∧ i < ps.length then some (some (.polygon (ps.set i.toNat (px, py)))) else none
    | _ => none
  | .pixel x row j v => s.change x fun r => match r with
    | some r => match r.writeMaskPixel row j v with
      | .ok r' => some (some r')
      | _ => none
    | none => none
  | .text x line => match Region.decode line with
    | .ok none => some s
    | .ok (some r) => s.change x fun _ => some (some r)
    | _ => none

def regionRun : List RegionOp → Values (Option Region) → Option (Values (Option Region))
  | [], s => some s
  | op :: ops, s => (regionStep s op).bind (regionRun ops)

/-- No object is assigned to itself, none that was moved from is copied, and no pixel is written while another
object has the same value by copying. -/
def RegionCareful (s : Values (Option Region)) : RegionOp → Prop
  | .copy _ y => ¬ s.Moved y
  | .assign x y => x ≠ y ∧ ¬ s.Moved y
  | .pixel x _ _ _ => ¬ s.Shared x
  | _ => True

def RegionCarefulRun : List RegionOp → Values (Option Region) → Prop
  | [], _ => True
  | op :: ops, s => RegionCareful s op ∧ ∀ s', regionStep s op = some s' → RegionCarefulRun ops s'

end Trax.Cpp.Spec
