import Verif.Model.Bytes

/-!
# Specification of property objects

Independent of the hash map: property objects are finite maps from C strings to
C strings, living in a store of numbered objects that never share contents.
-/

namespace Trax.Spec

/-- An abstract property object: the value of each key, if any. -/
abbrev AMap := Str → Option Str

def AMap.empty : AMap := fun _ => none

def AMap.set (m : AMap) (k v : Str) : AMap := fun k' => if k' = k then some v else m k'

/-- All entries of `src`, and those of `dst` for the keys that `src` does not have. -/
def AMap.override (src dst : AMap) : AMap := fun k => (src k).or (dst k)

/-- Operations on a store of property objects, addressed by creation number. -/
inductive PropOp where
  /-- create a new, empty object -/
  | create
  /-- set a key of object `i` -/
  | set (i : Nat) (k v : Str)
  /-- remove all keys of object `i` -/
  | clear (i : Nat)
  /-- create a new object as a copy of object `i` -/
  | copy (i : Nat)
  /-- append object `i` to object `j`, overwriting -/
  | append (i j : Nat)
deriving DecidableEq

/-- The strings passed to the API are C strings. -/
def PropOp.CStrings : PropOp → Prop
  | .set _ k v => NoNul k ∧ NoNul v
  | _ => True

/-- Effect of an operation; operations on objects that do not exist are void. -/
def PropOp.apply (s : List AMap) : PropOp → List AMap
  | .create => s ++ [AMap.empty]
  | .set i k v => s.modify i fun m => m.set k v
  | .clear i => s.modify i fun _ => AMap.empty
  | .copy i => match s[i]? with
    | some m => s ++ [m]
    | none => s
  | .append i j => match s[i]? with
    | some m => s.modify j fun d => AMap.override m d
    | none => s

def runProps (ops : List PropOp) : List AMap := ops.foldl PropOp.apply []

end Trax.Spec
