import Verif.Model.MapMemory
import Verif.Spec.PropertyMap

/-!
# What programs with property objects may expect

The variables of a program are NULL or hold a finite map; the maps are those of `Verif/Spec/PropertyMap.lean`.
-/

namespace Trax.MapMem.Spec
open Trax.Spec

/-- The variables of a program. -/
abbrev Store := List (Option AMap)

/-- Variable `i` is an object. -/
def Live (s : Store) (i : Nat) : Prop := ∃ m, s[i]? = some (some m)

/-- A C string of less than 2 GiB. -/
def Short (t : Str) : Prop := NoNul t ∧ t.length < 2147483647

/-- What a program may do. -/
def Allowed (s : Store) : Op → Prop
  | .create => True
  | .set i k v => Live s i ∧ Short k ∧ Short v
  | .get i k => Live s i ∧ Short k
  | .has i k => Live s i ∧ Short k
  | .count i => Live s i
  | .clear i => i < s.length
  | .copy i => i < s.length
  /- an object is not appended to itself -/
  | .append i j _ => i < s.length ∧ Live s j ∧ i ≠ j
  | .release i => i < s.length

/-- The variables after a call. Appending replaces the values of keys that are there already, whatever `overwrite` is (C19). -/
def after (s : Store) : Op → Store
  | .create => s ++ [some AMap.empty]
  | .set i k v => s.modify i (Option.map fun m => m.set k v)
  | .clear i => s.modify i (Option.map fun _ => AMap.empty)
  | .copy i => s ++ [some ((s[i]?.join).getD AMap.empty)]
  | .append i j _ => s.modify j (Option.map fun d => AMap.override ((s[i]?.join).getD AMap.empty) d)
  | .release i => s.set i none
  | _ => s

/-- The answer of a call. -/
def Answered (s : Store) : Op → Answer → Prop
  | .get i k, a => ∃ m, s[i]? = some (some m) ∧ a = .text (m k)
  | .has i k, a => ∃ m, s[i]? = some (some m) ∧ a = .flag (m k).isSome
  | .count i, a => ∃ (m : AMap) (keys : List Str), s[i]? = some (some m) ∧ keys.Nodup ∧ (∀ k, k ∈ keys ↔ m k ≠ none) ∧ a = .number keys.length
  | _, a => a = .nothing

/-- A program that only does what is allowed. -/
def Proper : Store → List Op → Prop
  | _, [] => True
  | s, op :: ops => Allowed s op ∧ Proper (after s op) ops

/-- The answers to the calls of a program. -/
def AllAnswered : Store → List Op → List Answer → Prop
  | _, [], as => as = []
  | s, op :: ops, as => ∃ a rest, as = a :: rest ∧ Answered s op a ∧ AllAnswered (after s op) ops rest

/-- The variables at the end of a program. -/
def final : Store → List Op → Store
  | s, [] => s
  | s, op :: ops => final (after s op) ops

end Trax.MapMem.Spec
