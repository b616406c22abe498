import Verif.Model.RegionMemory
import Verif.Spec.CMemory
import Mathlib.Algebra.Order.Group.Multiset
import Mathlib.Algebra.BigOperators.Group.List.Basic

/-!
# What programs that use regions may expect of the memory

The same calls on values, without memory: `RegMem.Spec.step`. The rules of the documentation are in it: a variable that a
call uses exists, and is not NULL where the call does not allow it. Beside it, how much memory a program needs: what its
variables hold.
-/

namespace Trax
namespace RegMem

/-- The blocks of a region: the container and its arrays. -/
def At.blocks (a : At) : Multiset Nat :=
  match a.shape with
  | .special => {a.self}
  | .rectangle => {a.self}
  | .polygon x y => {a.self} + {x} + {y}
  | .mask data => {a.self} + {data}

/-- The container and the value are of the same type. -/
def SameType : At → Region → Prop
  | ⟨_, .special⟩, .special _ => True
  | ⟨_, .rectangle⟩, .rectangle .. => True
  | ⟨_, .polygon _ _⟩, .polygon _ => True
  | ⟨_, .mask _⟩, .mask .. => True
  | _, _ => False

/-- The blocks of a variable. -/
def slotBlocks : Option (At × Region) → Multiset Nat
  | none => 0
  | some (a, _) => a.blocks

/-- The blocks that the variables of a program hold. -/
def State.held (s : State) : Multiset Nat :=
  (s.regions.map slotBlocks).sum + (s.texts.map CMem.opt).sum

namespace Spec

/-- The variables of a program, as values. -/
structure Values where
  regions : List (Option Region)
  texts : List (Option Str)
deriving DecidableEq, Repr

/-- A new variable. -/
def Values.keep (v : Values) (r : Option Region) : Values × Answer :=
  ({ v with regions := v.regions ++ [r] }, .nothing)

/-- The calls on values. -/
def step (g : Setting) (v : Values) : Op → Outcome (Values × Answer)
  | .special code => .ok (v.keep (some (.special code)))
  | .rectangle x y w h => .ok (v.keep (some (.rectangle x y w h)))
  | .polygon size => (Region.createPolygon g.freshPoints size).map fun r => v.keep (some r)
  | .mask x y w h => (Region.apiCreateMask g.fresh x y w h).map fun r => v.keep (some r)
  | .clone i =>
    match v.regions[i]? with
    | none => .ub
    | some r => (Region.clone g.legacy g.fresh r).map v.keep
  | .convert i format =>
    match v.regions[i]? with
    | none => .ub
    | some r => (Region.apiConvert g.legacy g.fresh r format).map v.keep
  | .getBounds i =>
    match v.regions[i]? with
    | some (some r) => (Region.getBounds g.legacy g.fresh r).map v.keep
    | _ => .ub
  | .decode text => (Region.decode text).map v.keep
  | .encode i =>
    match v.regions[i]? with
    | none => .ub
    | some none => .ok ({ v with texts := v.texts ++ [none] }, .text none)
    | some (some r) => r.string.map fun t => ({ v with texts := v.texts ++ [t] }, .text t)
  | .change i c =>
    match v.regions[i]? with
    | some (some r) => (c.apply r).map fun r' => ({ v with regions := v.regions.set i (some r') }, .nothing)
    | _ => .ub
  | .ask i q =>
    match v.regions[i]? with
    | some (some r) => (q.answer g.legacy r).map fun a => (v, a)
    | _ => .ub
  | .overlap i j bounds =>
    match v.regions[i]?, v.regions[j]? with
    | some ra, some rb => (Region.apiOverlap g.legacy g.fresh ra rb bounds).map fun o => (v, .floats [o])
    | _, _ => .ub
  | .release i =>
    match v.regions[i]? with
    | some (some _) => .ok ({ v with regions := v.regions.set i none }, .nothing)
    | _ => .ub
  | .freeText j =>
    match v.texts[j]? with
    | none => .ub
    | some _ => .ok ({ v with texts := v.texts.set j none }, .nothing)

/-- A program on values. -/
def run (g : Setting) : Values → List Op → Outcome (Values × List Answer)
  | v, [] => .ok (v, [])
  | v, op :: ops => (step g v op).bind fun r => (run g r.1 ops).map fun rest => (rest.1, r.2 :: rest.2)

/-- Whether the call converts a polygon to a mask. -/
def polygonToMask (v : Values) : Op → Bool
  | .convert i format =>
    match v.regions[i]? with
    | some (some (.polygon _)) => decide (format = 8)
    | _ => false
  | _ => false

/-- How often a program converts a polygon to a mask. -/
def conversions (g : Setting) : Values → List Op → Nat
  | _, [] => 0
  | v, op :: ops =>
    (if polygonToMask v op then 1 else 0) +
      match step g v op with
      | .ok r => conversions g r.1 ops
      | _ => 0

/-- How many blocks a region needs: its container, two arrays for a polygon, one for a mask. -/
def blocks : Region → Nat
  | .special _ => 1
  | .rectangle .. => 1
  | .polygon _ => 3
  | .mask .. => 2

/-- How many blocks the variables need. -/
def Values.needed (v : Values) : Nat :=
  (v.regions.map fun r => match r with | none => 0 | some r => blocks r).sum +
    (v.texts.map fun t => match t with | none => 0 | some _ => 1).sum

end Spec

end RegMem
end Trax
