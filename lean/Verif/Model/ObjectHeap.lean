import Verif.Model.Lists

/-!
# Object lists in memory (`src/trax.c` 2049–2132)

The same functions as in `Verif/Model/Lists.lean`, on a heap of regions and property objects. A pointer
is an index into the heap; a released block is `none` and using or releasing it again is undefined.
Blocks are never reused for new objects, so that stale pointers are always noticed. The array blocks of the
lists themselves are values here.
-/

namespace Trax

/-- The heap: region blocks and property blocks. -/
structure Heap where
  regions : List (Option Region)
  props : List (Option Properties)
deriving DecidableEq, Repr

namespace Heap

/-- A new region block. -/
def newRegion (h : Heap) (r : Region) : Nat × Heap := (h.regions.length, { h with regions := h.regions ++ [some r] })

/-- A new property block. -/
def newProps (h : Heap) (p : Properties) : Nat × Heap := (h.props.length, { h with props := h.props ++ [some p] })

/-- Reading through a region pointer. -/
def region (h : Heap) (p : Nat) : Outcome Region :=
  match h.regions[p]? with
  | some (some r) => .ok r
  | _ => .ub

/-- Reading through a pointer to properties. -/
def properties (h : Heap) (p : Nat) : Outcome Properties :=
  match h.props[p]? with
  | some (some r) => .ok r
  | _ => .ub

/-- Writing through a region pointer. -/
def setRegion (h : Heap) (p : Nat) (r : Region) : Outcome Heap :=
  (h.region p).map fun _ => { h with regions := h.regions.set p (some r) }

/-- Writing through a pointer to properties. -/
def setProps (h : Heap) (p : Nat) (v : Properties) : Outcome Heap :=
  (h.properties p).map fun _ => { h with props := h.props.set p (some v) }

/-- `trax_region_release` (`src/trax.c` 1693–1701) and `region_release` (`src/region.c` 715–738): a NULL
pointer is dereferenced. -/
def releaseRegion (h : Heap) (p : Option Nat) : Outcome Heap :=
  match p with
  | none => .ub
  | some p => (h.region p).map fun _ => { h with regions := h.regions.set p none }

/-- `trax_properties_release` (`src/trax.c` 1909–1917). -/
def releaseProps (h : Heap) (p : Nat) : Outcome Heap :=
  (h.properties p).map fun _ => { h with props := h.props.set p none }

/-- `trax_region_clone` (`src/trax.c` 1737–1743) on the heap. -/
def cloneRegion (legacy : Bool) (fresh : Nat → List UInt8) (h : Heap) (p : Option Nat) : Outcome (Option Nat × Heap) :=
  match p with
  | none => .ok (none, h)
  | some p => (h.region p).bind fun r => (Region.clone legacy fresh (some r)).map fun c =>
      match c with
      | none => (none, h)
      | some c => let (q, h) := h.newRegion c; (some q, h)

end Heap

/-- `struct trax_object_list` (`include/trax.h`) with its pointers; `size` is the length. -/
structure ObjArr where
  regions : List (Option Nat)
  props : List Nat
deriving DecidableEq, Repr

namespace ObjArr

/-- `trax_object_list_create` (`src/trax.c` 2049–2066). -/
def create (h : Heap) : Nat → ObjArr × Heap
  | 0 => (⟨[], []⟩, h)
  | n + 1 =>
    let (l, h) := create h n
    let (p, h) := h.newRegion (Region.createSpecial 0)
    let (q, h) := h.newProps Properties.create
    (⟨l.regions ++ [some p], l.props ++ [q]⟩, h)

/-- `trax_object_list_set` (`src/trax.c` 2085–2093): first the old region is released, then the given one
is cloned. -/
def set (legacy : Bool) (fresh : Nat → List UInt8) (h : Heap) (l : ObjArr) (i : Int) (r : Option Nat) : Outcome (ObjArr × Heap) :=
  if i < 0 ∨ i ≥ l.regions.length then .ok (l, h)
  else (h.releaseRegion (l.regions[i.toNat]?.join)).bind fun h =>
    (h.cloneRegion legacy fresh r).map fun (c, h) => ({ l with regions := l.regions.set i.toNat c }, h)

/-- `trax_object_list_get` (`src/trax.c` 2096–2101): a pointer into the list. -/
def get (l : ObjArr) (i : Int) : Option Nat :=
  if i < 0 ∨ i ≥ l.regions.length then none else l.regions[i.toNat]?.join

/-- `trax_object_list_properties` (`src/trax.c` 2103–2106): a pointer into the list. -/
def properties (l : ObjArr) (i : Int) : Option Nat :=
  if i < 0 ∨ i ≥ l.regions.length then none else l.props[i.toNat]?

/-- The loop of `trax_object_list_append` (`src/trax.c` 2124–2128) from element `i` on, `k` elements left. -/
def appendLoop (legacy : Bool) (fresh : Nat → List UInt8) (src : ObjArr) (h : Heap) (l : ObjArr) (i : Nat) :
    Nat → Outcome (ObjArr × Heap)
  | 0 => .ok (l, h)
  | k + 1 =>
    (h.cloneRegion legacy fresh (src.regions[i]?.join)).bind fun (c, h) =>
      let (q, h) := h.newProps Properties.create
      match src.props[i]? with
      | none => .ub
      | some sp =>
        (h.properties sp).bind fun p =>
          (h.setProps q (Properties.copyProperties p Properties.create (Properties.COPY_ALL ||| Properties.COPY_OVERWRITE))).bind fun h =>
            appendLoop legacy fresh src h ⟨l.regions ++ [c], l.props ++ [q]⟩ (i + 1) k

/-- `trax_object_list_append` (`src/trax.c` 2112–2132) for two different lists. -/
def append (legacy : Bool) (fresh : Nat → List UInt8) (h : Heap) (l src : ObjArr) : Outcome (ObjArr × Heap) :=
  appendLoop legacy fresh src h l 0 src.regions.length

/-- `trax_object_list_append` of a list to itself: `list->size` is doubled before the loop runs up to
`src->size`, which is the same variable, so that for a list that is not empty the elements from twice
the old size on are written behind the end of the arrays. -/
def appendSelf (h : Heap) (l : ObjArr) : Outcome (ObjArr × Heap) :=
  if l.regions.length = 0 then .ok (l, h) else .ub

/-- The loop of `trax_object_list_release` (`src/trax.c` 2073–2076). -/
def releaseLoop (h : Heap) : List (Option Nat) → List Nat → Outcome Heap
  | [], _ => .ok h
  | r :: rs, ps =>
    (h.releaseRegion r).bind fun h =>
      match ps with
      | [] => .ub
      | p :: ps => (h.releaseProps p).bind fun h => releaseLoop h rs ps

/-- `trax_object_list_release` (`src/trax.c` 2069–2082). -/
def release (h : Heap) (l : ObjArr) : Outcome Heap := releaseLoop h l.regions l.props

end ObjArr

/-! ## Programs that use object lists -/

/-- A program's view: its own regions (variables with a pointer, `none` after release) and its lists. -/
structure ObjStore where
  heap : Heap
  vars : List (Option Nat)
  lists : List (Option ObjArr)
deriving DecidableEq, Repr

/-- The region argument of a call: NULL, one of the program's regions, or a pointer obtained from a list. -/
inductive RegionArg where
  | null
  | var (v : Nat)
  | slot (l : Nat) (i : Int)
deriving DecidableEq, Repr

/-- The steps of a program. Steps on variables or lists that do not exist (any more) are left out of the
program: they do nothing. -/
inductive ObjOp where
  /-- create a region -/
  | newRegion (r : Region)
  /-- change a region in place, through the accessors -/
  | change (v : Nat) (r : Region)
  /-- release a region -/
  | freeRegion (v : Nat)
  | create (n : Nat)
  | set (l : Nat) (i : Int) (r : RegionArg)
  /-- change a region in place through the pointer returned by `trax_object_list_get` -/
  | changeAt (l : Nat) (i : Int) (r : Region)
  /-- set a property of an object -/
  | setProperty (l : Nat) (i : Int) (k v : Str)
  | append (l src : Nat)
  | release (l : Nat)
deriving DecidableEq, Repr

namespace ObjStore

/-- The pointer that an argument stands for; `none` outside: there is no such object. -/
def pointer (s : ObjStore) : RegionArg → Option (Option Nat)
  | .null => some none
  | .var v => (s.vars[v]?.join).map some
  | .slot l i => (s.lists[l]?.join).map fun a => a.get i

/-- One step. -/
def step (legacy : Bool) (fresh : Nat → List UInt8) (s : ObjStore) : ObjOp → Outcome ObjStore
  | .newRegion r => let (p, h) := s.heap.newRegion r; .ok { s with heap := h, vars := s.vars ++ [some p] }
  | .change v r =>
    match s.vars[v]?.join with
    | none => .ok s
    | some p => (s.heap.setRegion p r).map fun h => { s with heap := h }
  | .freeRegion v =>
    match s.vars[v]?.join with
    | none => .ok s
    | some p => (s.heap.releaseRegion (some p)).map fun h => { s with heap := h, vars := s.vars.set v none }
  | .create n => let (l, h) := ObjArr.create s.heap n; .ok { s with heap := h, lists := s.lists ++ [some l] }
  | .set l i r =>
    match s.lists[l]?.join, s.pointer r with
    | some a, some p => (ObjArr.set legacy fresh s.heap a i p).map fun (a, h) => { s with heap := h, lists := s.lists.set l (some a) }
    | _, _ => .ok s
  | .changeAt l i r =>
    match s.lists[l]?.join with
    | none => .ok s
    | some a =>
      match a.get i with
      | none => .ok s
      | some p => (s.heap.setRegion p r).map fun h => { s with heap := h }
  | .setProperty l i k v =>
    match s.lists[l]?.join with
    | none => .ok s
    | some a =>
      match a.properties i with
      | none => .ok s
      | some q => (s.heap.properties q).bind fun p => (s.heap.setProps q (p.set k v)).map fun h => { s with heap := h }
  | .append l src =>
    match s.lists[l]?.join, s.lists[src]?.join with
    | some a, some b =>
      (if l = src then ObjArr.appendSelf s.heap a else ObjArr.append legacy fresh s.heap a b).map fun (a, h) =>
        { s with heap := h, lists := s.lists.set l (some a) }
    | _, _ => .ok s
  | .release l =>
    match s.lists[l]?.join with
    | none => .ok s
    | some a => (ObjArr.release s.heap a).map fun h => { s with heap := h, lists := s.lists.set l none }

/-- A program, beginning with nothing. -/
def run (legacy : Bool) (fresh : Nat → List UInt8) : List ObjOp → ObjStore → Outcome ObjStore
  | [], s => .ok s
  | op :: ops, s => (step legacy fresh s op).bind (run legacy fresh ops)

/-! ### What the program can read -/

/-- The region of one of its own pointers. -/
def readVar (s : ObjStore) (v : Nat) : Outcome (Option Region) :=
  match s.vars[v]?.join with
  | none => .ok none
  | some p => (s.heap.region p).map some

/-- `trax_object_list_count` (`src/trax.c` 2108–2110) of a list that exists. -/
def readCount (s : ObjStore) (l : Nat) : Option Nat := (s.lists[l]?.join).map fun a => a.regions.length

/-- The region behind the pointer from `trax_object_list_get`; `none` for NULL. -/
def readRegion (s : ObjStore) (l : Nat) (i : Int) : Outcome (Option Region) :=
  match s.lists[l]?.join with
  | none => .ok none
  | some a =>
    match a.get i with
    | none => .ok none
    | some p => (s.heap.region p).map some

/-- A property of the object behind the pointer from `trax_object_list_properties`; `none` outside for NULL. -/
def readProperty (s : ObjStore) (l : Nat) (i : Int) (k : Str) : Outcome (Option (Option Str)) :=
  match s.lists[l]?.join with
  | none => .ok none
  | some a =>
    match a.properties i with
    | none => .ok none
    | some q => (s.heap.properties q).map fun p => some (p.get k)

/-- The number of blocks that are not released. -/
def liveBlocks (s : ObjStore) : Nat :=
  s.heap.regions.countP (·.isSome) + s.heap.props.countP (·.isSome)

end ObjStore
end Trax
