import Verif.Model.CMemory

/-!
# Model of the memory of regions (`src/region.c` 64–127, 267–526, 539–803, 872–998, 1101–1271, `src/trax.c` 1690–1907)

The functions for regions once more, with the blocks that they take from `malloc` and give back with `free`, in the notation
of `Verif/Model/CMemory.lean`: a block is a number that is never used again; reading or writing through a pointer to a
block that is not there, and giving it back, is undefined. A region is its container and, for a polygon, two arrays,
for a mask, one.

Simplifications: the values are those of `Verif/Model/Geometry.lean` and `Verif/Model/RegionApi.lean`, which also say where
an access is outside of an array; here it is followed that arrays which are used are there. `realloc` keeps its block.
`malloc` succeeds.
-/

namespace Trax
namespace RegMem

open CMem

/-- The type of a container and its arrays. -/
inductive Shape where
  | special
  | rectangle
  | polygon (x y : Ptr)
  | mask (data : Ptr)
deriving DecidableEq, Repr

/-- A region: its container, with type and arrays. -/
structure At where
  self : Ptr
  shape : Shape
deriving DecidableEq, Repr

/-- Reading from or writing to a block. -/
def use (p : Ptr) : Prog Unit := fun m => if p ∈ m.live then .ok ((), m) else .ub

/-- Looking into a region: its container and its arrays. -/
def look (a : At) : Prog Unit := do
  use a.self
  match a.shape with
  | .polygon x y => do use x; use y
  | .mask data => use data
  | _ => pure ()

/-- `region_create_special` and `region_create_rectangle` (`src/region.c` 741–762). -/
def createPlain (s : Shape) : Prog At := do
  let self ← new
  pure ⟨self, s⟩

/-- `region_create_polygon` (`src/region.c` 764–779). -/
def createPolygon : Prog At := do
  let self ← new
  let x ← new
  let y ← new
  pure ⟨self, .polygon x y⟩

/-- `region_create_mask` (`src/region.c` 781–801): the region and its array. -/
def createMask : Prog (At × Ptr) := do
  let self ← new
  let data ← new
  pure (⟨self, .mask data⟩, data)

/-- `region_release` (`src/region.c` 715–738) and `trax_region_release` (`src/trax.c` 1693–1701). -/
def release (a : At) : Prog Unit := do
  use a.self
  match a.shape with
  | .polygon x y => do free x; free y
  | .mask data => free data
  | _ => pure ()
  free a.self

/-- `clone_polygon` (`src/region.c` 91–99), with which `offset_polygon` and `round_polygon` (101–126) begin: the new arrays. -/
def clonePolygon (x y : Ptr) : Prog (Ptr × Ptr) := do
  let x' ← new
  let y' ← new
  use x
  use y
  pure (x', y')

/-- `free_polygon` (`src/region.c` 64–74). -/
def freePolygon (p : Ptr × Ptr) : Prog Unit := do
  free p.1
  free p.2

/-- `rasterize_polygon` (`src/region.c` 872–998): without the old rasterization a rounded copy is used. -/
def rasterize (legacy : Bool) (p : Ptr × Ptr) (target : Ptr) : Prog Unit := do
  let nodes ← new
  use target
  if legacy then do
    use p.1
    use p.2
    free nodes
  else do
    let q ← clonePolygon p.1 p.2
    freePolygon q
    free nodes

/-- `region_convert` to a rectangle (`src/region.c` 543–588). -/
def toRectangle (a : At) : Prog (Option At) := do
  let self ← new
  look a
  match a.shape with
  | .special => do
    free self
    pure none
  | _ => pure (some ⟨self, .rectangle⟩)

/-- `region_convert` to a polygon (`src/region.c` 590–660). -/
def toPolygon (a : At) : Prog (Option At) := do
  let self ← new
  look a
  match a.shape with
  | .special => do
    free self
    pure none
  | .polygon x y => do
    let p ← clonePolygon x y
    pure (some ⟨self, .polygon p.1 p.2⟩)
  | _ => do
    let x ← new
    let y ← new
    pure (some ⟨self, .polygon x y⟩)

/-- `region_get_mask_offset` (`src/region.c` 1228–1271) into the array `target`. A special region is taken for a polygon. -/
def getMask (legacy : Bool) (a : At) (target : Ptr) : Prog Unit := do
  match a.shape with
  | .special => ub
  | .mask data => do
    use data
    use target
  | .polygon x y => do
    let p ← clonePolygon x y
    rasterize legacy p target
    freePolygon p
  | .rectangle => do
    let t ← toPolygon a
    match t with
    | some ⟨self, .polygon x y⟩ => do
      let p ← clonePolygon x y
      release ⟨self, .polygon x y⟩
      rasterize legacy p target
      freePolygon p
    | _ => ub

/-- `region_convert` to a mask (`src/region.c` 662–698): for a polygon a container is made first, whose pointer is then overwritten
with that of the mask. -/
def toMask (legacy : Bool) (a : At) : Prog (Option At) := do
  look a
  match a.shape with
  | .special => pure none -- `free(NULL)`
  | .polygon _ _ => do
    let _ ← new
    let m ← createMask
    getMask legacy a m.2
    pure (some m.1)
  | _ => do
    let m ← createMask
    use m.2
    pure (some m.1)

/-- `region_convert` (`src/region.c` 539–713); `none` is `NULL`. -/
def convert (legacy : Bool) (a : At) : RegionType → Prog (Option At)
  | .rectangle => toRectangle a
  | .polygon => toPolygon a
  | .mask => toMask legacy a
  | .special => do
    look a
    let a' ← createPlain .special
    pure (some a')
  | .empty => pure none

/-- Whether `region_compute_overlap` returns before it draws the regions (`src/region.c` 1118–1143). -/
def tooSmall (legacy : Bool) (ra rb : Region) (bounds : Bounds) : Outcome Bool :=
  (Region.clipped legacy ra bounds).bind fun b1 => (Region.clipped legacy rb bounds).bind fun b2 =>
  (b1.left.minF b2.left).toInt.bind fun x => (b1.top.minF b2.top).toInt.bind fun y =>
  (((b1.right.maxF b2.right).subF (.ofInt x)).toInt.bind fun w => chk32 (w + 1)).bind fun width =>
  (((b1.bottom.maxF b2.bottom).subF (.ofInt y)).toInt.bind fun h => chk32 (h + 1)).map fun height =>
  (b1.area.widen.divD b2.area.widen).lt Region.tiny || (b2.area.widen.divD b1.area.widen).lt Region.tiny || decide (width < 1) || decide (height < 1)

/-- `region_compute_overlap` (`src/region.c` 1101–1201): two masks are made, filled, counted and released. -/
def overlap (legacy : Bool) (a b : At) (early : Bool) : Prog Unit := do
  look a
  look b
  if early then pure ()
  else do
    let ta ← createMask
    let tb ← createMask
    getMask legacy a ta.2
    getMask legacy b tb.2
    use ta.2
    use tb.2
    release ta.1
    release tb.1

/-- The container and the arrays for the values that were read (`src/region.c` 346–454). -/
def place : Region → Prog At
  | .special _ => createPlain .special
  | .rectangle .. => createPlain .rectangle
  | .polygon _ => createPolygon
  | .mask .. => do
    let m ← createMask
    use m.2
    pure m.1

/-- `region_parse` (`src/region.c` 326–460) with `_parse_sequence` (288–324), given the region that it reads. -/
def parse (text : Str) (r : Option Region) : Prog (Option At) :=
  if text = [] then pure none
  else do
    let numbers ← new
    let data ← new
    use numbers
    free numbers
    use data
    match r with
    | none => do
      free data
      pure none
    | some r => do
      let a ← place r
      free data
      pure (some a)

/-- `region_string` (`src/region.c` 462–526): the text, if there is one. -/
def string (a : Option At) (given : Bool) : Prog (Option Ptr) := do
  match a with
  | none => pure none
  | some a => do
    let self ← new
    let buffer ← new
    look a
    use buffer
    let t ← newIf given
    free buffer
    free self
    pure t

/-! ## Programs -/

/-- Calls that change a region (`src/trax.c` 1788–1835, 1872–1880). -/
inductive Change where
  | setSpecial (code : Int)
  | setRectangle (x y w h : Flt)
  | setPoint (index : Int) (x y : Flt)
  | writePixel (row j : Int) (v : UInt8)
deriving DecidableEq, Repr

/-- What they do. -/
def Change.apply (c : Change) (r : Region) : Outcome Region :=
  match c with
  | .setSpecial code => r.setSpecial code
  | .setRectangle x y w h => r.setRectangle x y w h
  | .setPoint i x y => r.setPolygonPoint i x y
  | .writePixel row j v => r.writeMaskPixel row j v

/-- Calls that only read a region (`src/trax.c` 1723–1735, 1774–1786, 1797–1890). -/
inductive Question where
  | special
  | rectangle
  | point (index : Int)
  | count
  | header
  | pixel (row j : Int)
  | bounds
  | contains (x y : Flt)
  | type
deriving DecidableEq, Repr

/-- What calls give back. -/
inductive Answer where
  | nothing
  | int (n : Int)
  | ints (ns : List Int)
  | floats (fs : List Flt)
  | flag (b : Bool)
  | pixel (v : UInt8)
  | text (t : Option Str)
deriving DecidableEq, Repr

/-- The answer to a question. -/
def Question.answer (legacy : Bool) (q : Question) (r : Region) : Outcome Answer :=
  match q with
  | .special => r.getSpecial.map fun n => .int n
  | .rectangle => r.getRectangle.map fun (x, y, w, h) => .floats [x, y, w, h]
  | .point i => (r.getPolygonPoint i).map fun p => .floats [p.1, p.2]
  | .count => r.getPolygonCount.map fun n => .int n
  | .header => r.getMaskHeader.map fun (x, y, w, h) => .ints [x, y, w, h]
  | .pixel row j => (r.readMaskPixel row j).map fun v => .pixel v
  | .bounds => (Region.computeBounds legacy r).map fun b => .floats [b.top, b.bottom, b.left, b.right]
  | .contains x y => (r.containsPoint x y).map fun b => .flag b
  | .type => .ok (.int r.apiType.toNat)

/-- The calls of a program. Every call that makes a region or a text puts it (or NULL) into a new variable; `i` and `j` are numbers of
variables. -/
inductive Op where
  | special (code : Int)
  | rectangle (x y w h : Flt)
  | polygon (size : Int)
  | mask (x y w h : Int)
  | clone (i : Nat)
  | convert (i : Nat) (format : UInt32)
  | getBounds (i : Nat)
  | decode (text : Str)
  | encode (i : Nat)
  | change (i : Nat) (c : Change)
  | ask (i : Nat) (q : Question)
  | overlap (i j : Nat) (bounds : Bounds)
  | release (i : Nat)
  | freeText (j : Nat)
deriving DecidableEq, Repr

/-- The variables of the program. -/
structure State where
  regions : List (Option (At × Region))
  texts : List (Option Ptr)
deriving DecidableEq, Repr

/-- What is as it may be: the old rasterization or not, and what is in fresh memory. -/
structure Setting where
  legacy : Bool
  fresh : Nat → List UInt8
  freshPoints : Nat → List (Flt × Flt)

/-- A new variable. -/
def State.keep (s : State) (a : Option At) (r : Option Region) : Prog State :=
  match a, r with
  | some a, some r => pure { s with regions := s.regions ++ [some (a, r)] }
  | none, none => pure { s with regions := s.regions ++ [none] }
  | _, _ => ub

/-- The calls (`src/trax.c` 1690–1907). A variable that does not exist is undefined, and so is NULL where the function does not check it. -/
def step (g : Setting) (s : State) : Op → Prog (State × Answer)
  | .special code => do
    let a ← createPlain .special
    let s ← s.keep (some a) (some (Region.createSpecial code))
    pure (s, .nothing)
  | .rectangle x y w h => do
    let a ← createPlain .rectangle
    let s ← s.keep (some a) (some (Region.createRectangle x y w h))
    pure (s, .nothing)
  | .polygon size => do
    let r ← outcome (Region.createPolygon g.freshPoints size)
    let a ← createPolygon
    let s ← s.keep (some a) (some r)
    pure (s, .nothing)
  | .mask x y w h => do
    let r ← outcome (Region.apiCreateMask g.fresh x y w h)
    let m ← createMask
    let s ← s.keep (some m.1) (some r)
    pure (s, .nothing)
  | .clone i =>
    match s.regions[i]? with
    | none => ub
    | some none => do
      let s ← s.keep none none
      pure (s, .nothing)
    | some (some (a, r)) => do
      let r' ← outcome (Region.clone g.legacy g.fresh (some r))
      let a' ← convert g.legacy a (Region.typeBack r.apiType)
      let s ← s.keep a' r'
      pure (s, .nothing)
  | .convert i format =>
    match s.regions[i]? with
    | none => ub
    | some none => do
      let s ← s.keep none none
      pure (s, .nothing)
    | some (some (a, r)) => do
      let r' ← outcome (Region.apiConvert g.legacy g.fresh (some r) format)
      let a' ← convert g.legacy a (Region.typeBack format)
      let s ← s.keep a' r'
      pure (s, .nothing)
  | .getBounds i =>
    match s.regions[i]? with
    | some (some (a, r)) => do
      let r' ← outcome (Region.getBounds g.legacy g.fresh r)
      let a' ← convert g.legacy a .rectangle
      let s ← s.keep a' r'
      pure (s, .nothing)
    | _ => ub
  | .decode text => do
    let r ← outcome (Region.decode text)
    let a ← parse text r
    let s ← s.keep a r
    pure (s, .nothing)
  | .encode i =>
    match s.regions[i]? with
    | none => ub
    | some slot => do
      let t ← outcome (Handle.regionText (slot.map Prod.snd))
      let p ← string (slot.map Prod.fst) t.isSome
      pure ({ s with texts := s.texts ++ [p] }, .text t)
  | .change i c =>
    match s.regions[i]? with
    | some (some (a, r)) => do
      look a
      let r' ← outcome (c.apply r)
      pure ({ s with regions := s.regions.set i (some (a, r')) }, .nothing)
    | _ => ub
  | .ask i q =>
    match s.regions[i]? with
    | some (some (a, r)) => do
      look a
      let answer ← outcome (q.answer g.legacy r)
      pure (s, answer)
    | _ => ub
  | .overlap i j bounds =>
    match s.regions[i]?, s.regions[j]? with
    | some (some (a, ra)), some (some (b, rb)) => do
      let o ← outcome (Region.apiOverlap g.legacy g.fresh (some ra) (some rb) bounds)
      let early ← outcome (tooSmall g.legacy ra rb bounds)
      overlap g.legacy a b early
      pure (s, .floats [o])
    | some _, some _ => pure (s, .floats [.ofInt 0])
    | _, _ => ub
  | .release i =>
    match s.regions[i]? with
    | some (some (a, _)) => do
      release a
      pure ({ s with regions := s.regions.set i none }, .nothing)
    | _ => ub
  | .freeText j =>
    match s.texts[j]? with
    | none => ub
    | some p => do
      freeIf p
      pure ({ s with texts := s.texts.set j none }, .nothing)

/-- A program. -/
def run (g : Setting) : State → List Op → Prog (State × List Answer)
  | s, [] => pure (s, [])
  | s, op :: ops => do
    let r ← step g s op
    let rest ← run g r.1 ops
    pure (rest.1, r.2 :: rest.2)

end RegMem
end Trax
