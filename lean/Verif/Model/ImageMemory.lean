import Verif.Model.Image

/-!
# Model of images and image lists in memory (`src/trax.c` 1531–1690, 2134–2183)

The structures with their fields and pointers. A pointer is the number of a block of its kind; a block that was
given back is `none`, and using it or giving it back again is undefined. Blocks are never used again, so that stale
pointers are noticed. `malloc` succeeds.
-/

namespace Trax
namespace ImgMem

/-- `struct trax_image` (`include/trax.h` 129–135); `data` is `none` for NULL. -/
structure Struct where
  type : Int
  width : Int
  height : Int
  format : Int
  data : Option Nat
deriving DecidableEq, Repr

/-- The memory: image structures, blocks of bytes, and list structures with their array of pointers
(`include/trax.h` 213–215). -/
structure Heap where
  structs : List (Option Struct)
  datas : List (Option (List UInt8))
  lists : List (Option (List (Option Nat)))
deriving DecidableEq, Repr

namespace Heap

/-- `malloc(sizeof(trax_image))` and the assignments to the fields. -/
def newStruct (h : Heap) (s : Struct) : Nat × Heap := (h.structs.length, { h with structs := h.structs ++ [some s] })

/-- `malloc` of a block of bytes, and what is written to it. -/
def newData (h : Heap) (bytes : List UInt8) : Nat × Heap := (h.datas.length, { h with datas := h.datas ++ [some bytes] })

/-- Reading the fields of an image; NULL is undefined. -/
def struct (h : Heap) : Option Nat → Outcome Struct
  | none => .ub
  | some p =>
    match h.structs[p]? with
    | some (some s) => .ok s
    | _ => .ub

/-- Reading a block of bytes; NULL is undefined. -/
def bytes (h : Heap) : Option Nat → Outcome (List UInt8)
  | none => .ub
  | some d =>
    match h.datas[d]? with
    | some (some b) => .ok b
    | _ => .ub

/-- Reading the array of a list. -/
def entries (h : Heap) : Option Nat → Outcome (List (Option Nat))
  | none => .ub
  | some l =>
    match h.lists[l]? with
    | some (some e) => .ok e
    | _ => .ub

/-- `free` of a block of bytes. -/
def freeBytes (h : Heap) (d : Nat) : Outcome Heap :=
  (h.bytes (some d)).map fun _ => { h with datas := h.datas.set d none }

/-- `free` of an image structure. -/
def freeStruct (h : Heap) (p : Nat) : Outcome Heap :=
  (h.struct (some p)).map fun _ => { h with structs := h.structs.set p none }

/-- How many blocks are not given back. -/
def live (h : Heap) : Nat :=
  h.structs.countP (·.isSome) + h.datas.countP (·.isSome) + h.lists.countP (·.isSome)

end Heap

/-! ## Images -/

/-- `trax_image_create_path` (`src/trax.c` 1543–1554); the field `format` keeps what is in the fresh memory (`junk`). -/
def createPath (junk : Int) (h : Heap) (path : Str) : Nat × Heap :=
  let (d, h) := h.newData (cstr path ++ [0])
  h.newStruct ⟨1, 0, 0, junk, some d⟩

/-- `trax_image_create_url` (`src/trax.c` 1556–1568). -/
def createUrl (junk : Int) (h : Heap) (url : Str) : Nat × Heap :=
  let (d, h) := h.newData (cstr url ++ [0])
  h.newStruct ⟨2, 0, 0, junk, some d⟩

/-- `trax_image_create_memory` (`src/trax.c` 1570–1592). -/
def createMemory (fresh : Nat → UInt8) (h : Heap) (width height format : Int) : Outcome (Nat × Heap) :=
  if format = 1 ∨ format = 2 ∨ format = 3 then
    (Image.memorySize width height format).map fun n =>
      let (d, h) := h.newData ((List.range n.toNat).map fresh)
      h.newStruct ⟨4, width, height, format, some d⟩
  else .abort

/-- `trax_image_create_buffer` (`src/trax.c` 1595–1615); `length` is the length of `data`. -/
def createBuffer (h : Heap) (data : List UInt8) : Outcome (Nat × Heap) :=
  if 4 < data.length then
    let format := Image.verifyFormat data
    if format ≠ 0 then
      let (d, h) := h.newData data
      .ok (h.newStruct ⟨8, data.length, 1, format, some d⟩)
    else .abort
  else .abort

/-- `trax_image_release` (`src/trax.c` 1531–1541). -/
def release (h : Heap) (image : Option Nat) : Outcome Heap :=
  match image with
  | none => .ub
  | some p =>
    (h.struct (some p)).bind fun s =>
      match s.data with
      | none => h.freeStruct p
      | some d => (h.freeBytes d).bind fun h =>
        ({ h with structs := h.structs.set p (some { s with data := none }) } : Heap).freeStruct p

/-- `trax_image_get_type` (`src/trax.c` 1617–1623). -/
def getType (h : Heap) (image : Option Nat) : Outcome Int :=
  match image with
  | none => .ok 0
  | some p => (h.struct (some p)).map Struct.type

/-- The text at a pointer: without a NUL in the block, what is behind the block is read. -/
def readText (h : Heap) (data : Option Nat) : Outcome Str :=
  (h.bytes data).bind fun b => if 0 ∈ b then .ok (cstr b) else .ub

/-- `trax_image_get_path` (`src/trax.c` 1625–1631) and `trax_image_get_url` (1633–1638), for the type 1 or 2: the text at the
pointer that they return. -/
def getText (type : Int) (h : Heap) (image : Option Nat) : Outcome Str :=
  (h.struct image).bind fun s => if s.type = type then readText h s.data else .abort

/-- `trax_image_get_memory_header` (`src/trax.c` 1640–1648). -/
def getHeader (h : Heap) (image : Option Nat) : Outcome (Int × Int × Int) :=
  (h.struct image).bind fun s => if s.type = 4 then .ok (s.width, s.height, s.format) else .abort

/-- `trax_image_get_buffer` (`src/trax.c` 1682–1690): the format and as many bytes at the pointer as the length says. -/
def getBuffer (h : Heap) (image : Option Nat) : Outcome (Int × List UInt8) :=
  (h.struct image).bind fun s =>
    if s.type = 8 then (h.bytes s.data).bind fun b =>
      if 0 ≤ s.width ∧ s.width ≤ b.length then .ok (s.format, b.take s.width.toNat) else .ub
    else .abort

/-- `trax_image_write_memory_row` and `trax_image_get_memory_row` (`src/trax.c` 1656–1680): the offset of the pointer into the
bytes. -/
def rowOffset (h : Heap) (image : Option Nat) (row : Int) : Outcome (Struct × Int) :=
  (h.struct image).bind fun s =>
    if s.type = 4 then
      if 0 ≤ row ∧ row < s.height then
        (mul32 (Image.depth s.format * Image.channels s.format) row).map fun o => (s, o)
      else .abort
    else .abort

/-- Reading byte `j` behind the pointer to a row. -/
def readRow (h : Heap) (image : Option Nat) (row : Int) (j : Nat) : Outcome UInt8 :=
  (rowOffset h image row).bind fun (s, o) => (h.bytes s.data).bind fun b =>
    match b[o.toNat + j]? with
    | some v => .ok v
    | none => .ub

/-- Writing byte `j` behind the pointer to a row. -/
def writeRow (h : Heap) (image : Option Nat) (row : Int) (j : Nat) (v : UInt8) : Outcome Heap :=
  (rowOffset h image row).bind fun (s, o) => (h.bytes s.data).bind fun b =>
    match s.data with
    | none => .ub
    | some d => if o.toNat + j < b.length then .ok { h with datas := h.datas.set d (some (b.set (o.toNat + j) v)) } else .ub

/-! ## Lists -/

/-- `trax_image_list_create` (`src/trax.c` 2134–2144). -/
def createList (h : Heap) : Nat × Heap :=
  (h.lists.length, { h with lists := h.lists ++ [some [none, none, none]] })

/-- The loop of `trax_image_list_clear` (`src/trax.c` 2150–2155): the entries that are not NULL are released. -/
def clearLoop : List (Option Nat) → Heap → Outcome Heap
  | [], h => .ok h
  | none :: es, h => clearLoop es h
  | some p :: es, h => (release h (some p)).bind (clearLoop es)

/-- `trax_image_list_clear` (`src/trax.c` 2146–2157): `trax_image_release` sets the entries to NULL. -/
def clear (h : Heap) (list : Option Nat) : Outcome Heap :=
  (h.entries list).bind fun es => (clearLoop es h).map fun h =>
    match list with
    | none => h
    | some l => { h with lists := h.lists.set l (some (es.map fun _ => none)) }

/-- `trax_image_list_release` (`src/trax.c` 2159–2169). -/
def releaseList (h : Heap) (list : Option Nat) : Outcome Heap :=
  (h.entries list).map fun _ =>
    match list with
    | none => h
    | some l => { h with lists := h.lists.set l none }

/-- `TRAX_CHANNEL_INDEX` (`include/trax.h` 93–96). -/
def channelIndex (channel : Int) : Int :=
  if channel = 1 then 0 else if channel = 2 then 1 else if channel = 4 then 2 else -1

/-- `trax_image_list_get` (`src/trax.c` 2171–2176): the list is not looked at if there is no such channel. -/
def listGet (h : Heap) (list : Option Nat) (channel : Int) : Outcome (Option Nat) :=
  let i := channelIndex channel
  if i < 0 ∨ i > 3 then .ok none
  else (h.entries list).bind fun es =>
    match es[i.toNat]? with
    | some p => .ok p
    | none => .ub

/-- `trax_image_list_set` (`src/trax.c` 2178–2183). -/
def listSet (h : Heap) (list image : Option Nat) (channel : Int) : Outcome Heap :=
  let i := channelIndex channel
  if i < 0 ∨ i > 3 then .ok h
  else (h.entries list).bind fun es =>
    match list with
    | none => .ub
    | some l => if i.toNat < es.length then .ok { h with lists := h.lists.set l (some (es.set i.toNat image)) } else .ub

/-! ## Programs -/

/-- The calls of a program. Calls that give an image put the pointer into a new variable for images, and `createList` puts it into
a new variable for lists; `i` and `l` are numbers of variables. -/
inductive Op where
  | createPath (text : Str)
  | createUrl (text : Str)
  | createMemory (width height format : Int)
  | createBuffer (data : List UInt8)
  | copyPointer (i : Nat)
  | null
  | release (i : Nat)
  | type (i : Nat)
  | path (i : Nat)
  | url (i : Nat)
  | header (i : Nat)
  | buffer (i : Nat)
  | read (i : Nat) (row : Int) (j : Nat)
  | write (i : Nat) (row : Int) (j : Nat) (v : UInt8)
  | createList
  | clear (l : Nat)
  | releaseList (l : Nat)
  | get (l : Nat) (channel : Int)
  | set (l i : Nat) (channel : Int)
deriving DecidableEq, Repr

/-- What the calls return. -/
inductive Answer where
  | nothing
  | null (b : Bool)
  | int (n : Int)
  | text (t : Str)
  | header (width height format : Int)
  | buffer (format : Int) (data : List UInt8)
  | byte (v : UInt8)
deriving DecidableEq, Repr

/-- The memory and the variables of the program. -/
structure State where
  heap : Heap
  images : List (Option Nat)
  lists : List (Option Nat)
deriving DecidableEq, Repr

/-- A program that has done nothing. -/
def State.start : State := ⟨⟨[], [], []⟩, [], []⟩

/-- A variable for images; one that does not exist is undefined. -/
def State.image (s : State) (i : Nat) : Outcome (Option Nat) :=
  match s.images[i]? with
  | some p => .ok p
  | none => .ub

/-- A variable for lists. -/
def State.list (s : State) (l : Nat) : Outcome (Option Nat) :=
  match s.lists[l]? with
  | some p => .ok p
  | none => .ub

/-- A new variable for images. -/
def State.keep (s : State) (p : Option Nat) (h : Heap) : State × Answer :=
  ({ s with heap := h, images := s.images ++ [p] }, .null p.isNone)

/-- One call: the functions above; `trax_image_release` and `trax_image_list_release` set the variable to NULL (`src/trax.c` 1540,
2168). -/
def step (junk : Int) (fresh : Nat → UInt8) (s : State) : Op → Outcome (State × Answer)
  | .createPath t => let (p, h) := createPath junk s.heap t; .ok (s.keep (some p) h)
  | .createUrl t => let (p, h) := createUrl junk s.heap t; .ok (s.keep (some p) h)
  | .createMemory w h f => (createMemory fresh s.heap w h f).map fun (p, h) => s.keep (some p) h
  | .createBuffer data => (createBuffer s.heap data).map fun (p, h) => s.keep (some p) h
  | .copyPointer i => (s.image i).map fun p => s.keep p s.heap
  | .null => .ok (s.keep none s.heap)
  | .release i => (s.image i).bind fun p => (release s.heap p).map fun h =>
      ({ s with heap := h, images := s.images.set i none }, .nothing)
  | .type i => (s.image i).bind fun p => (getType s.heap p).map fun t => (s, .int t)
  | .path i => (s.image i).bind fun p => (getText 1 s.heap p).map fun t => (s, .text t)
  | .url i => (s.image i).bind fun p => (getText 2 s.heap p).map fun t => (s, .text t)
  | .header i => (s.image i).bind fun p => (getHeader s.heap p).map fun (w, h, f) => (s, .header w h f)
  | .buffer i => (s.image i).bind fun p => (getBuffer s.heap p).map fun (f, b) => (s, .buffer f b)
  | .read i row j => (s.image i).bind fun p => (readRow s.heap p row j).map fun v => (s, .byte v)
  | .write i row j v => (s.image i).bind fun p => (writeRow s.heap p row j v).map fun h => ({ s with heap := h }, .nothing)
  | .createList => let (l, h) := createList s.heap; .ok ({ s with heap := h, lists := s.lists ++ [some l] }, .nothing)
  | .clear l => (s.list l).bind fun p => (clear s.heap p).map fun h => ({ s with heap := h }, .nothing)
  | .releaseList l => (s.list l).bind fun p => (releaseList s.heap p).map fun h =>
      ({ s with heap := h, lists := s.lists.set l none }, .nothing)
  | .get l channel => (s.list l).bind fun p => (listGet s.heap p channel).map fun q => s.keep q s.heap
  | .set l i channel => (s.list l).bind fun p => (s.image i).bind fun q => (listSet s.heap p q channel).map fun h =>
      ({ s with heap := h }, .nothing)

/-- A program: the state after it and what its calls have returned. -/
def run (junk : Int) (fresh : Nat → UInt8) : State → List Op → Outcome (State × List Answer)
  | s, [] => .ok (s, [])
  | s, op :: ops => (step junk fresh s op).bind fun r => (run junk fresh r.1 ops).map fun rest => (rest.1, r.2 :: rest.2)

end ImgMem
end Trax
