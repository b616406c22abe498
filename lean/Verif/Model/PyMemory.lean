import Verif.Model.Python
import Verif.Model.Handle

/-!
# Model of the Python package: memory (`support/python/trax/__init__.py` 161–381, `client.py`, `server.py`)

Which objects of the C library exist, which Python objects refer to them, and when they are released. What the objects contain is left out
(`Model/PyValues`, `Model/PySession`). A released block is `none`; using or releasing it again is undefined; blocks are never reused, so that stale
pointers are always noticed. The regions and properties in an object list belong to the list (`Model/ObjectHeap`): pointers to them are told apart,
and releasing one of them is undefined, because the list releases it again.

A Python object is gone as soon as no variable and no container refers to it, as in CPython. The two kinds of variables are those of the program and
the local variables of the package's functions; the latter are released explicitly where the function ends or assigns them again.
-/

namespace Trax.Py.Life

/-- The structures of the C library that a Python object can refer to (`support/python/trax/__init__.py` 233–306); handles are in `Model/PyDrop`. -/
inductive Kind where
  | image | region | properties | imageList | objectList
  deriving DecidableEq, Repr

/-- A block of memory. An image list has a pointer for each channel (`include/trax.h` 161–163). -/
inductive Block where
  | image | region | properties
  | imageList (slots : List (Option Nat))
  | objectList (count : Nat)
  deriving DecidableEq, Repr

/-- The structure that is in a block. -/
def Block.kind : Block → Kind
  | .image => .image
  | .region => .region
  | .properties => .properties
  | .imageList _ => .imageList
  | .objectList _ => .objectList

/-- A pointer: NULL, a block, or the region or the properties of an object in an object list. -/
inductive Ptr where
  | null
  | block (p : Nat)
  | listRegion (l i : Nat)
  | listProperties (l i : Nat)
  deriving DecidableEq, Repr

/-- The memory of the C library: the block of each address. -/
abbrev Memory := List (Option Block)

/-! ## Functions of the library -/

/-- The library makes an object: `malloc` in `trax_image_create_path` (`src/trax.c` 1543), `trax_properties_create` (1921), `trax_image_list_create`
(2134–2144), `trax_object_list_create` (2049–2066) and the creators of regions. -/
def alloc (m : Memory) (b : Block) : Nat × Memory := (m.length, m ++ [some b])

/-- The library reads or writes an object through a pointer. -/
def access (m : Memory) (k : Kind) : Ptr → Outcome Block
  | .null => .ub
  | .block p => match m[p]? with
    | some (some b) => if b.kind = k then .ok b else .ub
    | _ => .ub
  | .listRegion l i => match m[l]? with
    | some (some (.objectList n)) => if k = .region ∧ i < n then .ok .region else .ub
    | _ => .ub
  | .listProperties l i => match m[l]? with
    | some (some (.objectList n)) => if k = .properties ∧ i < n then .ok .properties else .ub
    | _ => .ub

/-- `trax_image_release` (`src/trax.c` 1531–1541), `trax_region_release` (1693–1701), `trax_properties_release` (1909–1917), `trax_image_list_release`
(2159–2169), which does not release the images, and `trax_object_list_release` (2069–2082), which releases what the list contains. Only the third
and the last accept NULL. -/
def release (m : Memory) (k : Kind) : Ptr → Outcome Memory
  | .null => if k = .properties ∨ k = .objectList then .ok m else .ub
  | .block p => (access m k (.block p)).map fun _ => m.set p none
  | .listRegion _ _ => .ub
  | .listProperties _ _ => .ub

/-- `trax_image_list_set` (`src/trax.c` 2178–2183) for a channel of index `i`: the list gets the pointer, not a copy. -/
def imageListSet (m : Memory) (l image : Ptr) (i : Nat) : Outcome Memory :=
  match l, image with
  | .block l, .block p => (access m .imageList (.block l)).map fun b => match b with
    | .imageList slots => m.set l (some (.imageList (slots.set i (some p))))
    | _ => m
  | _, _ => .ub

/-- `trax_image_list_get` (`src/trax.c` 2171–2176) for a channel of index `i`. -/
def imageListGet (m : Memory) (l : Ptr) (i : Nat) : Outcome Ptr :=
  (access m .imageList l).bind fun b => match b with
    | .imageList slots => match slots[i]? with
      | some (some p) => .ok (.block p)
      | some none => .ok .null
      | none => .ub
    | _ => .ub

/-- `trax_object_list_count` (`src/trax.c` 2108–2110). -/
def objectListCount (m : Memory) (l : Ptr) : Outcome Nat :=
  (access m .objectList l).bind fun b => match b with
    | .objectList n => .ok n
    | _ => .ub

/-- `trax_object_list_get` (`src/trax.c` 2096–2101): a pointer into the list. -/
def objectListGet (m : Memory) (l : Ptr) (i : Nat) : Outcome Ptr :=
  (objectListCount m l).map fun n => match l with
    | .block l => if i < n then .listRegion l i else .null
    | _ => .null

/-- `trax_object_list_properties` (`src/trax.c` 2103–2106): a pointer into the list. -/
def objectListProperties (m : Memory) (l : Ptr) (i : Nat) : Outcome Ptr :=
  (objectListCount m l).map fun n => match l with
    | .block l => if i < n then .listProperties l i else .null
    | _ => .null

/-- `trax_object_list_set` (`src/trax.c` 2085–2093): the list gets a clone of the region. -/
def objectListSet (m : Memory) (l : Ptr) (i : Nat) (region : Ptr) : Outcome Unit :=
  (objectListCount m l).bind fun n => if i < n then (access m .region region).map fun _ => () else .ok ()

/-- `trax_region_clone` (`src/trax.c` 1737–1743). -/
def regionClone (m : Memory) (region : Ptr) : Outcome (Ptr × Memory) := match region with
  | .null => .ok (.null, m)
  | r => (access m .region r).map fun _ => (.block (alloc m .region).1, (alloc m .region).2)

/-- Every image of the list is read. -/
def imagesRead (m : Memory) : List (Option Nat) → Outcome Unit
  | [] => .ok ()
  | none :: rest => imagesRead m rest
  | some p :: rest => (access m .image (.block p)).bind fun _ => imagesRead m rest

/-- What `trax_client_initialize` and `trax_client_frame` (`src/trax.c` 857–1071) read through their arguments. -/
def clientSendReads (m : Memory) (images objects properties : Ptr) : Outcome Unit :=
  (access m .imageList images).bind fun b => match b with
    | .imageList slots => (imagesRead m slots).bind fun _ => (access m .objectList objects).bind fun _ => (access m .properties properties).map fun _ => ()
    | _ => .ub

/-- What `trax_server_reply` (`src/trax.c` 1391–1430) reads through its arguments. -/
def serverReplyReads (m : Memory) (objects : Ptr) : Outcome Unit := (access m .objectList objects).map fun _ => ()

/-! ## Wrappers -/

/-- `OwnerRef` (`support/python/trax/__init__.py` 173–186): the object that it watches, the pointer and the finalizer, which releases it if `owner`
(233–306). -/
structure OwnerRef where
  wrapper : Nat
  item : Ptr
  kind : Kind
  owner : Bool
  deriving DecidableEq, Repr

/-- The memory of the library, `_finalize_refs` (`support/python/trax/__init__.py` 188) as list of its entries, and the variables of the program: which
wrappers can be reached from each (a variable can contain an image, a region, properties, or a container of these). -/
structure State where
  mem : Memory
  refs : List (Nat × OwnerRef)
  vars : List (List Nat)
  next : Nat
  deriving DecidableEq, Repr

/-- The start of the program. -/
def start : State := ⟨[], [], [], 0⟩

/-- Assignment to an entry of a dictionary. -/
def dictSet (d : List (Nat × OwnerRef)) (id : Nat) (o : OwnerRef) : List (Nat × OwnerRef) := d.filter (fun e => e.1 ≠ id) ++ [(id, o)]

/-- `Wrapper.__init__` and `_track_for_finalization` (`support/python/trax/__init__.py` 190–211): the key is the address of the `OwnerRef`, which Python
chooses among those that are not used; `addr` tells which, given the addresses that are used. -/
def newWrapper (addr : List Nat → Nat) (s : State) (item : Ptr) (kind : Kind) (owner : Bool) : Nat × State :=
  (s.next, { s with refs := dictSet s.refs (addr (s.refs.map (·.1))) ⟨s.next, item, kind, owner⟩, next := s.next + 1 })

/-- `Wrapper.reference` (`support/python/trax/__init__.py` 213–222). -/
def reference (s : State) (w : Nat) : Outcome Ptr := match s.refs.find? (fun e => e.2.wrapper = w) with
  | some e => .ok e.2.item
  | none => .ub

/-- `_run_finalizer` (`support/python/trax/__init__.py` 161–171). -/
def runFinalizer (s : State) (id : Nat) (o : OwnerRef) : Outcome State :=
  let s := { s with refs := s.refs.filter (fun e => e.1 ≠ id) }
  if o.owner then (release s.mem o.kind o.item).map fun m => { s with mem := m } else .ok s

/-- The last reference to a wrapper goes: Python calls the callbacks of its weak references. -/
def gone (s : State) (w : Nat) : Outcome State := match s.refs.find? (fun e => e.2.wrapper = w) with
  | some e => runFinalizer s e.1 e.2
  | none => .ok s

/-- Several wrappers go, one after the other. -/
def goneAll (s : State) : List Nat → Outcome State
  | [] => .ok s
  | w :: rest => (gone s w).bind fun s => goneAll s rest

/-- The library makes an object and the package wraps it: `Properties()` and `Properties(dict)` (`support/python/trax/__init__.py` 393–400), the `create`
functions of images and regions (`support/python/trax/image.py`, `region.py`). -/
def newObject (addr : List Nat → Nat) (s : State) (b : Block) : Nat × State :=
  newWrapper addr { s with mem := (alloc s.mem b).2 } (.block (alloc s.mem b).1) b.kind true

/-! ## Lists -/

/-- The loop of `wrap_images` (`support/python/trax/__init__.py` 358–362) from channel `i` on: the wrappers of the images of the channels. -/
def wrapImagesLoop (s : State) (tlist : Nat) : List (Option Nat) → Nat → Outcome State
  | [], _ => .ok s
  | none :: rest, i => wrapImagesLoop s tlist rest (i + 1)
  | some w :: rest, i => (reference s tlist).bind fun l => (reference s w).bind fun p =>
      (imageListSet s.mem l p i).bind fun m => wrapImagesLoop { s with mem := m } tlist rest (i + 1)

/-- `wrap_images` (`support/python/trax/__init__.py` 347–364). -/
def wrapImages (addr : List Nat → Nat) (s : State) (images : List (Option Nat)) : Outcome (Nat × State) :=
  let (tlist, s) := newObject addr s (.imageList (List.replicate 3 none))
  (wrapImagesLoop s tlist images 0).map fun s => (tlist, s)

/-- The loop of `wrap_objects` (`support/python/trax/__init__.py` 376–379) from index `i` on: the wrappers of the regions, and whether the properties
can be encoded; if not, an exception is raised (`none`). The temporary properties go at the end of each iteration. -/
def wrapObjectsLoop (addr : List Nat → Nat) (s : State) (tlist : Nat) : List (Nat × Bool) → Nat → Outcome (Option Unit × State)
  | [], _ => .ok (some (), s)
  | (region, encodes) :: rest, i =>
    let (properties, s) := newObject addr s .properties
    if encodes = false then (gone s properties).map fun s => (none, s)
    else (reference s tlist).bind fun l => (reference s region).bind fun r => (objectListSet s.mem l i r).bind fun _ =>
      (reference s properties).bind fun p => (access s.mem .properties p).bind fun _ => (objectListProperties s.mem l i).bind fun q =>
        (access s.mem .properties q).bind fun _ => (gone s properties).bind fun s => wrapObjectsLoop addr s tlist rest (i + 1)

/-- `wrap_objects` (`support/python/trax/__init__.py` 366–381). -/
def wrapObjects (addr : List Nat → Nat) (s : State) (objects : List (Nat × Bool)) : Outcome (Option Nat × State) :=
  let (tlist, s) := newObject addr s (.objectList objects.length)
  (wrapObjectsLoop addr s tlist objects 0).bind fun (r, s) => match r with
    | some () => .ok (some tlist, s)
    | none => (gone s tlist).map fun s => (none, s)

/-- The loop of `wrap_image_list` (`support/python/trax/__init__.py` 319–323) from channel `i` on, `n` channels left: the images found, as new wrappers
(`Image.wrap`, `support/python/trax/image.py` 126–136; every image of the library has one of the four types). -/
def wrapImageListLoop (addr : List Nat → Nat) (s : State) (list : Ptr) : Nat → Nat → Outcome (List Nat × State)
  | _, 0 => .ok ([], s)
  | i, n + 1 => (imageListGet s.mem list i).bind fun img => match img with
    | .null => wrapImageListLoop addr s list (i + 1) n
    | img =>
      let (w, s) := newWrapper addr s img .image true
      (wrapImageListLoop addr s list (i + 1) n).map fun (ws, s) => (w :: ws, s)

/-- `wrap_image_list` (`support/python/trax/__init__.py` 308–325). -/
def wrapImageList (addr : List Nat → Nat) (s : State) (list : Ptr) : Outcome (List Nat × State) := wrapImageListLoop addr s list 0 3

/-- The loop of `wrap_object_list` (`support/python/trax/__init__.py` 339–343) from index `i` on, `n` objects left (`Region.wrap`,
`support/python/trax/region.py` 43–53; regions of the type "empty" do not come from the library). -/
def wrapObjectListLoop (addr : List Nat → Nat) (s : State) (list : Ptr) : Nat → Nat → Outcome (List Nat × State)
  | _, 0 => .ok ([], s)
  | i, n + 1 => (objectListGet s.mem list i).bind fun region => (objectListProperties s.mem list i).bind fun p =>
      let (properties, s) := newWrapper addr s p .properties false
      (reference s properties).bind fun p => (access s.mem .properties p).bind fun _ => (gone s properties).bind fun s =>
        (regionClone s.mem region).bind fun (r, m) =>
          let (w, s) := newWrapper addr { s with mem := m } r .region true
          (wrapObjectListLoop addr s list (i + 1) n).map fun (ws, s) => (w :: ws, s)

/-- `wrap_object_list` (`support/python/trax/__init__.py` 327–344). -/
def wrapObjectList (addr : List Nat → Nat) (s : State) (list : Ptr) : Outcome (List Nat × State) :=
  (objectListCount s.mem list).bind fun n => wrapObjectListLoop addr s list 0 n

/-! ## Sessions -/

/-- What a waiting function of the library gives: its result, for an image list which channels have an image, for an object list the number of
objects. -/
structure Arrival where
  ret : Int
  images : Option (List Bool)
  objects : Option Nat
  deriving DecidableEq, Repr

/-- The same of a call in the model of the library (`Model/Handle`). -/
def Arrival.of (r : Handle.WaitResult) : Arrival := ⟨r.ret, r.images.map (·.map (·.isSome)), r.objects.map (·.length)⟩

/-- The library makes the images of a list. -/
def allocImages (m : Memory) : List Bool → List (Option Nat) × Memory
  | [] => ([], m)
  | false :: rest => let (ps, m) := allocImages m rest; (none :: ps, m)
  | true :: rest => let (p, m) := alloc m .image; let (ps, m) := allocImages m rest; (some p :: ps, m)

/-- The library makes the image list of a result. -/
def arriveImages (m : Memory) : Option (List Bool) → Ptr × Memory
  | none => (.null, m)
  | some l => let (ps, m) := allocImages m l; let (p, m) := alloc m (.imageList ps); (.block p, m)

/-- The library makes the object list of a result. -/
def arriveObjects (m : Memory) : Option Nat → Ptr × Memory
  | none => (.null, m)
  | some n => let (p, m) := alloc m (.objectList n); (.block p, m)

/-- `Server.wait` (`support/python/trax/server.py` 88–125): the wrappers that can be reached from the result; `none`: an exception. -/
def serverWait (addr : List Nat → Nat) (s : State) (a : Arrival) : Outcome (Option (List Nat) × State) :=
  let (properties, s) := newObject addr s .properties
  (reference s properties).bind fun p => (access s.mem .properties p).bind fun _ =>
    let (timage, m) := arriveImages s.mem a.images
    let (tobjects, m) := arriveObjects m a.objects
    let s := { s with mem := m }
    if a.ret = TRAX_QUIT then .ok (some [properties], s)
    else if a.ret = TRAX_INITIALIZE then
      (wrapImageList addr s timage).bind fun (images, s) => (wrapObjectList addr s tobjects).bind fun (objects, s) =>
        (release s.mem .imageList timage).bind fun m => (release m .objectList tobjects).map fun m =>
          (some (images ++ objects ++ [properties]), { s with mem := m })
    else if a.ret = TRAX_FRAME then
      (wrapImageList addr s timage).bind fun (images, s) => (release s.mem .imageList timage).bind fun m =>
        let s := { s with mem := m }
        if tobjects = .null then .ok (some (images ++ [properties]), s)
        else (wrapObjectList addr s tobjects).bind fun (objects, s) => (release s.mem .objectList tobjects).map fun m =>
          (some (images ++ objects ++ [properties]), { s with mem := m })
    else (gone s properties).map fun s => (none, s)

/-- `Server.status` (`support/python/trax/server.py` 127–146): `encodes` tells whether the properties can be encoded. -/
def serverStatus (addr : List Nat → Nat) (s : State) (objects : List (Nat × Bool)) (encodes : Bool) : Outcome State :=
  let (tproperties, s) := newObject addr s .properties
  if encodes = false then gone s tproperties
  else (wrapObjects addr s objects).bind fun (r, s) => match r with
    | none => gone s tproperties
    | some tobjects => (reference s tobjects).bind fun o => (serverReplyReads s.mem o).bind fun _ => goneAll s [tproperties, tobjects]

/-- `Client.initialize` and `Client.frame` (`support/python/trax/client.py` 165–219, 221–274): `sent` tells whether sending succeeds and is not interrupted,
`interrupted` whether the logger is interrupted while the client waits for the reply. The result: the wrappers that can be reached from the objects that
are returned; `none`: an exception. -/
def clientCall (addr : List Nat → Nat) (s : State) (images : List (Option Nat)) (objects : List (Nat × Bool)) (encodes sent : Bool) (a : Arrival)
    (interrupted : Bool) : Outcome (Option (List Nat) × State) :=
  (wrapImages addr s images).bind fun (timage, s) => (wrapObjects addr s objects).bind fun (r, s) => match r with
    | none => (gone s timage).map fun s => (none, s)
    | some tobjects =>
      let (tproperties, s) := newObject addr s .properties
      if encodes = false then (goneAll s [tproperties, timage, tobjects]).map fun s => (none, s)
      else (reference s timage).bind fun i => (reference s tobjects).bind fun o => (reference s tproperties).bind fun p =>
        (clientSendReads s.mem i o p).bind fun _ =>
          if sent = false then (goneAll s [timage, tobjects, tproperties]).map fun s => (none, s)
          else (gone s tobjects).bind fun s =>
            let (properties, s) := newObject addr s .properties
            (reference s properties).bind fun p => (access s.mem .properties p).bind fun _ =>
              let (list, m) := arriveObjects s.mem a.objects
              let (reply, s) := newWrapper addr { s with mem := m } list .objectList true
              if interrupted ∨ a.ret = TRAX_ERROR ∨ a.ret = TRAX_QUIT then (goneAll s [timage, tproperties, properties, reply]).map fun s => (none, s)
              else (reference s reply).bind fun l => (wrapObjectList addr s l).bind fun (ws, s) =>
                (goneAll s [timage, tproperties, properties, reply]).map fun s => (some ws, s)

/-! ## Programs -/

/-- A place in the variables of the program: variable and position. -/
abbrev Place := Nat × Nat

/-- The steps of a program. A step that names something that does not exist, or an object of the wrong kind, is not part of a program: it does nothing. -/
inductive Op where
  /-- create an image, a region or properties -/
  | create (b : Block)
  /-- `Polygon.create` (`support/python/trax/region.py` 242–259) with a point that has less than two coordinates -/
  | badPolygon
  /-- a new variable, for the objects at the given places: a copy of a variable, a part of a container, a new container -/
  | assign (places : List Place)
  /-- a variable goes -/
  | drop (v : Nat)
  | wait (a : Arrival)
  | status (objects : List (Place × Bool)) (encodes : Bool)
  | call (images : List (Option Place)) (objects : List (Place × Bool)) (encodes sent : Bool) (a : Arrival) (interrupted : Bool)

/-- The wrapper at a place. -/
def wrapperAt (s : State) (p : Place) : Option Nat := (s.vars[p.1]?).bind fun v => v[p.2]?

/-- The wrapper at a place, if it is one of the given kind. -/
def wrapperOf (s : State) (k : Kind) (p : Place) : Option Nat := (wrapperAt s p).bind fun w =>
  (s.refs.find? (fun e => e.2.wrapper = w)).bind fun e => if e.2.kind = k then some w else none

/-- The regions that are given to `status` or `call`. -/
def regionsOf (s : State) : List (Place × Bool) → Option (List (Nat × Bool))
  | [] => some []
  | (p, e) :: rest => (wrapperOf s .region p).bind fun w => (regionsOf s rest).map ((w, e) :: ·)

/-- The images that are given to `call`. -/
def imagesOf (s : State) : List (Option Place) → Option (List (Option Nat))
  | [] => some []
  | none :: rest => (imagesOf s rest).map (none :: ·)
  | some p :: rest => (wrapperOf s .image p).bind fun w => (imagesOf s rest).map (some w :: ·)

/-- The program stores a result in a new variable. -/
def keep (r : Option (List Nat) × State) : State := match r with
  | (some ws, s) => { s with vars := s.vars ++ [ws] }
  | (none, s) => s

/-- One step of a program. -/
def step (addr : List Nat → Nat) (s : State) : Op → Outcome State
  | .create b => match b with
    | .image | .region | .properties => let (w, s) := newObject addr s b; .ok { s with vars := s.vars ++ [[w]] }
    | _ => .ok s
  | .badPolygon => .ok { s with mem := (alloc s.mem .region).2 }
  | .assign places => .ok { s with vars := s.vars ++ [places.filterMap (wrapperAt s)] }
  | .drop v => match s.vars[v]? with
    | none => .ok s
    | some ws =>
      let rest := s.vars.eraseIdx v
      goneAll { s with vars := rest } (ws.filter fun w => ¬ rest.any fun o => o.contains w)
  | .wait a => (serverWait addr s a).map keep
  | .status objects encodes => match regionsOf s objects with
    | none => .ok s
    | some objects => serverStatus addr s objects encodes
  | .call images objects encodes sent a interrupted => match imagesOf s images, regionsOf s objects with
    | some images, some objects => if images.length = 3 then (clientCall addr s images objects encodes sent a interrupted).map keep else .ok s
    | _, _ => .ok s

/-- A program. -/
def run (addr : List Nat → Nat) : List Op → State → Outcome State
  | [], s => .ok s
  | op :: rest, s => (step addr s op).bind fun s => run addr rest s

end Trax.Py.Life
