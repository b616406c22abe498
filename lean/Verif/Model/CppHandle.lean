import Verif.Model.WrapperValue
import Verif.Model.Image
import Verif.Model.Handle

/-!
# The C++ classes `Metadata`, `Image` and `Handle` (`src/traxpp.cpp` 111–287, 383–428, 512–606)

The methods that read or change the wrapped C object, on the memory of `Verif/Model/Wrapper.lean`.
A `std::string` is the list of its characters; `c_str` cuts nothing off, the C functions stop at a NUL character.
-/

namespace Trax.Cpp

/-! ## `Metadata` -/

/-- The arguments of the constructor of `Metadata` (`src/traxpp.cpp` 123–125). -/
structure MetaArgs where
  regions : UInt32
  images : UInt32
  channels : UInt32
  name : Str
  description : Str
  family : Str
  flags : UInt32
deriving DecidableEq, Repr

/-- A text argument: NULL for the empty string (`src/traxpp.cpp` 128–130). -/
def textArg (s : Str) : Option Str := if s = [] then none else some s

/-- The C record that the constructor of `Metadata` wraps (`src/traxpp.cpp` 123–133). -/
def MetaArgs.record (a : MetaArgs) : Outcome Metadata :=
  Metadata.create a.regions a.images a.channels (textArg a.name) (textArg a.description) (textArg a.family) a.flags

/-- The record that the default constructor wraps (`src/traxpp.cpp` 111–113). -/
def defaultRecord : Outcome Metadata := Metadata.create 0 0 1 none none none 0

/-- The record that `Metadata(trax_metadata*)` wraps (`src/traxpp.cpp` 135–140). -/
def recordOf (m : Metadata) : Outcome Metadata :=
  Metadata.create m.regions m.images m.channels m.name m.description m.family m.flags

/-- `Metadata::region_formats` (`src/traxpp.cpp` 153–157). -/
def regionFormats (m : Metadata) : UInt32 := m.regions

/-- `Metadata::image_formats` (`src/traxpp.cpp` 147–151). -/
def imageFormats (m : Metadata) : UInt32 := m.images

/-- `Metadata::channels` (`src/traxpp.cpp` 159–163). -/
def metadataChannels (m : Metadata) : UInt32 := m.channels

/-- `Metadata::tracker_name` (`src/traxpp.cpp` 165–169). -/
def trackerName (m : Metadata) : Str := match m.name with | some s => s | none => []

/-- `Metadata::tracker_description` (`src/traxpp.cpp` 171–174). -/
def trackerDescription (m : Metadata) : Str := match m.description with | some s => s | none => []

/-- `Metadata::tracker_family` (`src/traxpp.cpp` 176–179). -/
def trackerFamily (m : Metadata) : Str := match m.family with | some s => s | none => []

/-- `Metadata::get_custom` (`src/traxpp.cpp` 206–216). -/
def getCustom (m : Metadata) (k : Str) : Str := match m.custom.get k with | some s => s | none => []

/-- `Metadata::set_custom` on the C record (`src/traxpp.cpp` 218–222). -/
def setCustom (m : Metadata) (k v : Str) : Metadata := { m with custom := m.custom.set k v }

/-- A record that a tracker makes: the constructor and then calls of `set_custom` in this order
(`src/traxpp.cpp` 123–133, 218–222). -/
def declare (a : MetaArgs) (custom : List (Str × Str)) : Outcome Metadata :=
  a.record.map fun m => custom.foldl (fun m kv => setCustom m kv.1 kv.2) m

namespace Mem

/-- What the methods of a `Metadata` object read (`src/traxpp.cpp` 147–179, 206–216): its C record. -/
def readMetadata (m : Mem Metadata) (x : Nat) : Outcome Metadata := (m.var x).bind fun w => m.object w.ptr

/-- `Metadata::set_custom` (`src/traxpp.cpp` 218–222). -/
def setCustom (m : Mem Metadata) (x : Nat) (k v : Str) : Outcome (Mem Metadata) :=
  (m.var x).bind fun w => (m.object w.ptr).bind fun r => m.setObject w.ptr (Cpp.setCustom r k v)

end Mem

/-- The steps of a program that uses `Metadata` objects. -/
inductive MetaOp where
  /-- `Metadata x;` -/
  | construct (x : Nat)
  /-- `Metadata x(regions, images, ...);` -/
  | create (x : Nat) (a : MetaArgs)
  | copy (x y : Nat)
  | move (x y : Nat)
  | assign (x y : Nat)
  | moveAssign (x y : Nat)
  | destroy (x : Nat)
  /-- `x.set_custom(k, v);` -/
  | setCustom (x : Nat) (k v : Str)
deriving DecidableEq, Repr

def MetaOp.step (m : Mem Metadata) : MetaOp → Outcome (Mem Metadata)
  | .construct x => defaultRecord.bind fun r => (m.construct x).wrapNew x r
  | .create x a => a.record.bind fun r => (m.construct x).wrapNew x r
  | .copy x y => m.copyConstruct x y
  | .move x y => m.moveConstruct .metadata x y
  | .assign x y => m.assign x y
  | .moveAssign x y => m.moveAssign x y
  | .destroy x => m.destroy x
  | .setCustom x k v => m.setCustom x k v

def runMetaOps : List MetaOp → Mem Metadata → Outcome (Mem Metadata)
  | [], m => .ok m
  | op :: ops, m => (op.step m).bind (runMetaOps ops)

/-! ## `Image` -/

/-- A write `x.write_memory_row(row)[j] = v` (`src/trax.c` 1656–1667); outside of the pixel buffer it is undefined. -/
def imageWrite (img : Image) (row j : Int) (v : UInt8) : Outcome Image :=
  (img.rowOffset row).bind fun o => match img with
    | .memory w h f data => if 0 ≤ o + j ∧ o + j < data.length then .ok (.memory w h f (data.set (o + j).toNat v)) else .ub
    | _ => .abort

/-- A read `x.get_memory_row(row)[j]` (`src/trax.c` 1669–1680). -/
def imageRead (img : Image) (row j : Int) : Outcome UInt8 :=
  (img.rowOffset row).bind fun o => match img with
    | .memory _ _ _ data => if 0 ≤ o + j then (match data[(o + j).toNat]? with | some v => .ok v | none => .ub) else .ub
    | _ => .abort

namespace Mem

/-- `Image::type` (`src/traxpp.cpp` 564–566). -/
def imageType (m : Mem Image) (x : Nat) : Outcome Nat :=
  (m.var x).bind fun w => match w.ptr with
    | .null => .ok 0
    | p => (m.object p).map Image.type

/-- `Image::get_path` (`src/traxpp.cpp` 572–574, `src/trax.c` 1625–1631). -/
def imagePath (m : Mem Image) (x : Nat) : Outcome Str :=
  (m.var x).bind fun w => (m.object w.ptr).bind fun r => match r with | .path p => .ok p | _ => .abort

/-- `Image::get_url` (`src/traxpp.cpp` 576–578, `src/trax.c` 1633–1638). -/
def imageUrl (m : Mem Image) (x : Nat) : Outcome Str :=
  (m.var x).bind fun w => (m.object w.ptr).bind fun r => match r with | .url u => .ok u | _ => .abort

/-- `Image::get_memory_header` (`src/traxpp.cpp` 580–582, `src/trax.c` 1640–1648): width, height and format. -/
def imageHeader (m : Mem Image) (x : Nat) : Outcome (Int × Int × Int) :=
  (m.var x).bind fun w => (m.object w.ptr).bind fun r => match r with | .memory wd h f _ => .ok (wd, h, f) | _ => .abort

/-- A byte of the row that `Image::get_memory_row` gives (`src/traxpp.cpp` 588–590). -/
def imageByte (m : Mem Image) (x : Nat) (row j : Int) : Outcome UInt8 :=
  (m.var x).bind fun w => (m.object w.ptr).bind fun r => imageRead r row j

/-- `Image::get_buffer` (`src/traxpp.cpp` 592–594, `src/trax.c` 1682–1691): format and data. -/
def imageBuffer (m : Mem Image) (x : Nat) : Outcome (Int × List UInt8) :=
  (m.var x).bind fun w => (m.object w.ptr).bind fun r => match r with | .buffer f d => .ok (f, d) | _ => .abort

/-- A write to byte `j` of the row that `Image::write_memory_row` gives (`src/traxpp.cpp` 584–586). -/
def writeImage (m : Mem Image) (x : Nat) (row j : Int) (v : UInt8) : Outcome (Mem Image) :=
  (m.var x).bind fun w => (m.object w.ptr).bind fun r => (imageWrite r row j v).bind fun r => m.setObject w.ptr r

end Mem

/-- The steps of a program that uses `Image` objects. -/
inductive ImageOp where
  | construct (x : Nat)
  /-- `Image x = Image::create_path(p);` -/
  | path (x : Nat) (p : Str)
  /-- `Image x = Image::create_url(u);` -/
  | url (x : Nat) (u : Str)
  /-- `Image x = Image::create_memory(width, height, format);` where the new memory has this content -/
  | memory (x : Nat) (width height format : Int) (fresh : Nat → UInt8)
  /-- `Image x = Image::create_buffer(length, data);` -/
  | buffer (x : Nat) (data : List UInt8)
  | copy (x y : Nat)
  | move (x y : Nat)
  | assign (x y : Nat)
  | moveAssign (x y : Nat)
  | destroy (x : Nat)
  /-- `x.write_memory_row(row)[j] = v;` -/
  | write (x : Nat) (row j : Int) (v : UInt8)

def ImageOp.step (m : Mem Image) : ImageOp → Outcome (Mem Image)
  | .construct x => .ok (m.construct x)
  | .path x p => (m.construct x).wrapNew x (.createPath p)
  | .url x u => (m.construct x).wrapNew x (.createUrl u)
  | .memory x w h f fresh => (Image.createMemory fresh w h f).bind fun r => (m.construct x).wrapNew x r
  | .buffer x data => (Image.createBuffer data).bind fun r => (m.construct x).wrapNew x r
  | .copy x y => m.copyConstruct x y
  | .move x y => m.moveConstruct .image x y
  | .assign x y => m.assign x y
  | .moveAssign x y => m.moveAssign x y
  | .destroy x => m.destroy x
  | .write x row j v => m.writeImage x row j v

def runImageOps : List ImageOp → Mem Image → Outcome (Mem Image)
  | [], m => .ok m
  | op :: ops, m => (op.step m).bind (runImageOps ops)

/-! ## `Handle` -/

/-- The constructors `ServerSOT(Metadata, Logging)` (version 3) and `ServerMOT(Metadata, Logging)` (version 0), `src/traxpp.cpp`
383–387, 424–428, on the stream that `trax_server_setup_v` opens (`src/trax.c` 1032–1064). -/
def constructServer (multi : Bool) (junk : UInt32) (m : Metadata) (stream : Stream) : Outcome Handle :=
  Handle.serverSetup junk m stream (if multi then 0 else 3)

/-- `Handle::metadata` (`src/traxpp.cpp` 259–265). `none`: the object has no claim on a handle, as after a failed setup. -/
def handleMetadata : Option Handle → Outcome Metadata
  | none => defaultRecord
  | some h => recordOf h.metadata

end Trax.Cpp
