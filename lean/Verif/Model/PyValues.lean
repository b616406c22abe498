import Verif.Model.Python
import Verif.Model.RegionApi
import Verif.Model.Image

/-!
# Model of the Python package: images and regions (`support/python/trax/image.py`, `support/python/trax/region.py`)

An array of NumPy is a view of a block of memory: element `(i, j, …)` is at `base + i * strides[0] + j * strides[1] + …`. `ndim`, `itemsize`,
`nbytes`, `ascontiguousarray`, `ones`, `empty`, `pad` and `ctypes.data` are modelled from the documentation of NumPy. A value of `ctypes` type `c_int` is
reduced modulo `2 ^ 32`, a `c_float` is the nearest `float`, and its `value` the `double` with the same value. `memmove` that leaves one of the blocks is
undefined behaviour. A failed `assert` of the library ends the process (`Outcome.abort`), one of Python is an exception.
-/

namespace Trax.Py

/-- The types of elements. -/
inductive Kind where
  | unsigned
  | signed
  | float
  | bool
  deriving DecidableEq, Repr

/-- `numpy.dtype`; `swapped` means that the bytes of a number are in the order that is not the one of the machine. -/
structure DType where
  kind : Kind
  size : Nat
  swapped : Bool := false
  deriving DecidableEq, Repr

/-- `numpy.uint8`. -/
def uint8 : DType := ⟨.unsigned, 1, false⟩

/-- `numpy.uint16`. -/
def uint16 : DType := ⟨.unsigned, 2, false⟩

/-- `numpy.ndarray`. -/
structure NdArray where
  dtype : DType
  shape : List Nat
  strides : List Int
  base : Int
  mem : List UInt8
  deriving DecidableEq, Repr

/-- `n` bytes from offset `off` of a block. -/
def readBlock (mem : List UInt8) (off : Int) (n : Nat) : Outcome (List UInt8) :=
  if n = 0 then .ok []
  else if 0 ≤ off ∧ off + n ≤ mem.length then .ok ((mem.drop off.toNat).take n) else .ub

/-- `memmove` to the beginning of a block. -/
def writeBlock (mem data : List UInt8) : Outcome (List UInt8) :=
  if data.length ≤ mem.length then .ok (data ++ mem.drop data.length) else .ub

/-- The bytes of the elements of an array in the order of the last index first. -/
def gather (mem : List UInt8) (size : Nat) : List Nat → List Int → Int → Outcome (List UInt8)
  | [], _, off => readBlock mem off size
  | n :: shape, strides, off =>
    Outcome.forN (fun i out => (gather mem size shape strides.tail (off + i * strides.headD 0)).map (out ++ ·)) n []

/-- The strides of an array without gaps. -/
def packed (size : Nat) : List Nat → List Int
  | [] => []
  | _ :: shape => (size * shape.prod : Nat) :: packed size shape

/-- `numpy.ascontiguousarray`: an array without dimensions gets one. -/
def ascontiguous (a : NdArray) : Outcome NdArray :=
  (gather a.mem a.dtype.size a.shape a.strides a.base).map fun data =>
    let shape := if a.shape = [] then [1] else a.shape
    ⟨a.dtype, shape, packed a.dtype.size shape, 0, data⟩

/-- `ndarray.nbytes`. -/
def NdArray.nbytes (a : NdArray) : Nat := a.dtype.size * a.shape.prod

/-- An array that NumPy has made: without gaps. -/
def newArray (dtype : DType) (shape : List Nat) (mem : List UInt8) : NdArray := ⟨dtype, shape, packed dtype.size shape, 0, mem⟩

/-! ## Images -/

/-- `FileImage.create` (`support/python/trax/image.py` 179–181). -/
def fileCreate (path : Text) : Except Exc Image := (toC path).map Image.createPath

/-- `FileImage.path` (`support/python/trax/image.py` 190–191). -/
def filePath : Image → Outcome (Except Exc Text)
  | .path p => .ok (fromC p)
  | _ => .abort

/-- `URLImage.create` (`support/python/trax/image.py` 197–204). -/
def urlCreate (url : Text) : Except Exc Image := (toC url).map Image.createUrl

/-- `URLImage.url` (`support/python/trax/image.py` 222–228). -/
def urlUrl : Image → Outcome (Except Exc Text)
  | .url u => .ok (fromC u)
  | _ => .abort

/-- The format of an array (`support/python/trax/image.py` 263–273); `none` is an index that the shape does not have. -/
def memoryFormat (shape : List Nat) (itemsize : Nat) : Option Int :=
  if shape.length = 3 ∧ shape[2]? = some 3 then some (if itemsize = 1 then 3 else 0)
  else if shape.length = 2 then some (if itemsize = 1 then 1 else if itemsize = 2 then 2 else 0)
  else match shape[2]? with
    | none => none
    | some c => if c = 1 then some (if itemsize = 1 then 1 else if itemsize = 2 then 2 else 0) else some 0

/-- `MemoryImage.create` (`support/python/trax/image.py` 240–282). -/
def memoryCreate (fresh : Nat → UInt8) (a : NdArray) : Outcome (Except Exc Image) :=
  (ascontiguous a).bind fun a => match a.shape[1]?, a.shape[0]? with
    | some width, some height => match memoryFormat a.shape a.dtype.size with
      | none => .ok (.error .index)
      | some format =>
        if format = 0 then .ok (.error .trax)
        else (Image.createMemory fresh (wrap32 (width : Nat)) (wrap32 (height : Nat)) format).bind fun img =>
          (Image.rowOffset img 0).bind fun _ => match img with
            | .memory w h f data => (readBlock a.mem a.base a.nbytes).bind fun source =>
              (writeBlock data source).map fun data => .ok (.memory w h f data)
            | _ => .abort
    | _, _ => .ok (.error .index)

/-- `MemoryImage.array` (`support/python/trax/image.py` 296–314). -/
def memoryArray : Image → Outcome (Except Exc NdArray)
  | .memory w h f data =>
    if h < 0 ∨ w < 0 then .ok (.error .value)
    else
      let dtype := if f = 2 then uint16 else uint8
      let shape := [h.toNat, w.toNat, if f = 3 then 3 else 1]
      (Image.rowOffset (.memory w h f data) 0).bind fun o =>
        (readBlock data o (dtype.size * shape.prod)).map fun m => .ok (newArray dtype shape m)
  | _ => .abort

/-- `BufferImage.create` (`support/python/trax/image.py` 324–332). -/
def bufferCreate (data : List UInt8) : Outcome Image := Image.createBuffer data

/-- `BufferImage.buffer` (`support/python/trax/image.py` 345–354). -/
def bufferBuffer : Image → Outcome (List UInt8)
  | .buffer _ data => .ok data
  | _ => .abort

/-- The name of the format in the text of a `BufferImage` (`support/python/trax/image.py` 317–320, 334–339). -/
def bufferName : Image → Outcome Text
  | .buffer f _ => if f = 1 then .ok t!"jpeg" else if f = 2 then .ok t!"png" else .abort
  | _ => .abort

/-- `Image.wrap` and `type` (`support/python/trax/image.py` 126–140, 187–188, 214–220, 293–294, 341–343): the kind of object, by the name it gives. -/
def imageKind (img : Image) : Option Text :=
  if img.type = 1 then some t!"path"
  else if img.type = 2 then some t!"url"
  else if img.type = 4 then some t!"memory"
  else if img.type = 8 then some t!"buffer"
  else none

/-! ## Regions -/

/-- `Special.create` (`support/python/trax/region.py` 119–126). -/
def specialCreate (code : Int) : Region := Region.createSpecial (wrap32 code)

/-- `Special.code` (`support/python/trax/region.py` 144–146). -/
def specialCode (r : Region) : Outcome Int := Region.getSpecial r

/-- `Rectangle.create` (`support/python/trax/region.py` 153–166). -/
def rectangleCreate (x y w h : Flt) : Region := Region.createRectangle x.toFloat y.toFloat w.toFloat h.toFloat

/-- `Rectangle.bounds` (`support/python/trax/region.py` 190–201). -/
def rectangleBounds (r : Region) : Outcome (Flt × Flt × Flt × Flt) :=
  (Region.getRectangle r).map fun b => (b.1.widen, b.2.1.widen, b.2.2.1.widen, b.2.2.2.widen)

/-- `Polygon.create` (`support/python/trax/region.py` 250–267). A point is a tuple of numbers of any length. -/
def polygonCreate (freshPoints : Nat → List (Flt × Flt)) (points : List (List Flt)) : Outcome (Except Exc Region) :=
  if ¬ (points.length > 2) then .ok (.error .assertion)
  else (Region.createPolygon freshPoints (wrap32 points.length)).bind fun poly =>
    points.zipIdx.foldl (fun acc p => acc.bind fun acc => match acc with
      | .error e => .ok (.error e)
      | .ok poly => match p.1 with
        | x :: y :: _ => (Region.setPolygonPoint poly (wrap32 p.2) x.toFloat y.toFloat).map .ok
        | _ => .ok (.error .index)) (.ok (.ok poly))

/-- `Polygon.size` (`support/python/trax/region.py` 286–292). -/
def polygonSize (r : Region) : Outcome Int := Region.getPolygonCount r

/-- `Polygon.get` and `Polygon.__getitem__` (`support/python/trax/region.py` 294–320). -/
def polygonGet (r : Region) (i : Int) : Outcome (Except Exc (Flt × Flt)) :=
  if i < 0 then .ok (.error .index)
  else (polygonSize r).bind fun n =>
    if i ≥ n then .ok (.error .index)
    else (Region.getPolygonPoint r i).map fun p => .ok (p.1.widen, p.2.widen)

/-- A loop over a polygon with `PolygonIterator` (`support/python/trax/region.py` 203–227, 322–328), from position `i`, for at most `fuel` steps. -/
def polygonIterate (r : Region) (size : Int) : Nat → Int → Outcome (Except Exc (List (Flt × Flt)))
  | 0, _ => .ub
  | fuel + 1, i =>
    if i = size then .ok (.ok [])
    else (polygonGet r i).bind fun p => match p with
      | .error e => .ok (.error e)
      | .ok p => (polygonIterate r size fuel (i + 1)).map fun l => l.map (p :: ·)

/-- `list(polygon)` (`support/python/trax/region.py` 322–328). -/
def polygonList (r : Region) : Outcome (Except Exc (List (Flt × Flt))) :=
  (polygonSize r).bind fun n => polygonIterate r n (n.toNat + 1) 0

/-- `Mask.create` (`support/python/trax/region.py` 333–352): the bytes are taken from the memory of the array as they are there. -/
def maskCreate (fresh : Nat → List UInt8) (source : NdArray) (x y : Int) : Outcome (Except Exc Region) :=
  match source.shape with
  | [rows, cols] =>
    if source.dtype = uint8 then
      (Region.apiCreateMask fresh (wrap32 x) (wrap32 y) (wrap32 cols) (wrap32 rows)).bind fun mask =>
        (Region.maskRow mask 0).bind fun _ => match mask with
          | .mask x y w h data => (readBlock source.mem source.base source.nbytes).bind fun bytes =>
            (writeBlock data bytes).map fun data => .ok (.mask x y w h data)
          | _ => .abort
    else .ok (.error .assertion)
  | _ => .ok (.error .assertion)

/-- `Mask.size` (`support/python/trax/region.py` 375–384): width and height. -/
def maskSize (r : Region) : Outcome (Int × Int) := (Region.getMaskHeader r).map fun b => (b.2.2.1, b.2.2.2)

/-- `Mask.offset` (`support/python/trax/region.py` 386–395). -/
def maskOffset (r : Region) : Outcome (Int × Int) := (Region.getMaskHeader r).map fun b => (b.1, b.2.1)

/-- `Mask.get` (`support/python/trax/region.py` 397–408): the comparison of a number and a tuple is not possible. -/
def maskGet (r : Region) (i : Int) : Outcome (Except Exc (Flt × Flt)) :=
  if i < 0 then .ok (.error .index) else (maskSize r).map fun _ => .error .type

/-- `numpy.pad` of a matrix with zeros before the rows and before the columns. -/
def pad (rows cols before left : Nat) (m : List UInt8) : List UInt8 :=
  (List.range (before + rows)).flatMap fun i =>
    if i < before then List.replicate (left + cols) 0
    else List.replicate left 0 ++ (m.drop ((i - before) * cols)).take cols

/-- `Mask.array` (`support/python/trax/region.py` 410–432). -/
def maskArray (normalize : Bool) (r : Region) : Outcome (Except Exc NdArray) :=
  match r with
  | .mask x y w h data =>
    if h < 0 ∨ w < 0 then .ok (.error .value)
    else (Region.maskRow r 0).bind fun o => (readBlock data o (h.toNat * w.toNat)).map fun m =>
      if normalize then
        if y < 0 ∨ x < 0 then .error .value
        else .ok (newArray uint8 [y.toNat + h.toNat, x.toNat + w.toNat] (pad h.toNat w.toNat y.toNat x.toNat m))
      else .ok (newArray uint8 [h.toNat, w.toNat] m)
  | _ => .abort

/-- `Region.wrap` and `type` (`support/python/trax/region.py` 42–53, 136–142, 182–188, 277–284, 367–373): the kind of object, by the name it gives. -/
def regionKind (r : Option Region) : Option Text :=
  if Region.getType r = 1 then some t!"special"
  else if Region.getType r = 2 then some t!"rectangle"
  else if Region.getType r = 4 then some t!"polygon"
  else if Region.getType r = 8 then some t!"mask"
  else none

end Trax.Py
