import Verif.Model.RegionApi
import Verif.Model.Image
import Verif.Model.NumText
import Verif.Model.Lists

/-!
# Model of the MATLAB helpers (`support/matlab/helpers.cpp`)

The functions that convert images, regions, properties and sets of formats to and from arrays of MATLAB. MATLAB itself
is not in the repository: what the helpers use of it is modelled from its documentation. Arrays are stored
by columns; new arrays are filled with zeros; trailing dimensions of length one are dropped, except for the first
two; `mexErrMsgTxt` ends the call, which is the result `none` here. The `Image` and `Region` objects are the values in them.
An index in `int` is checked where it is complete: all operands are non-negative and not larger than the result,
except where said otherwise.
-/

namespace Trax.Mex

/-- The arrays of MATLAB that the helpers tell apart. -/
inductive Mx where
  /-- a row of characters -/
  | text (s : Str)
  /-- an array of `uint8` (`size` 1) or `uint16` (`size` 2) with these dimensions, and its memory -/
  | bytes (size : Nat) (dims : List Nat) (data : List UInt8)
  /-- a matrix of `double` with `m` rows and `n` columns -/
  | double (m n : Nat) (data : List Flt)
  /-- a structure with the fields `format` and `data` -/
  | file (format : Str) (data : List UInt8)
  deriving DecidableEq, Repr

/-- The dimensions MATLAB gives to a new array of `h` rows, `w` columns and `c` layers. -/
def dims3 (h w c : Nat) : List Nat := if c = 1 then [h, w] else [h, w, c]

/-- The assignment of element `s` of `src` to element `d` of `dst`, of `n` bytes each. -/
def copyElement (n : Nat) (src : List UInt8) (s d : Int) (dst : List UInt8) : Outcome (List UInt8) :=
  (chk32 s).bind fun s => (chk32 d).bind fun d =>
    Outcome.forN (fun (k : Nat) dst => (readAt src (n * s + k)).bind fun v => writeAt dst (n * d + k) v) n dst

/-! ## Images -/

/-- The loops of `image_to_array` for grey images (`support/matlab/helpers.cpp` 346–350, 361–365). -/
def grayToArray (n : Nat) (width height : Nat) (source data : List UInt8) : Outcome (List UInt8) :=
  Outcome.forN (fun (i : Nat) data => Outcome.forN (fun (j : Nat) data =>
    copyElement n source (i + j * width) (j + height * i) data) height data) width data

/-- The loops of `image_to_array` for colour images (`support/matlab/helpers.cpp` 375–381). -/
def rgbToArray (width height : Nat) (source data : List UInt8) : Outcome (List UInt8) :=
  Outcome.forN (fun (i : Nat) data => Outcome.forN (fun (j : Nat) data => Outcome.forN (fun (k : Nat) data =>
    copyElement 1 source (3 * (i + j * width) + k) (j + height * (i + k * width)) data) 3 data) height data) width data

/-- `image_to_array` (`support/matlab/helpers.cpp` 314–431). For a URL it calls `get_path`, whose assertion fails. Of an
image with another format, which cannot be created, the result would be NULL. -/
def imageToArray (image : Image) : Outcome (Option Mx) :=
  match image with
  | .path p => .ok (some (.text p))
  | .url _ => .abort
  | .memory width height format data =>
    (Image.rowOffset image 0).bind fun _ =>
      let w := width.toNat
      let h := height.toNat
      if format = 1 then (grayToArray 1 w h data (List.replicate (h * w) 0)).map fun out => some (.bytes 1 (dims3 h w 1) out)
      else if format = 2 then (grayToArray 2 w h data (List.replicate (2 * (h * w)) 0)).map fun out => some (.bytes 2 (dims3 h w 1) out)
      else (rgbToArray w h data (List.replicate (h * w * 3) 0)).map fun out => some (.bytes 1 (dims3 h w 3) out)
  | .buffer format data =>
    .ok (some (.file (if format = 1 then b!"png" else if format = 2 then b!"jpeg" else b!"unknown") data))

/-- The loops of `array_to_image` for one channel (`support/matlab/helpers.cpp` 498–502, 519–523). -/
def grayToImage (n : Nat) (width height : Nat) (data dest : List UInt8) : Outcome (List UInt8) :=
  Outcome.forN (fun (i : Nat) dest => Outcome.forN (fun (j : Nat) dest =>
    copyElement n data (j + height * i) (i + j * width) dest) height dest) width dest

/-- The loops of `array_to_image` for three channels (`support/matlab/helpers.cpp` 484–490). -/
def rgbToImage (width height : Nat) (data dest : List UInt8) : Outcome (List UInt8) :=
  Outcome.forN (fun (i : Nat) dest => Outcome.forN (fun (j : Nat) dest => Outcome.forN (fun (k : Nat) dest =>
    copyElement 1 data (j + height * (i + k * width)) (3 * (i + j * width) + k) dest) 3 dest) height dest) width dest

/-- An image of this size and format with the memory that `loops` fills (`support/matlab/helpers.cpp` 480–482, 494–496, 515–517). -/
def filled (fresh : Nat → UInt8) (width height : Nat) (format : Int) (loops : List UInt8 → Outcome (List UInt8)) : Outcome (Option Image) :=
  (Image.createMemory fresh width height format).bind fun image =>
    (Image.rowOffset image 0).bind fun _ =>
      match image with
      | .memory w h f dest => (loops dest).map fun dest => some (.memory w h f dest)
      | _ => .ub

/-- `array_to_image` (`support/matlab/helpers.cpp` 451–530) and `get_string` (17–35). The dimensions fit in an `int`. -/
def arrayToImage (fresh : Nat → UInt8) (arr : Mx) : Outcome (Option Image) :=
  match arr with
  | .text s => .ok (some (Image.createPath s))
  | .bytes 1 dims data =>
    if dims.length > 3 then .ok none
    else if dims.length = 3 ∧ ¬ (dims[2]? = some 1 ∨ dims[2]? = some 3) then .ok none
    else
      let channels := if dims.length < 3 then 1 else dims[2]?.getD 0
      let width := if dims.length < 2 then 1 else dims[1]?.getD 0
      let height := dims[0]?.getD 0
      if channels = 3 then filled fresh width height 3 (rgbToImage width height data)
      else filled fresh width height 1 (grayToImage 1 width height data)
  | .bytes 2 dims data =>
    if dims.length > 2 then .ok none
    else
      let width := if dims.length < 2 then 1 else dims[1]?.getD 0
      let height := dims[0]?.getD 0
      filled fresh width height 2 (grayToImage 2 width height data)
  | _ => .ok none

/-! ## Regions -/

/-- The loops of `array_to_region` for a mask (`support/matlab/helpers.cpp` 225–230). The row exists, so that the assertion of
`write_mask_row` holds. -/
def arrayToMask (width height : Nat) (r data : List UInt8) : Outcome (List UInt8) :=
  Outcome.forN (fun (i : Nat) data => Outcome.forN (fun (j : Nat) data =>
    copyElement 1 r (j * height + i) (width * i + j) data) width data) height data

/-- The loop of `array_to_region` for polygons (`support/matlab/helpers.cpp` 240–242): the `double`s are converted to `float`. -/
def arrayToPoints (r : List Flt) (i : Nat) (p : Region) : Outcome Region :=
  match r[2 * i]?, r[2 * i + 1]? with
  | some x, some y => Region.setPolygonPoint p i x.toFloat y.toFloat
  | _, _ => .ub

/-- `array_to_region` (`support/matlab/helpers.cpp` 211–256). `mxGetM` is the first dimension, `mxGetN` the product of the others. -/
def arrayToRegion (fresh : Nat → List UInt8) (freshPoints : Nat → List (Flt × Flt)) (input : Mx) : Outcome (Option Region) :=
  match input with
  | .bytes 1 dims r =>
    let height : Nat := dims[0]?.getD 0
    let width : Nat := (dims.drop 1).foldl (· * ·) 1
    (Region.apiCreateMask fresh 0 0 width height).bind fun p =>
      match p with
      | .mask x y w h data => (arrayToMask width height r data).map fun data => some (.mask x y w h data)
      | _ => .ub
  | .double _ l r =>
    if l % 2 = 0 ∧ 6 ≤ l then
      (Region.createPolygon freshPoints (l / 2 : Nat)).bind fun p => (Outcome.forN (arrayToPoints r) (l / 2) p).map some
    else if l = 4 then
      match r[0]?, r[1]?, r[2]?, r[3]? with
      | some x, some y, some w, some h => .ok (some (Region.createRectangle x.toFloat y.toFloat w.toFloat h.toFloat))
      | _, _, _, _ => .ub
    else .ok none
  | _ => .ok none

/-- The loops of `region_to_array` for a mask (`support/matlab/helpers.cpp` 300–305). The operands may be negative here. -/
def maskToArray (region : Region) (x y width height : Int) (data : List UInt8) : Outcome (List UInt8) :=
  Outcome.forN (fun (i : Nat) data => Outcome.forN (fun (j : Nat) data =>
    (Region.readMaskPixel region i j).bind fun v =>
      (mul32 (j + x) (height + y)).bind fun o => (chk32 (o + y + i)).bind fun o => writeAt data o v) width.toNat data) height.toNat data

/-- An integer as `double`. -/
def doubleOfInt (n : Int) : Flt := .fin (decide (n < 0)) (n.natAbs * 2 ^ 1074)

/-- `region_to_array` (`support/matlab/helpers.cpp` 258–312). A negative dimension becomes a huge one, for which there is no
memory: an error. An empty region gives NULL. -/
def regionToArray (region : Option Region) : Outcome (Option Mx) :=
  match region with
  | some (.rectangle x y w h) => .ok (some (.double 1 4 [x.widen, y.widen, w.widen, h.widen]))
  | some (.polygon ps) => .ok (some (.double 1 (ps.length * 2) (ps.flatMap fun p => [p.1.widen, p.2.widen])))
  | some (.special code) => .ok (some (.double 1 1 [doubleOfInt code]))
  | some (.mask x y width height data) =>
    (chk32 (height + y)).bind fun rows => (chk32 (width + x)).bind fun cols =>
      if rows < 0 ∨ cols < 0 then .ok none
      else (maskToArray (.mask x y width height data) x y width height (List.replicate (rows * cols).toNat 0)).map fun out =>
        some (.bytes 1 [rows.toNat, cols.toNat] out)
  | none => .ok none

/-! ## Properties -/

/-- A value in a cell or in a field: a text or a number (`mxGetScalar`). -/
inductive Value where
  | text (s : Str)
  | number (x : Flt)
  deriving DecidableEq, Repr

/-- `prop.set(key, value)` for both kinds of values (`support/matlab/helpers.cpp` 58–63, 92–97). `get_string` ends a text at its
first NUL. -/
def setValue (p : Properties) (key : Str) : Value → Properties
  | .text s => p.set key (cstr s)
  | .number x => p.setFloat key x.toFloat

/-- `struct_to_parameters` (`support/matlab/helpers.cpp` 43–67) of a structure with these fields. -/
def structToParameters (fields : List (Str × Value)) : Properties :=
  fields.foldl (fun p f => setValue p f.1 f.2) Properties.create

/-- The loop of `cell_to_parameters` (`support/matlab/helpers.cpp` 86–99): of a key that is not a text
`get_string` reads memory that is not initialised, and a cell that does not exist is NULL. -/
def cellLoop (length : Nat) (cells : List Value) : Nat → Nat → Properties → Outcome (Option Properties)
  | _, 0, p => .ok (some p)
  | i, n + 1, p =>
    match cells[i]?, cells[i + length]? with
    | some (.text k), some v => cellLoop length cells (i + 1) n (setValue p (cstr k) v)
    | _, _ => .ub

/-- `cell_to_parameters` (`support/matlab/helpers.cpp` 69–102) of a cell array with `m` rows and `n` columns. -/
def cellToParameters (m n : Nat) (cells : List Value) : Outcome (Option Properties) :=
  if min m n ≠ 1 then .ok none else cellLoop m cells 0 m Properties.create

/-- `parameters_to_cell` (`support/matlab/helpers.cpp` 111–151): rows, columns and cells, by columns. -/
def parametersToCell (p : Properties) : Nat × Nat × List Value :=
  (p.enumerate.length, 2, p.enumerate.map (fun kv => Value.text kv.1) ++ p.enumerate.map fun kv => Value.text kv.2)

/-- A character of a field name (`support/matlab/helpers.cpp` 163–166): letters, digits and `_` stay. -/
def fieldChar (c : UInt8) : UInt8 := if isAlnum c || c = ch%'_' then c else ch%'_'

/-- `_param_names_enumerator` (`support/matlab/helpers.cpp` 153–169): the first character is not changed. -/
def fieldName : Str → Str
  | [] => []
  | c :: s => c :: s.map fieldChar

/-- `parameters_to_struct` (`support/matlab/helpers.cpp` 171–209). MATLAB refuses two fields with the same name. -/
def parametersToStruct (p : Properties) : Option (List (Str × Value)) :=
  if (p.enumerate.map fun kv => fieldName kv.1).Nodup then some (p.enumerate.map fun kv => (fieldName kv.1, .text kv.2)) else none

/-! ## Sets of formats -/

/-- A text in lower case (`std::transform(…, ::tolower)`). -/
def lower (s : Str) : Str := s.map toLower

/-- `get_region_code` (`support/matlab/helpers.cpp` 633–651); `none` is the error. -/
def regionCode (s : Str) : Option UInt32 :=
  if lower s = b!"rectangle" then some 2 else if lower s = b!"polygon" then some 4 else if lower s = b!"mask" then some 8 else none

/-- `get_image_code` (`support/matlab/helpers.cpp` 653–675). -/
def imageCode (s : Str) : Option UInt32 :=
  if lower s = b!"path" then some 1 else if lower s = b!"url" then some 2 else if lower s = b!"buffer" then some 8
  else if lower s = b!"memory" then some 4 else none

/-- `get_channel_code` (`support/matlab/helpers.cpp` 677–695). -/
def channelCode (s : Str) : Option UInt32 :=
  if lower s = b!"color" then some 1 else if lower s = b!"depth" then some 2 else if lower s = b!"ir" then some 4 else none

/-- The loop of `get_flags` (`support/matlab/helpers.cpp` 711–716). -/
def flagsLoop (parser : Str → Option UInt32) : List Str → UInt32 → Option UInt32
  | [], codes => some codes
  | s :: l, codes => match parser s with
    | some c => flagsLoop parser l (codes ||| c)
    | none => none

/-- A text, or a matrix of cells with one in each, by columns. -/
inductive Cells (α : Type) where
  | one (x : α)
  | many (rows cols : Nat) (l : List α)
  deriving Repr

/-- `get_flags` (`support/matlab/helpers.cpp` 698–719). The cells contain texts. -/
def getFlags (parser : Str → Option UInt32) : Cells Str → Option UInt32
  | .one s => parser s
  | .many rows cols l => if min rows cols ≠ 1 then none else flagsLoop parser (l.take (max rows cols)) 0

/-- A cell for each text, in one row (`support/matlab/helpers.cpp` 737–741, 766–770, 790–794). -/
def row (l : List Str) : Cells Str := .many 1 l.length l

/-- `decode_region` (`support/matlab/helpers.cpp` 721–743). -/
def decodeRegion (f : UInt32) : Cells Str :=
  row ((if supports f 2 then [b!"rectangle"] else []) ++ (if supports f 4 then [b!"polygon"] else []) ++ (if supports f 8 then [b!"mask"] else []))

/-- `decode_image` (`support/matlab/helpers.cpp` 745–772). -/
def decodeImage (f : UInt32) : Cells Str :=
  row ((if supports f 1 then [b!"path"] else []) ++ (if supports f 2 then [b!"url"] else []) ++ (if supports f 8 then [b!"buffer"] else []) ++
    (if supports f 4 then [b!"memory"] else []))

/-- `decode_channels` (`support/matlab/helpers.cpp` 774–796). -/
def decodeChannels (f : UInt32) : Cells Str :=
  row ((if supports f 1 then [b!"color"] else []) ++ (if supports f 2 then [b!"depth"] else []) ++ (if supports f 4 then [b!"ir"] else []))

/-! ## Lists of images -/

/-- `ImageList::has` and `ImageList::get` (`src/traxpp.cpp` 732–742): there is no check of the channel. -/
def imageOf (l : ImageList) (channel : UInt32) : Outcome (Option Image) :=
  if ImageList.channelIndex channel.toNat < 0 then .ub
  else match l[(ImageList.channelIndex channel.toNat).toNat]? with
    | some image => .ok image
    | none => .ub

/-- `ImageList::set` (`src/traxpp.cpp` 744–749): there is no check of the channel. -/
def setImage (l : ImageList) (image : Image) (channel : UInt32) : Outcome ImageList :=
  if ImageList.channelIndex channel.toNat < 0 then .ub
  else if (ImageList.channelIndex channel.toNat).toNat < l.length then
    .ok (List.set l (ImageList.channelIndex channel.toNat).toNat (some image))
  else .ub

/-- The loop of `images_to_array` (`support/matlab/helpers.cpp` 439–445): the cells from channel `i` on. An error in
one image ends the call. -/
def imagesLoop (l : ImageList) : Nat → Nat → Outcome (Option (List Mx))
  | _, 0 => .ok (some [])
  | i, n + 1 =>
    match imageOf l (ImageList.channelId i) with
    | .ok none => imagesLoop l (i + 1) n
    | .ok (some image) => (imageToArray image).bind fun a => (imagesLoop l (i + 1) n).map fun r =>
      match a, r with
      | some a, some r => some (a :: r)
      | _, _ => none
    | _ => .ub

/-- `images_to_array` (`support/matlab/helpers.cpp` 433–448). The number of cells is that of the images. -/
def imagesToArray (l : ImageList) : Outcome (Option (Cells Mx)) :=
  (imagesLoop l 0 3).map fun r => r.map fun r => .many 1 r.length r

/-- The loop of `array_to_images` (`support/matlab/helpers.cpp` 556–563). A cell that does not exist is NULL. -/
def arraysLoop (fresh : Nat → UInt8) (channels : UInt32) (cells : List Mx) : Nat → Nat → Nat → ImageList → Outcome (Option ImageList)
  | _, 0, _, l => .ok (some l)
  | i, n + 1, j, l =>
    if supports channels (ImageList.channelId i) then
      match cells[j]? with
      | none => .ub
      | some a => match arrayToImage fresh a with
        | .ok none => .ok none
        | .ok (some image) => (setImage l image (ImageList.channelId i)).bind fun l => arraysLoop fresh channels cells (i + 1) n (j + 1) l
        | .abort => .abort
        | .ub => .ub
    else arraysLoop fresh channels cells (i + 1) n j l

/-- `array_to_images` (`support/matlab/helpers.cpp` 532–567). -/
def arrayToImages (fresh : Nat → UInt8) (channels : UInt32) (arr : Cells Mx) : Outcome (Option ImageList) :=
  (ImageList.count channels).bind fun cnum =>
    match arr with
    | .one a =>
      if cnum ≠ 1 then .ok none
      else match arrayToImage fresh a with
        | .ok none => .ok none
        | .ok (some image) => (setImage ImageList.create image channels).map some
        | .abort => .abort
        | .ub => .ub
    | .many rows cols cells =>
      if min rows cols ≠ 1 then .ok none
      else if max rows cols ≠ cnum then .ok none
      else arraysLoop fresh channels cells 0 3 0 ImageList.create

end Trax.Mex
