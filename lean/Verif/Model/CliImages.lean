import Verif.Model.Image

/-!
# The images of a sequence in `traxclient` (`support/client/cli.cpp` 185–418)

The list of images, the images that are sent for a frame, and the size of an image.
-/

namespace Trax.Cli

/-! ## The size of an image -/

/-- `image_size` (`support/client/cli.cpp` 185–188). -/
structure ImageSize where
  width : Int
  height : Int
  deriving DecidableEq, Repr

/-- A byte of the local array `buf`, as an `int`. The array has 24 bytes. -/
def byteAt (buf : List UInt8) (i : Nat) : Nat := (buf.getD i 0).toNat

/-- The markers of the segments that begin a picture (`support/client/cli.cpp` 236). -/
def isFrameMarker (b : Nat) : Bool :=
  b == 0xC0 || b == 0xC1 || b == 0xC2 || b == 0xC3 || b == 0xC9 || b == 0xCA || b == 0xCB

/-- The loop over the segments of a JPEG file (`support/client/cli.cpp` 234–242). The file is
shorter than 2^31 bytes and `fread` gives what is there. -/
def scanSegments (file : List UInt8) (buf : List UInt8) (pos : Nat) : List UInt8 :=
  if byteAt buf 2 = 0xFF then
    if isFrameMarker (byteAt buf 3) then buf
    else
      let next := pos + (2 + byteAt buf 4 * 256 + byteAt buf 5)
      if next + 12 > file.length then buf
      else scanSegments file (buf.take 2 ++ (file.drop next).take 12 ++ buf.drop 14) next
  else buf
termination_by file.length - pos
decreasing_by
  simp only [Nat.not_lt] at *
  omega

/-- The condition of line 233 of `support/client/cli.cpp`. -/
def isJfif (buf : List UInt8) : Bool :=
  buf.take 4 == [0xFF, 0xD8, 0xFF, 0xE0] && (buf.drop 6).take 4 == b!"JFIF"

/-- The last part of the function (`support/client/cli.cpp` 257–274): the size in the header, or
`result` as it was before (`none`: not initialized). `buf[16]<<24` for a byte from 128 on gives a negative number. -/
def headerSize (buf : List UInt8) (result : Option ImageSize) : Option ImageSize :=
  let result :=
    if buf.take 3 = [0xFF, 0xD8, 0xFF] then
      some { height := byteAt buf 7 * 256 + byteAt buf 8, width := byteAt buf 9 * 256 + byteAt buf 10 }
    else result
  let result :=
    if buf.take 3 = b!"GIF" then
      some { width := byteAt buf 6 + byteAt buf 7 * 256, height := byteAt buf 8 + byteAt buf 9 * 256 }
    else result
  if buf.take 8 = [0x89, 0x50, 0x4E, 0x47, 0x0D, 0x0A, 0x1A, 0x0A] ∧ (buf.drop 12).take 4 = b!"IHDR" then
    some {
      width := wrap32 (byteAt buf 16 * 16777216 + byteAt buf 17 * 65536 + byteAt buf 18 * 256 + byteAt buf 19 : Nat),
      height := wrap32 (byteAt buf 20 * 16777216 + byteAt buf 21 * 65536 + byteAt buf 22 * 256 + byteAt buf 23 : Nat) }
  else result

/-- `trax_image_get_memory_header` (`src/trax.c` 1640–1648), with `format` telling whether there is a
place for the format; all three are written. -/
def getMemoryHeader (image : Image) (format : Bool) : Outcome (Int × Int) :=
  match image with
  | .memory w h _ _ => if format then .ok (w, h) else .ub
  | _ => .abort

/-- `trax_image_get_buffer` (`src/trax.c` 1682–1691), with `format` as above. -/
def getBuffer (image : Image) (format : Bool) : Outcome (List UInt8) :=
  match image with
  | .buffer _ data => if format then .ok data else .ub
  | _ => .abort

/-- The use of a value that is not initialized is undefined behaviour. -/
def initialized (result : Option ImageSize) : Outcome ImageSize :=
  match result with
  | some r => .ok r
  | none => .ub

/-- `image_get_size(Image)` (`support/client/cli.cpp` 192–277). `image` is `none` for an empty `Image`;
`open` gives the content of a file, or `none` if it cannot be opened. -/
def imageGetSize («open» : Str → Option (List UInt8)) (image : Option Image) : Outcome ImageSize :=
  match image with
  | some (.memory w h f d) => (getMemoryHeader (.memory w h f d) false).map fun (w, h) => ⟨w, h⟩
  | some (.path p) =>
    match «open» p with
    | none => .ok ⟨-1, -1⟩
    | some file =>
      if file.length < 24 then .ok ⟨-1, -1⟩
      else
        let buf := file.take 24
        let buf := if isJfif buf then scanSegments file buf 2 else buf
        initialized (headerSize buf (some ⟨-1, -1⟩))
  | some (.buffer f d) =>
    (getBuffer (.buffer f d) false).bind fun data =>
      if data.length < 24 then .ub
      else initialized (headerSize (data.take 24) none)
  | _ => .ub

/-- The images of a frame: colour, depth, infrared (`ImageList`, `src/traxpp.cpp` 744–749). -/
structure FrameImages where
  color : Option Image := none
  depth : Option Image := none
  ir : Option Image := none
  deriving DecidableEq, Repr

/-- `image_get_size(ImageList)` (`support/client/cli.cpp` 279–295). -/
def imagesGetSize («open» : Str → Option (List UInt8)) (l : FrameImages) : Outcome ImageSize :=
  if l.color.isSome then imageGetSize «open» l.color
  else if l.depth.isSome then imageGetSize «open» l.depth
  else if l.ir.isSome then imageGetSize «open» l.ir
  else .ub

/-! ## The list of images -/

/-- The loop that splits a line (`support/client/cli.cpp` 317–324): `line.find(";")`, the text before it,
then `line.erase`. -/
def splitColumns (line : Str) : List Str :=
  match h : line.findIdx? (· == ch%';') with
  | some pos => line.take pos :: splitColumns (line.drop (pos + 1))
  | none => [line]
termination_by line.length
decreasing_by
  have := (List.findIdx?_eq_some_iff_getElem.mp h).1
  simp only [List.length_drop]
  omega

/-- `images.resize(TRAX_CHANNELS)` (`support/client/cli.cpp` 326–328). -/
def padColumns (row : List Str) : List Str := if row.length < 3 then row ++ List.replicate (3 - row.length) [] else row

/-- `getline` and `input.good()` (`support/client/cli.cpp` 314–315): the lines that end with a line
break. What follows the last one makes `good` false. -/
def goodLines (text : Str) : List Str :=
  match h : text.findIdx? (· == ch%'\n') with
  | some pos => text.take pos :: goodLines (text.drop (pos + 1))
  | none => []
termination_by text.length
decreasing_by
  have := (List.findIdx?_eq_some_iff_getElem.mp h).1
  simp only [List.length_drop]
  omega

/-- `read_images` (`support/client/cli.cpp` 300–334) on the content of the file. -/
def readImages (text : Str) : List (List Str) := (goodLines text).map fun line => padColumns (splitColumns line)

/-! ## The images of a frame -/

/-- How loading can fail: the exception of line 365 of `support/client/cli.cpp`, or an exception that
`main` does not catch (`std::length_error` for a file that cannot be read). -/
inductive LoadError where
  | noFormat
  | noFile
  deriving DecidableEq, Repr

/-- `load_image` (`support/client/cli.cpp` 352–398), built without OpenCV. -/
def loadImage («open» : Str → Option (List UInt8)) (path : Str) (formats : Nat) :
    Outcome (Except LoadError (Option Image)) :=
  let format := if formats &&& 1 ≠ 0 then 1 else if formats &&& 8 ≠ 0 then 8 else 0
  if format = 0 then .ok (.error .noFormat)
  else if path = [] then .ok (.ok none)
  else if format = 1 then .ok (.ok (some (Image.createPath path)))
  else
    match «open» path with
    | none => .ok (.error .noFile)
    | some data => (Image.createBuffer data).map fun i => .ok (some i)

/-- Load an image if it is asked for. -/
def loadChannel («open» : Str → Option (List UInt8)) (wanted : Bool) (path : Str) (formats : Nat) :
    Outcome (Except LoadError (Option Image)) :=
  if wanted then loadImage «open» path formats else .ok (.ok none)

/-- Go on unless there was an exception. -/
def andLoad {α β : Type} (x : Outcome (Except LoadError α)) (f : α → Outcome (Except LoadError β)) :
    Outcome (Except LoadError β) :=
  x.bind fun | .error e => .ok (.error e) | .ok a => f a

/-- `load_images` (`support/client/cli.cpp` 400–418). The rows have at least three columns. -/
def loadImages («open» : Str → Option (List UInt8)) (row : List Str) (channels formats : Nat) :
    Outcome (Except LoadError FrameImages) :=
  andLoad (loadChannel «open» (channels &&& 1 != 0) (row.getD 0 []) formats) fun color =>
  andLoad (loadChannel «open» (channels &&& 2 != 0) (row.getD 1 []) formats) fun depth =>
  andLoad (loadChannel «open» (channels &&& 4 != 0) (row.getD 2 []) formats) fun ir =>
  .ok (.ok { color, depth, ir })

/-- The images that `main` loads for a frame (`support/client/cli.cpp` 643, 713):
`load_images(images[frame], metadata.image_formats(), metadata.channels())`. -/
def frameImages («open» : Str → Option (List UInt8)) (row : List Str) (imageFormats channels : Nat) :
    Outcome (Except LoadError FrameImages) :=
  loadImages «open» row imageFormats channels

end Trax.Cli
