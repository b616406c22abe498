import Verif.Model.RegionApi
import Verif.Model.Image

/-!
# Model of the OpenCV helpers (`support/opencv/opencv.cpp`)

The functions that convert images and regions to and from the types of OpenCV. OpenCV itself is not
in the repository: what the helpers use of it is modelled from its documentation, that is matrices
with rows of bytes, `cv::cvtColor` with `COLOR_BGR2RGB`, and `cv::imread` and `cv::imdecode` as
parameters. A C++ exception is the result `none`. The `Image` and `Region` objects are the values in
them (the reference counts are in `Model/Wrapper.lean`); `none : Option Region` is an empty `Region`.
`draw_region` is in `Model/Drawing.lean`.
-/

namespace Trax.Ocv

/-- The element types of `cv::Mat` that the helpers tell apart. -/
inductive MatType where
  | u8c1
  | u16c1
  | u8c3
  | other
  deriving DecidableEq, Repr

/-- The bytes of an element. The helpers use no other types. -/
def MatType.size : MatType → Nat
  | .u8c1 => 1
  | .u16c1 => 2
  | .u8c3 => 3
  | .other => 0

/-- `cv::Mat`: rows of `cols` elements that begin `step` bytes apart. `bytes` is the memory from
`mat.data` on. In a part of a larger matrix `step` is larger than the row. -/
structure Mat where
  rows : Nat
  cols : Nat
  step : Nat
  type : MatType
  bytes : List UInt8
  deriving DecidableEq, Repr

/-- `cv::Mat()`. -/
def Mat.empty : Mat := ⟨0, 0, 0, .u8c1, []⟩

/-- The list of the results of `f 0 … f (n - 1)`. -/
def build {α : Type} (f : Nat → Outcome α) : Nat → Outcome (List α)
  | 0 => .ok []
  | n + 1 => (build f n).bind fun l => (f n).map fun a => l ++ [a]

/-- `cv::cvtColor(src, dst, cv::COLOR_BGR2RGB)` (`support/opencv/opencv.cpp` 30, 103): the bytes of the
continuous destination, the first and the third byte of each element exchanged. OpenCV throws for an empty
source and for one that does not have three or four channels (here: only three). -/
def cvtColor (src : Mat) : Outcome (Option (List UInt8)) :=
  if src.type = .u8c3 ∧ 0 < src.rows ∧ 0 < src.cols then
    (build (fun k =>
      let row := k / (3 * src.cols)
      let col := k % (3 * src.cols) / 3
      let channel := k % 3
      readAt src.bytes (row * src.step + col * 3 + (2 - channel) : Nat)) (src.rows * (3 * src.cols))).map some
  else .ok none

/-- The type of the matrix around the pixels of an image (`support/opencv/opencv.cpp` 25–26). -/
def matTypeOf (format : Int) : MatType := if format = 3 then .u8c3 else if format = 1 then .u8c1 else .u16c1

/-- `image_to_mat` (`support/opencv/opencv.cpp` 15–46). `imread` and `imdecode` are the functions of OpenCV
with the flag `IMREAD_COLOR`, they return an empty matrix for what they cannot read. A matrix with
negative sizes throws. -/
def imageToMat (imread : Str → Mat) (imdecode : List UInt8 → Mat) (image : Image) : Outcome (Option Mat) :=
  match image with
  | .path p => .ok (some (imread p))
  | .memory width height format data =>
    (Image.rowOffset image 0).bind fun offset =>
      if width < 0 then .ok none
      else
        (cvtColor ⟨height.toNat, width.toNat, width.toNat * (matTypeOf format).size, matTypeOf format,
          data.drop offset.toNat⟩).map fun result =>
          result.map fun bytes => ⟨height.toNat, width.toNat, width.toNat * 3, .u8c3, bytes⟩
  | .buffer _ data => .ok (some (imdecode data))
  | .url _ => .ok (some Mat.empty)

/-- The format of the image for a matrix (`support/opencv/opencv.cpp` 86–99); `none` is the exception. -/
def formatOf : MatType → Option Int
  | .u8c1 => some 1
  | .u16c1 => some 2
  | .u8c3 => some 3
  | .other => none

/-- `mat_to_image` (`support/opencv/opencv.cpp` 84–106). The destination has the size and type of the
source, so that `cvtColor` writes into the memory of the image. -/
def matToImage (fresh : Nat → UInt8) (mat : Mat) : Outcome (Option Image) :=
  match formatOf mat.type with
  | none => .ok none
  | some format =>
    (Image.createMemory fresh mat.cols mat.rows format).bind fun image =>
      (Image.rowOffset image 0).bind fun _ =>
        (cvtColor mat).map fun result => result.map fun bytes => .memory mat.cols mat.rows format bytes

/-- `region_to_mat` (`support/opencv/opencv.cpp` 126–140). `fresh` is the content of new memory, the matrix is
not cleared. A matrix with negative sizes throws. -/
def regionToMat (fresh : Nat → List UInt8) (region : Region) : Outcome (Option Mat) :=
  (Region.getMaskHeader region).bind fun (x, y, width, height) =>
  (chk32 (height + y)).bind fun rows => (chk32 (width + x)).bind fun cols =>
    if rows < 0 ∨ cols < 0 then .ok none
    else
      (Outcome.forN (fun (i : Nat) buf =>
        (mul32 (i + y) width).bind fun o => (chk32 (o + x)).bind fun o =>
          Outcome.forN (fun (j : Nat) buf =>
            (Region.readMaskPixel region i j).bind fun v => writeAt buf (o + j) v) width.toNat buf)
        height.toNat (fresh (rows * cols).toNat)).map fun buf =>
          some ⟨rows.toNat, cols.toNat, cols.toNat, .u8c1, buf⟩

/-- `mat_to_region` (`support/opencv/opencv.cpp` 142–151). `CV_Assert` throws. `memcpy` reads one block from
`mat.data`. -/
def matToRegion (fresh : Nat → List UInt8) (mat : Mat) : Outcome (Option Region) :=
  if mat.type = .u8c1 then
    (Region.apiCreateMask fresh 0 0 mat.cols mat.rows).bind fun r =>
      (Region.maskRow r 0).bind fun _ =>
        (mul32 mat.cols mat.rows).bind fun n =>
          (build (fun k => readAt mat.bytes k) n.toNat).map fun bytes => some (.mask 0 0 mat.cols mat.rows bytes)
  else .ok none

/-- `Region::convert` (`src/traxpp.cpp` 910–917). -/
def convert (legacy : Bool) (fresh : Nat → List UInt8) (region : Option Region) (format : UInt32) : Outcome (Option Region) :=
  match region with
  | none => .ok none
  | some r => Region.apiConvert legacy fresh (some r) format

/-- `cv::Rect`. -/
structure Rect where
  x : Int
  y : Int
  width : Int
  height : Int
  deriving DecidableEq, Repr

/-- `rect.x = round(x)`: a value outside the range of `int` is undefined. -/
def roundInt (x : Flt) : Outcome Int := x.roundF.toInt

/-- `region_to_rect` (`support/opencv/opencv.cpp` 48–64) and `Region::get` (`src/traxpp.cpp` 870–874): of an
empty region nothing is stored, and the variables are not initialised. -/
def regionToRect (legacy : Bool) (fresh : Nat → List UInt8) (region : Option Region) : Outcome Rect :=
  (convert legacy fresh region 2).bind fun trect =>
    match trect with
    | none => .ub
    | some r =>
      (Region.getRectangle r).bind fun (x, y, w, h) =>
        (roundInt x).bind fun x => (roundInt y).bind fun y => (roundInt w).bind fun w => (roundInt h).map fun h => ⟨x, y, w, h⟩

/-- `rect_to_region` (`support/opencv/opencv.cpp` 108–112): the integers are converted to `float`. -/
def rectToRegion (rect : Rect) : Region :=
  Region.createRectangle (.ofInt rect.x) (.ofInt rect.y) (.ofInt rect.width) (.ofInt rect.height)

/-- `region_to_points` (`support/opencv/opencv.cpp` 66–82). -/
def regionToPoints (legacy : Bool) (fresh : Nat → List UInt8) (region : Option Region) : Outcome (List (Flt × Flt)) :=
  (convert legacy fresh region 4).bind fun polygon =>
    match polygon with
    | none => .ok []
    | some r =>
      if Region.getType (some r) ≠ 4 then .ok []
      else (Region.getPolygonCount r).bind fun n => build (fun i => Region.getPolygonPoint r i) n.toNat

/-- The step of the loop of `points_to_region` (`support/opencv/opencv.cpp` 118–120). -/
def setPoint (points : List (Flt × Flt)) (i : Nat) (r : Region) : Outcome Region :=
  match points[i]? with
  | some p => Region.setPolygonPoint r (wrap32 i) p.1 p.2
  | none => .ub

/-- `points_to_region` (`support/opencv/opencv.cpp` 114–124). The number of points is converted to `int`. -/
def pointsToRegion (freshPoints : Nat → List (Flt × Flt)) (points : List (Flt × Flt)) : Outcome Region :=
  (Region.createPolygon freshPoints (wrap32 points.length)).bind fun polygon =>
    Outcome.forN (setPoint points) points.length polygon

end Trax.Ocv
