import Verif.Model.OpenCv

/-!
# Model of `draw_region` (`support/opencv/opencv.cpp` 153–198)

The calls of the drawing functions of OpenCV are recorded. OpenCV is modelled from its documentation: a matrix is made
from a size with the width first, a part of a matrix must lie in it, a mask must have the size of what it masks, and `*`
of two matrices is the product of matrices, which exists for floating point elements of one type only. An exception is
the result `none`.
-/

namespace Trax.Ocv

/-- A call of a drawing function: `cv::rectangle` with two opposite corners, `cv::fillPoly` and `cv::polylines` with one
polygon (`support/opencv/opencv.cpp` 160, 176, 178). The last number is the thickness. -/
inductive Stroke (κ : Type) where
  | rectangle (corner opposite : Int × Int) (color : κ) (thickness : Int)
  | fillPoly (points : List (Int × Int)) (color : κ)
  | polylines (points : List (Int × Int)) (closed : Bool) (color : κ) (thickness : Int)
  deriving DecidableEq, Repr

/-- `rectangle.tl()` and `rectangle.br()` (`support/opencv/opencv.cpp` 160). -/
def Rect.corners (r : Rect) : Outcome ((Int × Int) × (Int × Int)) :=
  (chk32 (r.x + r.width)).bind fun right => (chk32 (r.y + r.height)).map fun bottom => ((r.x, r.y), (right, bottom))

/-- The loop over the points (`support/opencv/opencv.cpp` 164–170): `cv::Point(x, y)` of two `float`s cuts the fractions off. -/
def cutPoints (region : Region) : Outcome (List (Int × Int)) :=
  (Region.getPolygonCount region).bind fun n =>
    build (fun i => (Region.getPolygonPoint region i).bind fun (x, y) => x.toInt.bind fun x => y.toInt.map fun y => (x, y)) n.toNat

/-- The element types for which `cv::gemm`, the product of matrices, is defined: `CV_32FC1`, `CV_64FC1` and their complex
counterparts. The types that the helpers tell apart are not among them. `other` stands for a type that may be. -/
def MatType.multiplies : MatType → Bool
  | .other => true
  | _ => false

/-- The case of a mask (`support/opencv/opencv.cpp` 182–196), up to the product in line 193: `none` for an exception, otherwise there
is no stroke of a drawing function. -/
def stencilMask {κ : Type} (fresh : Nat → List UInt8) (canvas : Mat) (region : Region) : Outcome (Option (List (Stroke κ))) :=
  (regionToMat fresh region).map fun
  | none => none
  | some mask =>
    let width := min canvas.cols mask.cols
    let height := min canvas.rows mask.rows
    -- `cv::Mat::zeros(cv::Size(height, width), CV_8UC3)`
    let stencilCols := height
    let stencilRows := width
    -- `stencil(cv::Range(0, height), cv::Range(0, width))`
    if height ≤ stencilRows ∧ width ≤ stencilCols then
      -- `.setTo(color, mask)`: the mask has the size of the part
      if (mask.rows = height ∧ mask.cols = width) ∨ mask.rows * mask.cols = 0 then
        -- `canvas * (1 - stencil) + stencil`
        if canvas.type = .u8c3 ∧ MatType.multiplies .u8c3 ∧ canvas.cols = stencilRows ∧ canvas.rows = stencilRows ∧ canvas.cols = stencilCols then some []
        else none
      else none
    else none

/-- `draw_region` (`support/opencv/opencv.cpp` 153–198). `Region::empty` (`src/traxpp.cpp` 847–849) is true for a region
without a type; special regions have no case in the `switch`. `&points[0]` of an empty vector is undefined. -/
def drawRegion {κ : Type} (legacy : Bool) (fresh : Nat → List UInt8) (canvas : Mat) (region : Option Region) (color : κ) (width : Int) :
    Outcome (Option (List (Stroke κ))) :=
  if Region.getType region = 0 then .ok (some [])
  else if Region.getType region = 2 then
    (regionToRect legacy fresh region).bind fun rectangle =>
      rectangle.corners.map fun (tl, br) => some [.rectangle tl br color width]
  else if Region.getType region = 4 then
    match region with
    | none => .ub
    | some region =>
      (cutPoints region).bind fun points =>
        if points = [] then .ub
        else if width < 1 then .ok (some [.fillPoly points color])
        else .ok (some [.polylines points true color width])
  else if Region.getType region = 8 then
    match region with
    | none => .ub
    | some region => stencilMask fresh canvas region
  else .ok (some [])

end Trax.Ocv
