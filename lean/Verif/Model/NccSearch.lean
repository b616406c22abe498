import Verif.Model.Ncc

/-!
# The search of the tracker of the tutorial (`docs/tutorials/tracker/ncc.cpp` 54–146)

Simplifications: the values of pixels are left out, and where the template is found is a parameter (`cv::matchTemplate` and `cv::minMaxLoc`). A position is kept as twice its value, an integer: the numbers of type `float` in the
code are multiples of one half, and the calculations are exact for images and regions below 2^21 pixels.
-/

namespace Trax.Ncc

/-- An image that has been read (`cv::imread`): its size, and where in a part of it a template with the given size is found (relative to the part). (`docs/tutorials/tracker/ncc.cpp` 113–119.) -/
structure Picture where
  cols : Int
  rows : Int
  find : Rect → Int → Int → Int × Int

/-- The members of `NCCTracker` (`docs/tutorials/tracker/ncc.cpp` 141–144): `p_position` (twice), `p_size`, `p_window` and the size of `p_template`. -/
structure State where
  x2 : Int
  y2 : Int
  width : Int
  height : Int
  window : Int
  templateCols : Int
  templateRows : Int
  deriving DecidableEq, Repr

/-- `NCCTracker::init` (`docs/tutorials/tracker/ncc.cpp` 60–84). -/
def initState (p : Picture) (r : Rect) : Option State :=
  (cut r p.cols p.rows).map fun c => ⟨2 * r.x + r.width, 2 * r.y + r.height, r.width, r.height, max r.width r.height * 2, c.width, c.height⟩

/-- `round` (C library) for the half of a number: halves are rounded away from zero. (`docs/tutorials/tracker/ncc.cpp` 94–98.) -/
def roundHalf (n : Int) : Int := if 0 ≤ n then (n + 1) / 2 else -((-n + 1) / 2)

/-- The part of the image that is searched (`docs/tutorials/tracker/ncc.cpp` 94–100). -/
def searched (p : Picture) (s : State) : Rect :=
  let left := max (roundHalf (s.x2 - s.window)) 0
  let top := max (roundHalf (s.y2 - s.window)) 0
  let right := min (roundHalf (s.x2 + s.window)) (p.cols - 1)
  let bottom := min (roundHalf (s.y2 + s.window)) (p.rows - 1)
  ⟨left, top, right - left, bottom - top⟩

/-- `NCCTracker::update` (`docs/tutorials/tracker/ncc.cpp` 89–137). The half of `p_size` is an integer in the first branch (`p_size` is a `cv::Size`, line 142), and the conversion to `int` drops what is behind the point. `none` for a search
with an empty template. -/
def updateState (p : Picture) (s : State) : Option (Rect × State) :=
  let roi := searched p s
  if roi.width < s.templateCols ∨ roi.height < s.templateRows then
    some (⟨(s.x2 - 2 * s.width.tdiv 2).tdiv 2, (s.y2 - 2 * s.height.tdiv 2).tdiv 2, s.width, s.height⟩, s)
  else if s.templateCols ≤ 0 ∨ s.templateRows ≤ 0 then none
  else
    let place := p.find roi s.templateCols s.templateRows
    some (⟨roi.x + place.1, roi.y + place.2, s.width, s.height⟩, { s with x2 := 2 * (roi.x + place.1) + s.width, y2 := 2 * (roi.y + place.2) + s.height })

/-- `NCCTracker` with the images from files (`docs/tutorials/tracker/ncc.cpp` 54–146, 228, 236): an image that cannot be read ends in an exception of `cv::cvtColor`. -/
def ncc (pictures : Str → Option Picture) : Tracker State where
  init i r := (pictures i).bind fun p => initState p r
  update s i := (pictures i).bind fun p => updateState p s

end Trax.Ncc
