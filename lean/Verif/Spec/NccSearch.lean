import Verif.Spec.Ncc
import Verif.Model.NccSearch

/-!
# What the search of the tracker of the tutorial should do
-/

namespace Trax.Ncc.Spec

/-- A template is found inside of the part that is searched (documentation of `cv::matchTemplate`). -/
def Sound (p : Picture) : Prop := ∀ (part : Rect) (w h : Int), 0 < w → w ≤ part.width → 0 < h → h ≤ part.height →
  0 ≤ (p.find part w h).1 ∧ (p.find part w h).1 + w ≤ part.width ∧ 0 ≤ (p.find part w h).2 ∧ (p.find part w h).2 + h ≤ part.height

/-- In this image a template with this size is found at this place (`x`, `y` in the image), if the place is in the part that is searched. -/
def Shows (p : Picture) (x y w h : Int) : Prop := ∀ part : Rect, part.x ≤ x → x + w ≤ part.x + part.width → part.y ≤ y → y + h ≤ part.y + part.height →
  p.find part w h = (x - part.x, y - part.y)

/-- The file is an image with this size in which templates can be found. -/
def Readable (pictures : Str → Option Picture) (cols rows : Int) (i : Str) : Prop := ∃ p, pictures i = some p ∧ p.cols = cols ∧ p.rows = rows ∧ Sound p

/-- A region that has a pixel in the image (without its last column and its last row). -/
def Touches (r : Rect) (cols rows : Int) : Prop := 0 < r.width ∧ 0 < r.height ∧ r.x < cols - 1 ∧ 0 < r.x + r.width ∧ r.y < rows - 1 ∧ 0 < r.y + r.height ∧ 1 < cols ∧ 1 < rows

/-- The span from `a` to `b` is in the window around the centre of a side that begins at `x` and has the given length; the window goes as far as `reach` to both sides, and its ends are rounded to whole pixels. -/
def InWindow (x length reach a b : Int) : Prop := 2 * x + length - 2 * reach - 1 ≤ 2 * a ∧ 2 * b ≤ 2 * x + length + 2 * reach + 1

/-- A rectangle that is found after another one: it has the same size; what was found, which has the size of the template, is in the image and in the window around the rectangle before, whose sides are twice the longer side of that rectangle. -/
structure Next (w h cols rows : Int) (r r' : Rect) : Prop where
  size : r'.width = r.width ∧ r'.height = r.height
  inside : 0 ≤ r'.x ∧ r'.x + w ≤ cols - 1 ∧ 0 ≤ r'.y ∧ r'.y + h ≤ rows - 1
  across : InWindow r.x r.width (max r.width r.height) r'.x (r'.x + w)
  down : InWindow r.y r.height (max r.width r.height) r'.y (r'.y + h)

/-- Each rectangle follows the one before. -/
def Path (w h cols rows : Int) : Rect → List Rect → Prop
  | _, [] => True
  | r, r' :: rest => Next w h cols rows r r' ∧ Path w h cols rows r' rest

end Trax.Ncc.Spec
