import Verif.Model.NccMatlab
import Verif.Spec.NccSearch

/-!
# What the tracker of the tutorial for MATLAB should do
-/

namespace Trax.NccMatlab.Spec

/-- The template is found at one of the places that are compared. -/
def Sound (p : Picture) : Prop := ∀ x y cols rows, 1 ≤ cols → 1 ≤ rows → 1 ≤ (p.find x y cols rows).1 ∧ (p.find x y cols rows).1 ≤ cols ∧ 1 ≤ (p.find x y cols rows).2 ∧ (p.find x y cols rows).2 ≤ rows

/-- The template is found at the place (`px`, `py`) of the image, if this place is among those that are compared. -/
def Shows (p : Picture) (px py : Int) : Prop := ∀ x y cols rows, x ≤ px → px < x + cols → y ≤ py → py < y + rows → p.find x y cols rows = (px - x + 1, py - y + 1)

/-- The file is an image with this size in which templates can be found. -/
def Readable (pictures : Str → Option Picture) (width height : Int) (i : Str) : Prop := ∃ p, pictures i = some p ∧ p.width = width ∧ p.height = height ∧ Sound p

/-- A rectangle inside of an image, without its outermost columns and rows. -/
def Inside (x y w h width height : Int) : Prop := 1 ≤ x ∧ x + w ≤ width - 1 ∧ 1 ≤ y ∧ y + h ≤ height - 1

/-- A row of the result that follows the place (`x`, `y`) of a template with the size `w`, `h`: it has this size, is inside of the image, and is in the window around the place before, whose sides are twice the longer side. -/
structure Next (w h width height x y x' y' : Int) : Prop where
  inside : Inside x' y' w h width height
  across : Ncc.Spec.InWindow x w (max w h) x' (x' + w - 1)
  down : Ncc.Spec.InWindow y h (max w h) y' (y' + h - 1)

/-- The rows of the result, one after another. -/
inductive Path (w h width height : Int) : Int → Int → List (List Int) → Prop
  | nil {x y} : Path w h width height x y []
  | cons {x y x' y' rest} : Next w h width height x y x' y' → Path w h width height x' y' rest → Path w h width height x y ([x', y', w, h] :: rest)

/-- A polygon as a list of numbers. -/
def numbers (vertices : List (Int × Int)) : List Int := vertices.flatMap fun v => [v.1, v.2]

/-- The smallest rectangle around points. -/
structure Around (vertices : List (Int × Int)) (b : Ncc.Rect) : Prop where
  left : (∀ v ∈ vertices, b.x ≤ v.1) ∧ ∃ v ∈ vertices, v.1 = b.x
  right : (∀ v ∈ vertices, v.1 ≤ b.x + b.width) ∧ ∃ v ∈ vertices, v.1 = b.x + b.width
  top : (∀ v ∈ vertices, b.y ≤ v.2) ∧ ∃ v ∈ vertices, v.2 = b.y
  bottom : (∀ v ∈ vertices, v.2 ≤ b.y + b.height) ∧ ∃ v ∈ vertices, v.2 = b.y + b.height

end Trax.NccMatlab.Spec
