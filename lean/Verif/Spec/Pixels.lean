import Verif.Spec.Polygon

/-!
# Which pixels a polygon covers

The pixel `(x, y)` is the part of the row `y` from `x` up to `x + 1`, without its end. Everything is over exact
numbers; the corners of the polygon are whole numbers.
-/

namespace Trax.Spec

/-- The point is on the side. -/
def OnSide (s : (Int × Int) × (Int × Int)) (x y : ℚ) : Prop :=
  ∃ t : ℚ, 0 ≤ t ∧ t ≤ 1 ∧ x = s.1.1 + t * (s.2.1 - s.1.1) ∧ y = s.1.2 + t * (s.2.2 - s.1.2)

/-- The point is on the outline of the polygon. -/
def OnOutline (ps : List (Int × Int)) (x y : ℚ) : Prop := ∃ s ∈ sides ps, OnSide s x y

/-- Positive if the corner is on one side of the line through `s`, negative if it is on the other, 0 on the line. -/
def turn (s : (Int × Int) × (Int × Int)) (p : Int × Int) : Int :=
  (s.2.1 - s.1.1) * (p.2 - s.1.2) - (s.2.2 - s.1.2) * (p.1 - s.1.1)

/-- A convex polygon, given in either direction: no side has corners on both sides of it (and they are on the
same one for all sides). A level side is not followed by another one. -/
structure Convex (ps : List (Int × Int)) : Prop where
  apart : (∀ s ∈ sides ps, ∀ p ∈ ps, 0 ≤ turn s p) ∨ (∀ s ∈ sides ps, ∀ p ∈ ps, turn s p ≤ 0)
  level : ∀ s ∈ sides ps, ∀ s' ∈ sides ps, s.2 = s'.1 → s.1.2 = s.2.2 → s'.1.2 ≠ s'.2.2

/-- The pixel has a point that lies in the row between two points of the outline. -/
def MeetsPixel (ps : List (Int × Int)) (x y : Int) : Prop :=
  ∃ a t b : ℚ, OnOutline ps a y ∧ OnOutline ps b y ∧ a ≤ t ∧ t ≤ b ∧ x ≤ t ∧ t < x + 1

/-- The row lies strictly between the ends of the side. -/
def Straddles (y : Int) (s : (Int × Int) × (Int × Int)) : Prop := (s.1.2 < y ∧ y < s.2.2) ∨ (s.2.2 < y ∧ y < s.1.2)

/-- No slanted side meets the row in a whole number between its ends. -/
def OffGrid (ps : List (Int × Int)) (y : Int) : Prop :=
  ∀ s ∈ sides ps, s.1.1 ≠ s.2.1 → Straddles y s → ∀ n : Int, meets s y ≠ n

/-- The outline goes through the row within the pixel, or the left end of the pixel is in the polygon. -/
def EvenOddPixel (ps : List (Int × Int)) (x y : Int) : Prop :=
  InPolygon ps x y ∨ ∃ s ∈ sides ps, Straddles y s ∧ x ≤ meets s y ∧ meets s y < x + 1

end Trax.Spec
