import Mathlib.Data.Rat.Defs
import Mathlib.Algebra.Ring.Parity
import Mathlib.Algebra.Order.Field.Basic
import Mathlib.Algebra.Order.Ring.Rat

/-!
# What it means for a point to be in a polygon

The even-odd rule over exact numbers: go right from the point and count the sides that are crossed.
A side counts with its lower end and without its upper end, so that a corner is not counted twice.
-/

namespace Trax.Spec

/-- The sides of the walk through `ps` that comes from `prev`. -/
def sidesFrom (prev : Int × Int) : List (Int × Int) → List ((Int × Int) × (Int × Int))
  | [] => []
  | p :: ps => (prev, p) :: sidesFrom p ps

/-- The sides of a closed polygon: the walk through its corners starting from the last one. -/
def sides (ps : List (Int × Int)) : List ((Int × Int) × (Int × Int)) :=
  match ps.getLast? with
  | none => []
  | some l => sidesFrom l ps

/-- Where the line through the two ends of a side has height `y`. -/
def meets (s : (Int × Int) × (Int × Int)) (y : Int) : ℚ :=
  s.1.1 + ((s.2.1 - s.1.1 : ℚ) * (y - s.1.2) / (s.2.2 - s.1.2))

/-- The ray from `(x, y)` to the right crosses the side. -/
def Crosses (x y : Int) (s : (Int × Int) × (Int × Int)) : Prop :=
  ((s.1.2 ≤ y ∧ y < s.2.2) ∨ (s.2.2 ≤ y ∧ y < s.1.2)) ∧ (x : ℚ) < meets s y

instance (x y : Int) (s : (Int × Int) × (Int × Int)) : Decidable (Crosses x y s) := by
  unfold Crosses; infer_instance

/-- A point is in a polygon if the ray to the right crosses an odd number of sides. -/
def InPolygon (ps : List (Int × Int)) (x y : Int) : Prop :=
  Odd ((sides ps).countP fun s => decide (Crosses x y s))

instance (ps : List (Int × Int)) (x y : Int) : Decidable (InPolygon ps x y) := by
  unfold InPolygon; infer_instance

end Trax.Spec
