import Verif.Model.Float
import Mathlib.Algebra.Order.Ring.Rat

/-!
# Specification: values of single precision numbers
-/

namespace Trax

/-- A finite number (not NaN, not infinite). -/
def Flt.IsFinite : Flt → Prop
  | .fin _ _ => True
  | _ => False

instance (x : Flt) : Decidable x.IsFinite := by cases x <;> unfold Flt.IsFinite <;> infer_instance

/-- The value of a finite binary32 number as a rational number. -/
def Flt.value : Flt → ℚ
  | .fin neg m => (if neg then -(m : ℚ) else m) / 2 ^ 149
  | _ => 0

namespace Spec

/-- `y` is what is left of `x` after it was written with steps of `1/S` and read again: there is
a decimal `d` within half a step of `x`, and `y` is a single precision number as near to `d` as
possible. -/
def WrittenAndRead (S : Nat) (x y : Flt) : Prop :=
  ∃ d : ℤ, |x.value - d / S| ≤ 1 / (2 * S) ∧ y.IsFloat ∧ y.IsFinite ∧
    ∀ z : Flt, z.IsFloat → z.IsFinite → |y.value - d / S| ≤ |z.value - d / S|

/-- `y` is a single precision number as near to `q` as possible. -/
def Nearest (q : ℚ) (y : Flt) : Prop :=
  y.IsFloat ∧ y.IsFinite ∧ ∀ z : Flt, z.IsFloat → z.IsFinite → |y.value - q| ≤ |z.value - q|

end Spec

end Trax
