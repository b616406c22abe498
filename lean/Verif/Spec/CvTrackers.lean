import Verif.Model.OpenCv

/-!
# A rectangle that is put somewhere with a click
-/

namespace Trax.Cv.Spec

/-- The rectangle after a click: as large as before, with the click in the middle (if there is no middle pixel, to the right of it or below). Without a click it
stays. -/
def Placed (click : Option (Int × Int)) (before after : Ocv.Rect) : Prop :=
  match click with
  | none => after = before
  | some c => after.width = before.width ∧ after.height = before.height ∧
      (0 ≤ before.width → 2 * (c.1 - after.x) = before.width ∨ 2 * (c.1 - after.x) = before.width - 1) ∧
      (0 ≤ before.height → 2 * (c.2 - after.y) = before.height ∨ 2 * (c.2 - after.y) = before.height - 1)

end Trax.Cv.Spec
