import Verif.Model.Ncc

/-!
# The files of the tracker of the tutorial
-/

namespace Trax.Ncc.Spec

/-- A line with something in it. -/
def Line (l : Str) : Prop := l ≠ [] ∧ ch%'\n' ∉ l

/-- Lines, each with its end. -/
def ended (ls : List Str) : Str := (ls.map (· ++ b!"\n")).flatten

/-- The numbers of a rectangle, separated by commas. -/
def row (r : Rect) : Str := List.intercalate b!"," [fmtInt r.x, fmtInt r.y, fmtInt r.width, fmtInt r.height]

/-- A rectangle with numbers that fit into an `int`. -/
def Small (r : Rect) : Prop := InInt32 r.x ∧ InInt32 r.y ∧ InInt32 r.width ∧ InInt32 r.height

/-- The tracker finds these rectangles in the images, one after another. -/
inductive Finds {τ : Type} (T : Tracker τ) : τ → List Str → List Rect → Prop
  | nil {t} : Finds T t [] []
  | cons {t i rest r t' rs} : T.update t i = some (r, t') → Finds T t' rest rs → Finds T t (i :: rest) (r :: rs)

/-- A pixel of a rectangle. -/
def Rect.Has (r : Rect) (i j : Int) : Prop := r.x ≤ i ∧ i < r.x + r.width ∧ r.y ≤ j ∧ j < r.y + r.height

end Trax.Ncc.Spec
