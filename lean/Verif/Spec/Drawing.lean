import Verif.Spec.OpenCv

/-!
# What is drawn of a region

How far a vertex may be from the place where it is drawn, and the list of vertices of a polygon next to the list of the
places where they are drawn.
-/

namespace Trax.Spec

/-- `n` is the number `q` without its fraction. -/
def WithoutFraction (q : ℚ) (n : Int) : Prop :=
  (0 ≤ q → (n : ℚ) ≤ q ∧ q < n + 1) ∧ (q ≤ 0 → (n : ℚ) - 1 < q ∧ q ≤ n)

/-- One place for each vertex, in the same order, with both coordinates near to those of the vertex. -/
def DrawnAt (near : ℚ → Int → Prop) (vertices : List (Flt × Flt)) (places : List (Int × Int)) : Prop :=
  List.Forall₂ (fun v p => near v.1.value p.1 ∧ near v.2.value p.2) vertices places

end Trax.Spec
