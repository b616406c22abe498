import Verif.Model.Tester

/-!
# What the test of a tracker is meant to do
-/

namespace Trax.Tester.Spec

/-- `n` answers, each followed by a new image; with several objects, a new object comes with the images 3, 8, 13 and 18. -/
def rounds (multi : Bool) (n : Nat) : List Call :=
  (List.range n).flatMap fun f => [.wait, .frame (if multi = true ∧ f ∈ [3, 8, 13, 18] then 1 else 0)]

/-- A session: an initialization with one object, or three, then twenty answers, or fewer if the tracker asks to end
the session instead of an answer. -/
def Session (multi : Bool) (calls : List Call) : Prop :=
  ∃ n ≤ 20, calls = .init (if multi then 3 else 1) :: rounds multi n ++ if n = 20 then [] else [.wait]

/-- A tracker that always answers and accepts everything. -/
structure Perfect {σ : Type} (T : Subject σ) : Prop where
  ready : ∀ t, (T.ready t).1 = true
  init : ∀ n t, (T.init n t).1 = true
  wait : ∀ t, ∃ r, (T.wait t).1 = .state r
  frame : ∀ n t, (T.frame n t).1 = true

end Trax.Tester.Spec
