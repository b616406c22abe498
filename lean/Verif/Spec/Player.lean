import Verif.Spec.Options
import Verif.Model.Player
import Verif.Spec.Float

/-!
# What a user does in front of `traxplayer`

The letters of its switches, the list of what the user does with the mouse and the keyboard, one thing after the other, and the
rectangle between two points.
-/

namespace Trax.Spec

open Trax.Player (Mouse Round)

/-- The letters that `traxplayer` reads. -/
def playerOptions : Letters :=
  [(ch%'h', false), (ch%'d', false), (ch%'V', true), (ch%'G', true), (ch%'t', true), (ch%'p', true), (ch%'e', true), (ch%'x', false),
   (ch%'X', false), (ch%'g', false)]

/-- The letters that the help of `traxplayer` describes. -/
def playerHelp : Letters :=
  [(ch%'d', false), (ch%'e', true), (ch%'g', false), (ch%'h', false), (ch%'V', true), (ch%'p', true), (ch%'t', true), (ch%'x', false),
   (ch%'X', false)]

/-- One thing that a user does: something with the mouse, or a key. -/
inductive Act where
  | mouse (m : Mouse)
  | key (code : Int)

/-- What is done in the turns of the loop, one after the other: in each turn first the mouse, then the key. -/
def acts (rounds : List Round) : List Act := rounds.flatMap fun r => r.mouse.map .mouse ++ [.key r.key]

/-- The mouse button goes down. -/
def Act.Press (a : Act) : Prop := ∃ x y, a = .mouse (.down x y)

/-- The mouse button goes up. -/
def Act.Release (a : Act) : Prop := ∃ x y, a = .mouse (.up x y)

/-- A key; only the lowest byte of its code counts. -/
def Act.Key (c : Byte) (a : Act) : Prop := ∃ code, a = .key code ∧ code.emod 256 = c.toNat

/-- In `done` the user presses the button at one point, releases it at another, and then neither makes another region nor takes this one back nor has confirmed one. -/
def Dragged (done : List Act) (x1 y1 x2 y2 : Int) : Prop :=
  ∃ before between after, done = before ++ .mouse (.down x1 y1) :: between ++ .mouse (.up x2 y2) :: after ∧
    (∀ a ∈ between, ¬ a.Press) ∧ (∀ a ∈ after, ¬ a.Release ∧ ¬ a.Key ch%'q') ∧ ∀ a ∈ done, ¬ a.Key ch%' '

/-- In `done` the user makes no region, or takes it back with the key Q, and has not confirmed one. -/
def Dropped (done : List Act) : Prop :=
  (∀ a ∈ done, ¬ a.Key ch%' ') ∧
  ((∀ a ∈ done, ¬ a.Release) ∨ ∃ before k after, done = before ++ k :: after ∧ k.Key ch%'q' ∧ ∀ a ∈ after, ¬ a.Release)

/-- The rectangle between two points: its upper left corner and its size. -/
def Between (x1 y1 x2 y2 : Int) (x y width height : Flt) : Prop :=
  x.value = (min x1 x2 : Int) ∧ y.value = (min y1 y2 : Int) ∧ width.value = (|x2 - x1| : Int) ∧ height.value = (|y2 - y1| : Int)

end Trax.Spec
