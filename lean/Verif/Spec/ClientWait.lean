import Verif.Model.Handle

/-!
# What a client may take as the answer of a tracker
-/

namespace Trax.Spec

/-- The first `n` messages that arrive. -/
def incoming : Nat → Stream → List ReadResult
  | 0, _ => []
  | n + 1, s => s.read.1 :: incoming n s.read.2

/-- The message tells the state of an object: its region and properties. -/
def TellsState (m : ReadResult) (r : Region) : Prop := m.mtype = some .state ∧ ∃ text overrun, m.args = [text] ∧ Region.parse text = .ok ⟨1, some r, overrun⟩

/-- The message ends the session. -/
def EndsSession (m : ReadResult) : Prop := m.mtype = some .quit ∧ m.args = []

/-- All messages before number `i` tell the state of objects. -/
def StatesBefore (ms : List ReadResult) (i : Nat) : Prop := ∀ j, j < i → ∀ m, ms[j]? = some m → ∃ r, TellsState m r

/-- Messages that are no answer: their types are hello, initialize or frame. -/
def Strange (m : ReadResult) : Prop := m.mtype = some .hello ∨ m.mtype = some .initialize ∨ m.mtype = some .frame

end Trax.Spec
