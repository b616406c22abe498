import Verif.Model.LogThreads
import Verif.Spec.Logger

/-!
# What the log of a tracker has to contain, whatever the schedule
-/

namespace Trax.LogSys.Spec
open Trax.Spec (OneLine Limited LinesShorter)

/-- Everything written to a file. -/
def printed (f : File) : List Event → Str
  | [] => []
  | .print g t :: es => if g = f then t ++ printed f es else printed f es
  | _ :: es => printed f es

/-- Everything that came over the connection outside of the messages. -/
def relayed : List Event → Str
  | [] => []
  | .relay c :: es => c :: relayed es
  | _ :: es => relayed es

/-- What the logger thread has read of the error stream of the first tracker. -/
def consumed (es : List Event) : Str := (printed (.tracker 0) es).take (es.count .read)

/-- Nothing, or a text with a line end at its end. -/
def Ended (t : Str) : Prop := t = [] ∨ t.getLast? = some ch%'\n'

/-- The tracker does not pause for a second, and no message comes, in the middle of a line. -/
def NoPause (es : List Event) : Prop :=
  ∀ pre e post, es = pre ++ e :: post → (e = .settle → Ended (consumed pre)) ∧ (e = .relayEnd → Ended (relayed pre))

/-- A part of a log: whether it comes from the error stream, and the text. -/
abbrev Piece := Bool × Str

/-- The log. -/
def text (ps : List Piece) : Str := (ps.map (·.2)).flatten

/-- What it has from the error stream (`true`) or from the connection (`false`). -/
def share (b : Bool) (ps : List Piece) : Str := text (ps.filter (·.1 == b))

/-- A line with its end. -/
def WholeLine (t : Str) : Prop := ∃ l, OneLine l ∧ t = l ++ [ch%'\n']

end Trax.LogSys.Spec
