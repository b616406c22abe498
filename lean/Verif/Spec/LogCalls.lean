import Verif.Model.LogCalls
import Verif.Spec.Wire
import Verif.Model.MessageOps

/-!
# Specification of loggers
-/

namespace Trax.Spec

/-- The reader finds no more characters: the input fails or ends, or has a byte that is not ASCII. -/
def NoMore (input rest : List InEv) : Prop :=
  (input = [] ∧ rest = []) ∨ input = .fail :: rest ∨ ∃ b : UInt8, 128 ≤ b.toNat ∧ input = .byte b :: rest

/-- The bytes of a message, as they came or went. When the connection ends within or after a message, the reader adds the end of the line. -/
def Passed : LogStep → Str → Prop
  | .read mtype props input, text =>
    let R := readMessage mtype props input
    input = bytes text ++ R.rest ∨
    ∃ got tail, input = bytes got ++ tail ∧ NoMore tail R.rest ∧ ((R.mtype = none ∧ text = got) ∨ text = got ++ [10])
  | .write w t args props, text => (w.writeMessage t args props).sent = w.sent ++ text

/-- A message that can be written on a connection that does not fail. -/
def LogProper : LogStep → Prop
  | .read _ _ _ => True
  | .write w _ args props => .fail ∉ w.script ∧ w.dead = false ∧ (∃ kvs, props = Properties.ofPairs kvs) ∧ ∀ a ∈ args, NoNul a

/-- The texts are UTF-8, as those that Python passes to C are, and no NUL is received. -/
def TextProper : LogStep → Prop
  | .read _ _ input => .byte 0 ∉ input
  | .write _ _ args props => (∀ a ∈ args, (Py.decode a).isSome) ∧ ∀ e ∈ props.enumerate, (Py.decode e.1).isSome ∧ (Py.decode e.2).isSome

end Trax.Spec
