import Verif.Model.Handle

/-!
# What the library tells about errors

include/trax.h 307–310 and 811–814: the text of the error of the last call, nothing if there was none.
-/

namespace Trax.Spec

/-- The text for a call that is not allowed, from what the caller knows of the handle: whether it is alive, whether there can be more than
one object, the version and the number of objects. -/
def Refused (alive multi : Bool) (version : Int) (objects : Nat) (c : Handle.Call) (text : Str) : Prop :=
  match c with
  | .clientWait _ => alive = false ∧ text = b!"Tracker not alive"
  | .clientInitialize _ objs _ =>
    (alive = false ∧ text = b!"Client not alive") ∨
    (alive = true ∧ objs = [] ∧ text = b!"At least one object required") ∨
    (alive = true ∧ multi = false ∧ 2 ≤ objs.length ∧ text = b!"Too many objects given")
  | .clientFrame _ objs _ =>
    (alive = false ∧ text = b!"Client not alive") ∨
    (alive = true ∧ 4 ≤ version ∧ multi = false ∧ 2 ≤ objects + (objs.getD []).length ∧ text = b!"Invalid mode") ∨
    (alive = true ∧ version < 4 ∧ 1 ≤ (objs.getD []).length ∧ text = b!"Unable to add new objects")
  | .serverWaitSot _ | .serverReplySot .. =>
    (alive = false ∧ text = b!"Server not alive") ∨ (alive = true ∧ 4 ≤ version ∧ text = b!"Invalid mode")
  | .serverWaitMot _ => alive = false ∧ text = b!"Server not alive"
  | .serverReplyMot objs =>
    (alive = false ∧ text = b!"Server not alive") ∨
    (alive = true ∧ multi = false ∧ objs.length ≠ 1 ∧ text = b!"Invalid mode") ∨
    (alive = true ∧ (multi = true ∨ objs.length = 1) ∧ objs.length ≠ objects ∧ text = b!"Invalid object count")
  | _ => False

/-- Calls that only ask. -/
def Asks : Handle.Call → Prop
  | .setParameter .. | .getParameter .. | .getError | .isAlive => True
  | _ => False

/-- Calls of the client that send something. -/
def Sends : Handle.Call → Prop
  | .clientInitialize .. | .clientFrame .. => True
  | _ => False

end Trax.Spec
