import Verif.Model.PyMemory

/-!
# Specification: memory of Python programs
-/

namespace Trax.Py.Life.Spec

/-- The object of the library at this address exists: it was made, and not released. -/
def Live (s : State) (p : Nat) : Prop := ∃ b, s.mem[p]? = some (some b)

/-- The program can reach a Python object that refers to the object of the library at this address. -/
def Reached (s : State) (p : Nat) : Prop := ∃ v ∈ s.vars, ∃ w ∈ v, ∃ e ∈ s.refs, e.2.wrapper = w ∧ e.2.item = .block p

/-- What `trax_server_wait` can give: requests come with an image list, of three channels; the start of tracking comes with objects; an error comes with
nothing. -/
def ServerGives (a : Arrival) : Prop :=
  (a.ret = TRAX_INITIALIZE → ∃ l n, a.images = some l ∧ l.length = 3 ∧ a.objects = some n) ∧
  (a.ret = TRAX_FRAME → ∃ l, a.images = some l ∧ l.length = 3) ∧
  (a.ret ≠ TRAX_INITIALIZE → a.ret ≠ TRAX_FRAME → a.images = none) ∧
  (a.ret ≠ TRAX_INITIALIZE → a.ret ≠ TRAX_FRAME → a.ret ≠ TRAX_QUIT → a.objects = none)

/-- What `trax_client_wait` can give: without error or end of the session, objects. -/
def ClientGives (a : Arrival) : Prop := a.ret ≠ TRAX_ERROR → a.ret ≠ TRAX_QUIT → ∃ n, a.objects = some n

/-- The answers of the library in a step are possible. -/
def Possible : Op → Prop
  | .wait a => ServerGives a
  | .call _ _ _ _ a _ => ClientGives a
  | _ => True

/-- A step that does not lose an object: no polygon of points that are none, and no end of the session that comes after objects. -/
def Clean : Op → Prop
  | .badPolygon => False
  | .wait a => a.ret = TRAX_QUIT → a.objects = none
  | _ => True

end Trax.Py.Life.Spec
