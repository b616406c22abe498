import Verif.Model.PyInterrupt

/-!
# Specification of interrupted calls of Python clients
-/

namespace Trax

/-- The call was made: the library sent the request, or refused it. When an argument is not suitable an exception of another kind is raised before. -/
def Py.Spec.Made (r : Except Exc Unit) : Prop := r = .ok () ∨ r = .error .trax

/-- What a call without interrupts tells, as a call of a client whose logger was not interrupted. -/
def Py.Spec.undisturbed {α : Type} (r : Except Failure α) : Except Raised α := match r with
  | .ok a => .ok a
  | .error f => .error (.failed f)

/-- The handle, when more input has arrived. -/
def Py.Spec.after (arrives : Writer → List InEv) (h : Handle) : Handle := { h with stream := { h.stream with input := h.stream.input ++ arrives h.stream.out } }

end Trax
