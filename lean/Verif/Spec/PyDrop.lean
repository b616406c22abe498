import Verif.Model.PyDrop

/-!
# Specification: the end of clients and servers in Python
-/

namespace Trax

open Handle Py.Drop

/-- The object of a Python program that has a session: a client, or a server with or without log. -/
def Py.Drop.IsSession (s : Session) (h : Handle) : Prop := s = clientObject h ∨ ∃ log, s = serverObject log h

/-- What the log function has been told. -/
def Py.Drop.Told : List LogCall → Str
  | [] => []
  | .text s :: rest => s ++ Told rest
  | .flush :: rest => Told rest

/-- The reason, as the peer gets it. -/
def Py.Drop.reasonPairs (reason : Option Str) : List (Str × Str) := match reason with
  | none => []
  | some s => [(b!"trax.reason", s)]

end Trax
