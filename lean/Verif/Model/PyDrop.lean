import Verif.Model.LogCalls
import Verif.Model.PySession

/-!
# Model of the Python package: the end of clients and servers

A `Client` or `Server` object has attributes: the function that C calls to log (`trax_logger`, an object of ctypes with memory of its own that C jumps to), and the
handle. When the object goes, CPython releases its attributes in the order in which they were first assigned (checked with CPython 3.11). Releasing the
handle ends the session, and this is logged.
-/

namespace Trax.Py.Drop

open Handle

/-- The attributes that matter; `other` are those that refer to nothing of the library. -/
inductive Attr where
  | callback | handle | other
  deriving DecidableEq, Repr

/-- The log function of a session: none (NULL), one that exists, one whose memory was released. -/
inductive Callback where
  | null | exists | released
  deriving DecidableEq, Repr

/-- A `Client` or `Server` object: its attributes in the order of their first assignment, the handle, the log function and its calls. -/
structure Session where
  attrs : List Attr
  handle : ServerState
  callback : Callback
  log : List LogCall

/-- The attributes of a `Client` (`support/python/trax/client.py` 30–105): `_logger`, `_clogger`, `_handle`, and seven others. There is always a log function,
because otherwise `trax_logger_setup` raises an exception (43). -/
def clientObject (h : Handle) : Session := ⟨[.other, .callback, .handle] ++ List.replicate 7 .other, .running h, .exists, []⟩

/-- The attributes of a `Server` (`support/python/trax/server.py` 43–86): `_logger`, `_handle`. Without log the function is `trax_logger()`, which is NULL. -/
def serverObject (log : Bool) (h : Handle) : Session := ⟨[.callback, .handle], .running h, if log then .exists else .null, []⟩

/-- The library logs (`LOG_BUFFER`, `LOG_CHAR`, `src/message.h` 68–69): it jumps to the function unless it is NULL. -/
def report (s : Session) (calls : List LogCall) : Outcome Session := match s.callback with
  | .null => .ok s
  | .exists => .ok { s with log := s.log ++ calls }
  | .released => if calls = [] then .ok s else .ub

/-- The log calls of `trax_terminate` (`src/trax.c` 1449–1476). -/
def terminateCalls (h : Handle) (reason : Option Str) : List LogCall :=
  if ¬ h.alive then [] else h.stream.out.messageCalls .quit [] (quitProperties reason)

/-- The `HandleWrapper` goes (`support/python/trax/__init__.py` 161–171, 296–306): `trax_cleanup` (`src/trax.c` 1478–1496). -/
def releaseHandle (s : Session) : Outcome Session := match s.handle with
  | .ended _ => .ok s
  | .running h => (report s (terminateCalls h none)).map fun s => { s with handle := .ended h.cleanup.2 }

/-- An attribute is released. -/
def release (s : Session) : Attr → Outcome Session
  | .callback => .ok { s with callback := if s.callback = .null then .null else .released }
  | .handle => releaseHandle s
  | .other => .ok s

/-- Attributes are released one after the other. -/
def releaseAll (s : Session) : List Attr → Outcome Session
  | [] => .ok s
  | a :: rest => (release s a).bind fun s => releaseAll s rest

/-- The last reference to a `Client` or `Server` object goes. -/
def drop (s : Session) : Outcome Session := releaseAll s s.attrs

/-- The reason in C. -/
def reasonC (reason : Option Text) : Except Exc (Option Str) := match reason with
  | none => .ok none
  | some t => (toC t).map some

/-- `Client.quit` (`support/python/trax/client.py` 276–288). -/
def clientEnd (s : Session) (reason : Option Text) : Outcome (Except Exc Unit × Session) := match s.handle with
  | .ended _ => .ok (.error .attribute, s)
  | .running h => match reasonC reason with
    | .error e => .ok (.error e, s)
    | .ok r => (report s (terminateCalls h r)).map fun s => (.ok (), { s with handle := .running (h.terminate r).2 })

/-- `Server.quit` (`support/python/trax/server.py` 160–174): `trax_terminate` does not fail; the last line releases the handle. -/
def serverEnd (s : Session) (reason : Option Text) : Outcome (Except Exc Unit × Session) := match s.handle with
  | .ended _ => .ok (.error .attribute, s)
  | .running h => match reasonC reason with
    | .error e => .ok (.error e, s)
    | .ok r => (report s (terminateCalls h r)).bind fun s => (releaseHandle { s with handle := .running (h.terminate r).2 }).map fun s => (.ok (), s)

end Trax.Py.Drop
