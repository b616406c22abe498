import Verif.Model.PySession

/-!
# Model of the Python package: the texts of exceptions (`support/python/trax/server.py`, `client.py`)

The calls are those of `Model/PySession`, in which a `TraxException` has no text. The only place where such an exception is raised after a call of
the library is the branch for the status `error`, in which the text is made of a beginning and of what `trax_get_error` returns.
-/

namespace Trax.Py

/-- What a call raises. -/
inductive Thrown where
  | exc (e : Exc)
  /-- a `TraxException` with its text -/
  | trax (text : Text)
  /-- a `TraxException`: after the beginning comes a text with indeterminate numbers -/
  | garbled (start : Text)
  deriving DecidableEq, Repr

/-- The three lines that make the exception (`support/python/trax/client.py` 187–189, 245–247, 264–266, `server.py` 123–125, 142–144, 170–172):
the text of `trax_get_error` is decoded, NULL is replaced. The indeterminate parts of a text are decimal numbers, so that it can be decoded. -/
def raiseTold (start : Text) : ErrorText → Thrown
  | .none => .trax (start ++ t!"Unknown")
  | .text s => match fromC s with
    | .error e => .exc e
    | .ok t => .trax (start ++ t)
  | .garbled => .garbled start

/-- The exception of a call after which the handle is `h`. -/
def raiseAfter (start : Text) (h : Handle) : Exc → Thrown
  | .trax => raiseTold start h.getError
  | e => .exc e

/-- The beginning of the text when sending fails (`support/python/trax/client.py` 189, 247). -/
def sendStart (start : Bool) : Text :=
  if start then t!"Exception when initializing tracker: " else t!"Exception when sending frame to tracker: "

/-- The first half of `Client.initialize` and `Client.frame` (`support/python/trax/client.py` 177–190, 235–247). -/
def clientSendText (env : Env) (start : Bool) (h : Handle) (images : List (Text × Image)) (objects : Option (List (Region × Dict))) (properties : Dict) :
    Outcome (Except Thrown Unit × Handle) :=
  (clientSend env start h images objects properties).map fun (r, h') => (r.mapError (raiseAfter (sendStart start) h'), h')

/-- The exception for a failure of the second half of `Client.initialize` (`start`, `support/python/trax/client.py` 205–212; the lines 214–217 are never
reached) and `Client.frame` (263–272). -/
def raiseWait (start : Bool) (h : Handle) : Failure → Thrown
  | .exc .trax => if start then .trax t!"Exception when waiting for response" else raiseTold t!"Exception when waiting for response: " h.getError
  | .exc e => .exc e
  | .ended none => .trax t!"Server terminated the session"
  | .ended (some reason) => .trax (t!"Server terminated the session: " ++ reason)

/-- The second half of `Client.initialize` and `Client.frame` (`support/python/trax/client.py` 191–219, 249–274). -/
def clientReceiveText (env : Env) (start : Bool) (h : Handle) : Outcome (Except Thrown (List (Option Region × Dict)) × Handle) :=
  (clientReceive env h).map fun (r, h') => (r.mapError (raiseWait start h'), h')

/-- `Server.wait` (`support/python/trax/server.py` 88–125). -/
def serverWaitText (env : Env) (fuel : Nat) (h : Handle) : Option (Outcome (Except Thrown Request × Handle)) :=
  (serverWait env fuel h).map fun o => o.map fun (r, h') => (r.mapError (raiseAfter t!"Exception when waiting for command: " h'), h')

/-- `Server.status` (`support/python/trax/server.py` 127–146). -/
def serverStatusText (env : Env) (h : Handle) (objects : List (Region × Dict)) (properties : Dict) : Outcome (Except Thrown Unit × Handle) :=
  (serverStatus env h objects properties).map fun (r, h') => (r.mapError (raiseAfter t!"Exception when sending status: " h'), h')

end Trax.Py
