import Verif.Model.PyStart

/-!
# Model of the Python package: interrupts and failing constructors (`support/python/trax/client.py`, `server.py`)

A client with a logger (without one its constructor raises, see `Model/PyStart`). The user can interrupt the program while the library calls the
logger; `Logger.__call__` catches the exception and notes it (`support/python/trax/__init__.py` 83–91, `Model/LogCalls`). Of each call of the library it
is given whether that happens during the call. Interrupts at other moments, when no code of the library runs, are not modelled.
-/

namespace Trax.Py

/-- A client: its handle, and the attribute `_interrupted` of its logger. -/
structure Session where
  handle : Handle
  interrupted : Bool
  deriving DecidableEq, Repr

/-- What a call of the client raises. -/
inductive Raised where
  | failed (f : Failure)
  /-- `KeyboardInterrupt` -/
  | keyboard
  deriving DecidableEq, Repr

/-- The arguments of `Client.initialize` and `Client.frame` as the library takes them (`support/python/trax/client.py` 177–179, 235–237). -/
def callArguments (env : Env) (images : List (Text × Image)) (objects : Option (List (Region × Dict))) (properties : Dict) :
    Outcome (Except Exc (ImageList × ObjList × Properties)) :=
  (wrapImages images).bind fun timage => match timage, objects with
    | .error e, _ => .ok (.error e)
    | .ok _, none => .ok (.error .type)
    | .ok timage, some objects => (wrapObjects env objects).bind fun tobjects => match tobjects, propNew properties with
      | .error e, _ => .ok (.error e)
      | .ok _, .error e => .ok (.error e)
      | .ok tobjects, .ok tproperties => .ok (.ok (timage, tobjects, tproperties))

/-- The first half of `Client.initialize` and `Client.frame` (`support/python/trax/client.py` 177–189, 235–247); `during`: the logger is interrupted while the library writes. -/
def Session.send (env : Env) (start : Bool) (s : Session) (images : List (Text × Image)) (objects : Option (List (Region × Dict))) (properties : Dict) (during : Bool) :
    Outcome (Except Raised Unit × Session) :=
  (callArguments env images objects properties).bind fun a => match a with
    | .error e => .ok (.error (.failed (.exc e)), s)
    | .ok (timage, tobjects, tproperties) =>
      (if start then Handle.clientInitialize env s.handle timage tobjects (some tproperties)
        else Handle.clientFrame env s.handle timage (some tobjects) (some tproperties)).map fun (ret, h) =>
        let s : Session := ⟨h, s.interrupted || during⟩
        if s.interrupted then (.error .keyboard, s)
        else if statusDecode ret = some t!"error" then (.error (.failed (.exc .trax)), s)
        else (.ok (), s)

/-- The second half of `Client.initialize` and `Client.frame` (`support/python/trax/client.py` 191–219, 249–274); `during`: the logger is interrupted while the library reads. -/
def Session.receive (env : Env) (s : Session) (during : Bool) : Outcome (Except Raised (List (Option Region × Dict)) × Session) :=
  (Handle.clientWait env s.handle (some Properties.create)).bind fun r =>
    let s : Session := ⟨r.handle, s.interrupted || during⟩
    let status := statusDecode r.ret
    if s.interrupted then .ok (.error .keyboard, s)
    else if status = some t!"error" then .ok (.error (.failed (.exc .trax)), s)
    else if status = some t!"quit" then
      match propGet (r.props.getD Properties.create) t!"trax.reason" none with
      | .error e => .ok (.error (.failed (.exc e)), s)
      | .ok reason => .ok (.error (.failed (.ended reason)), s)
    else (wrapObjectList env r.objects).map fun objects => (.ok objects, s)

/-- `Client.initialize` (`start`) and `Client.frame` (`support/python/trax/client.py` 168–274). `arrives` is what has come from the tracker when the client waits, given
all that the client wrote. -/
def Session.call (env : Env) (start : Bool) (s : Session) (images : List (Text × Image)) (objects : Option (List (Region × Dict))) (properties : Dict)
    (arrives : Writer → List InEv) (sending waiting : Bool) : Outcome (Except Raised (List (Option Region × Dict)) × Session) :=
  (s.send env start images objects properties sending).bind fun (sent, s) => match sent with
    | .error r => .ok (.error r, s)
    | .ok () => Session.receive env
        { s with handle := { s.handle with stream := { s.handle.stream with input := s.handle.stream.input ++ arrives s.handle.stream.out } } } waiting

/-- `Client.quit` (`support/python/trax/client.py` 276–288). -/
def Session.quit (s : Session) (reason : Option Text) (during : Bool) : Except Raised Unit × Session :=
  match (match reason with | none => .ok none | some t => (toC t).map some : Except Exc (Option Str)) with
  | .error e => (.error (.failed (.exc e)), s)
  | .ok reason =>
    let s : Session := ⟨(s.handle.terminate reason).2, s.interrupted || during⟩
    (if s.interrupted then .error .keyboard else .ok (), s)

/-- A call of a client, with what happens during it. -/
inductive ClientCall where
  | request (start : Bool) (images : List (Text × Image)) (objects : Option (List (Region × Dict))) (properties : Dict) (arrives : Writer → List InEv) (sending waiting : Bool)
  | quit (reason : Option Text) (during : Bool)

/-- One call: whether it returns (`none`) or what it raises. -/
def Session.step (env : Env) (s : Session) : ClientCall → Outcome (Option Raised × Session)
  | .request start images objects properties arrives sending waiting =>
    (s.call env start images objects properties arrives sending waiting).map fun (r, s) => (match r with | .ok _ => none | .error e => some e, s)
  | .quit reason during => match s.quit reason during with
    | (.ok (), s) => .ok (none, s)
    | (.error e, s) => .ok (some e, s)

/-- A history of calls of one client. -/
def Session.history (env : Env) : Session → List ClientCall → Outcome (List (Option Raised) × Session)
  | s, [] => .ok ([], s)
  | s, c :: cs => (s.step env c).bind fun (r, s) => (Session.history env s cs).map fun (rs, s) => (r :: rs, s)

/-! ## Constructors -/

/-- What a constructor made and did not give to the new object: handles and introductions that nobody will release (`lost`), and the output of
handles that were cleaned up (`closed`). -/
structure Remains where
  lost : List Handle
  closed : List Writer
  deriving DecidableEq, Repr

/-- `Client.__init__` (`support/python/trax/client.py` 30–104) over a stream. The wrapper that releases the handle is made in line 82; when an exception follows, the client and
with it the wrapper go. Before, the handle is a pointer in a local variable. -/
def clientNew (log : Bool) (stream : Stream) (during : Bool) : Outcome (Except Raised (ClientInfo × Session) × Remains) :=
  if log = false then .ok (.error (.failed (.exc .argument)), ⟨[], []⟩)
  else (Handle.clientSetup stream).map fun handle =>
    if during then (.error .keyboard, ⟨handle.toList, []⟩)
    else match handle with
      | none => (.error (.failed (.exc .trax)), ⟨[], []⟩)
      | some h =>
        if h.isAlive then match clientInfo h with
          | .error e => (.error (.failed (.exc e)), ⟨[], [h.cleanup.2]⟩)
          | .ok info => (.ok (info, ⟨h, false⟩), ⟨[], []⟩)
        else (.error (.failed (.exc .attribute)), ⟨[h], []⟩)

/-- `Server.__init__` (`support/python/trax/server.py` 46–86): the result, and the descriptions made by `trax_metadata_create` that were not released (73). -/
def serverNew (junk : UInt32) (a : ServerArgs) (stream : Stream) : Outcome (Except Exc Handle × List Metadata) :=
  match a.encoded with
  | .error e => .ok (.error e, [])
  | .ok ((r, i, c), n, d, f) =>
    (Metadata.create (.ofNat r) (.ofNat i) (.ofNat c) (some n) (some d) (some f) (if a.multiobject then 1 else 0)).bind fun m =>
      match propSetAll m.custom a.custom with
      | .error e => .ok (.error e, [m])
      | .ok custom => (Handle.serverSetup junk { m with custom } stream 0).map fun h => (if h.isAlive then .ok h else .error .attribute, [])

end Trax.Py
